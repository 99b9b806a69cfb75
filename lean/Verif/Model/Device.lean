import Verif.Model.Plm

/-
devices/connection.go, devices/matcher.go, devices/filters.go, devices/basic.go,
devices/util.go, devices/device.go
-/

namespace Insteon

/-- `MessageWriter` (devices/connection.go 41-44) over an arbitrary state of the world. Simplification:
`Write` takes the message by value; what a callee does to the caller's message object is given
by `Device.prepare` and `ttlMsg` below, the only two callees that modify it. -/
structure MsgIO (σ : Type) where
  read : σ → σ × MRes
  write : σ → Message → σ × MRes

/-! ### devices/matcher.go -/

/-- `Matcher` (devices/matcher.go 22-24): a function on messages. Matching the nil message panics, which is
modelled where matchers are called. -/
abbrev Matcher := Message → Bool

namespace Matcher
/-- `CmdMatcher.Matches` (devices/matcher.go 28-30). -/
def cmd (c : Command) : Matcher := fun m => c.matches' m.command
/-- `SrcMatcher` (devices/matcher.go 49-53). -/
def src (a : Address) : Matcher := fun m => m.src == a
/-- `DstMatcher` (devices/matcher.go 55-59). -/
def dst (a : Address) : Matcher := fun m => m.dst == a
/-- `AckMatcher` (devices/matcher.go 61-65). -/
def ack : Matcher := fun m => m.flags.ack || m.flags.nak
/-- `AllLinkMatcher` (devices/matcher.go 67-71). -/
def allLink : Matcher := fun m => m.flags.type.isAllLink
/-- `Not` (devices/matcher.go 73-77). -/
def not (f : Matcher) : Matcher := fun m => !f m
/-- `And` (devices/matcher.go 79-88): the loop returns false at the first part that does not match. -/
def and : List Matcher → Matcher
  | [] => fun _ => true
  | f :: fs => fun m => if !f m then false else and fs m
/-- `Or` (devices/matcher.go 90-99). -/
def or : List Matcher → Matcher
  | [] => fun _ => false
  | f :: fs => fun m => if f m then true else or fs m
/-- `MatchAck` (devices/matcher.go 103-105). -/
def matchAck (a : Message) : Matcher := and [not ack, dst a.src]
end Matcher

/-! ### devices/connection.go -/

/-- `Read` (devices/connection.go 77-85) with fuel; `none` when it is used up. A nil message without error
is passed to the matcher and panics. -/
def Dev.read {σ : Type} (io : MsgIO σ) (matcher : Matcher) : Nat → σ → Option (σ × MRes)
  | 0, _ => none
  | fuel + 1, s =>
    match io.read s with
    | (s, .panic) => some (s, .panic)
    | (s, .ret m (some e)) => some (s, .ret m (some e))
    | (s, .ret none none) => some (s, .panic)
    | (s, .ret (some m) none) => if matcher m then some (s, .ret (some m) none) else Dev.read io matcher fuel s

/-- `EngineVersion` (insteon.go 33). -/
abbrev EngineVersion := BitVec 64
/-- `VerI2Cs` (insteon.go 28). -/
abbrev verI2Cs : EngineVersion := 2#64
/-- `FirmwareVersion` (insteon.go 48). -/
abbrev FirmwareVersion := BitVec 64
/-- `DevCat` (insteon.go 67): domain and category. -/
abbrev DevCat := Byte × Byte

/-- `IDRequest` (devices/connection.go 46-56): version, category, error. -/
def idRequest {σ : Type} (io : MsgIO σ) (fuel : Nat) (s : σ) (dst : Address) :
    Option (σ × Out (FirmwareVersion × DevCat × Option Err)) :=
  match io.write s ⟨0, dst, Flags.standardDirectMessage, Cmd.idRequest, []⟩ with
  | (s, .panic) => some (s, .panic)
  | (s, .ret _ (some e)) => some (s, .ok (0, (0, 0), some e))
  | (s, .ret _ none) =>
    match Dev.read io (Matcher.or [Matcher.cmd Cmd.setButtonPressedResponder,
        Matcher.cmd Cmd.setButtonPressedController]) fuel s with
    | none => none
    | some (s, .panic) => some (s, .panic)
    | some (s, .ret _ (some e)) => some (s, .ok (0, (0, 0), some e))
    | some (s, .ret none none) => some (s, .panic)
    | some (s, .ret (some m) none) =>
      some (s, .ok ((byte32 m.dst).setWidth 64, (byte32 (m.dst >>> 16), byte32 (m.dst >>> 8)), none))

/-- `GetEngineVersion` (devices/connection.go 58-75). -/
def getEngineVersion {σ : Type} (io : MsgIO σ) (s : σ) (dst : Address) :
    σ × Out (EngineVersion × Option Err) :=
  match io.write s ⟨0, dst, Flags.standardDirectMessage, Cmd.getEngineVersion, []⟩ with
  | (s, .panic) => (s, .panic)
  | (s, .ret none none) => (s, .panic)
  | (s, .ret (some ack) none) => (s, .ok (ack.command.command2, none))
  | (s, .ret ack (some e)) =>
    if e = .devNak then
      match ack with
      | none => (s, .panic)
      | some ack => if ack.command.command2 = 0xff#64 then (s, .ok (verI2Cs, some .notLinked))
        else (s, .ok (0, some .devNak))
    else (s, .ok (0, some e))

/-! ### devices/util.go, devices/basic.go -/

/-- `checksum` (devices/util.go 9-15). -/
def checksum (cmd : Command) (buf : Bytes) : Byte :=
  ~~~(buf.foldl (fun sum b => sum + b) ((cmd.command1 + cmd.command2).setWidth 8)) + 1#8

/-- `setChecksum` (devices/util.go 5-7) on a non-empty buffer. -/
def setChecksum (cmd : Command) (buf : Bytes) : Bytes := buf.set (buf.length - 1) (checksum cmd buf)

/-- `DeviceInfo` (devices/device.go 155-160). -/
structure DeviceInfo where
  address : Address
  devCat : DevCat
  firmwareVersion : FirmwareVersion
  engineVersion : EngineVersion
deriving DecidableEq, Repr

/-- What `BasicDevice.Write` makes of the caller's message (devices/basic.go 56-82), in place. -/
def Device.prepare (info : DeviceInfo) (msg : Message) : Message :=
  let msg := { msg with dst := info.address, flags := Flags.standardDirectMessage }
  let msg := { msg with flags := (msg.flags.setMaxTTL 3#8).setTTL 3#8 }
  let msg := if 0 < msg.payload.length then { msg with flags := Flags.extendedDirectMessage } else msg
  if info.engineVersion = verI2Cs then
    if 0 < msg.payload.length then
      let payload := if msg.payload.length < 14 then copyPad 14 msg.payload else msg.payload
      { msg with payload := setChecksum msg.command payload }
    else msg
  else msg

/-- `BasicDevice.Write` (devices/basic.go 56-69). -/
def Device.write {σ : Type} (info : DeviceInfo) (io : MsgIO σ) (s : σ) (msg : Message) : σ × MRes :=
  io.write s (Device.prepare info msg)

/-- A `BasicDevice` is itself a `MessageWriter` (devices/basic.go 40-44: `Read` is promoted from the
embedded writer). -/
def Device.io {σ : Type} (info : DeviceInfo) (io : MsgIO σ) : MsgIO σ := ⟨io.read, Device.write info io⟩

namespace Device
variable {σ : Type}

/-- `BasicDevice.sendCommand`, `Send` (devices/basic.go 97-116). -/
def send (info : DeviceInfo) (io : MsgIO σ) (s : σ) (command : Command) (payload : Bytes) :
    σ × Out (Command × Option Err) :=
  match Device.write info io s ⟨0, 0, 0, command, payload⟩ with
  | (s, .panic) => (s, .panic)
  | (s, .ret _ (some e)) => (s, .ok (0, some e))
  | (s, .ret none none) => (s, .panic)
  | (s, .ret (some ack) none) => (s, .ok (ack.command, none))

/-- `BasicDevice.SendCommand` (devices/basic.go 88-91). -/
def sendCommand (info : DeviceInfo) (io : MsgIO σ) (s : σ) (command : Command) (payload : Bytes) :
    σ × Out (Option Err) :=
  match send info io s command payload with
  | (s, .ok (_, e)) => (s, .ok e)
  | (s, .err e) => (s, .err e)
  | (s, .panic) => (s, .panic)

/-- `BasicDevice.errLookup` (devices/basic.go 118-149), used only by tests. -/
def errLookup (info : DeviceInfo) (msg : Message) (err : Option Err) : Option Err :=
  if err = some .devNak then
    if info.engineVersion = verI2Cs then
      match (msg.command.command2 &&& 0xff#64).toNat with
      | 0xfb => some .illegalValue
      | 0xfc => some .preNak
      | 0xfd => some .incorrectChecksum
      | 0xfe => some .noLoadDetected
      | 0xff => some .notLinked
      | _ => some .unexpectedResponse
    else
      match (msg.command.command2 &&& 0xff#64).toNat with
      | 0xfd => some .unknownCommand
      | 0xfe => some .noLoadDetected
      | 0xff => some .notLinked
      | _ => some .unexpectedResponse
  else err

/-- Write a request and read the answer with the given command: the common part of `ProductData`,
`ExtendedGet` and the `Config` methods (devices/basic.go 153-155, 165-167; devices/switch.go 128-130;
devices/dimmer.go 84-86). -/
def query (info : DeviceInfo) (io : MsgIO σ) (fuel : Nat) (s : σ) (request : Command) (payload : Bytes)
    (answer : Command) : Option (σ × Out (Except Err Bytes)) :=
  match Device.write info io s ⟨0, 0, 0, request, payload⟩ with
  | (s, .panic) => some (s, .panic)
  | (s, .ret _ (some e)) => some (s, .ok (.error e))
  | (s, .ret _ none) =>
    match Dev.read (Device.io info io) (Matcher.cmd answer) fuel s with
    | none => none
    | some (s, .panic) => some (s, .panic)
    | some (s, .ret _ (some e)) => some (s, .ok (.error e))
    | some (s, .ret none none) => some (s, .panic)
    | some (s, .ret (some m) none) => some (s, .ok (.ok m.payload))

end Device

/-- `ProductData` (devices/device.go 26-29). -/
structure ProductData where
  key : Byte × Byte × Byte
  devCat : DevCat
deriving DecidableEq, Repr

namespace ProductData
/-- `ProductData.UnmarshalBinary` (devices/device.go 33-41). -/
def unmarshalBinary (pd : ProductData) (buf : Bytes) : ProductData × Option Err :=
  if buf.length < 14 then (pd, some (.wrapped .bufferTooShort))
  else (⟨(buf.getD 1 0, buf.getD 2 0, buf.getD 3 0), (buf.getD 4 0, buf.getD 5 0)⟩, none)
/-- `ProductData.MarshalBinary` (devices/device.go 45-51). -/
def marshalBinary (pd : ProductData) : Bytes :=
  [0, pd.key.1, pd.key.2.1, pd.key.2.2, pd.devCat.1, pd.devCat.2, 0xff#8]
/-- The zero value. -/
def zero : ProductData := ⟨(0, 0, 0), (0, 0)⟩
end ProductData

namespace Device
variable {σ : Type}

/-- `BasicDevice.ProductData` (devices/basic.go 152-162): nil unless a response was read. -/
def productData (info : DeviceInfo) (io : MsgIO σ) (fuel : Nat) (s : σ) :
    Option (σ × Out (Option ProductData × Option Err)) :=
  match query info io fuel s Cmd.productDataReq [] Cmd.productDataResp with
  | none => none
  | some (s, .panic) => some (s, .panic)
  | some (s, .err e) => some (s, .err e)
  | some (s, .ok (.error e)) => some (s, .ok (none, some e))
  | some (s, .ok (.ok payload)) =>
    let r := ProductData.zero.unmarshalBinary payload
    some (s, .ok (some r.1, r.2))

/-- `BasicDevice.ExtendedGet` (devices/basic.go 164-174). -/
def extendedGet (info : DeviceInfo) (io : MsgIO σ) (fuel : Nat) (s : σ) (data : Bytes) :
    Option (σ × Out (Bytes × Option Err)) :=
  match query info io fuel s Cmd.extendedGetSet data Cmd.extendedGetSet with
  | none => none
  | some (s, .panic) => some (s, .panic)
  | some (s, .err e) => some (s, .err e)
  | some (s, .ok (.error e)) => some (s, .ok ([], some e))
  | some (s, .ok (.ok payload)) => some (s, .ok (payload, none))

/-- `BasicDevice.EnterLinkingMode` (devices/basic.go 192-209); the sleep after a success is left out
here (`LinkTimed.linkingMode` has it). -/
def enterLinkingMode (info : DeviceInfo) (io : MsgIO σ) (s : σ) (group : Group) : σ × Out (Option Err) :=
  if info.engineVersion = verI2Cs then
    sendCommand info io s (Cmd.enterLinkingModeExt.subCommand (group.setWidth 64)) (List.replicate 14 0#8)
  else sendCommand info io s (Cmd.enterLinkingMode.subCommand (group.setWidth 64)) []

/-- `BasicDevice.EnterUnlinkingMode` (devices/basic.go 211-217). -/
def enterUnlinkingMode (info : DeviceInfo) (io : MsgIO σ) (s : σ) (group : Group) : σ × Out (Option Err) :=
  sendCommand info io s (Cmd.enterUnlinkingMode.subCommand (group.setWidth 64))
    (if info.engineVersion = verI2Cs then List.replicate 14 0#8 else [])

/-- `BasicDevice.ExitLinkingMode` (devices/basic.go 219-221). -/
def exitLinkingMode (info : DeviceInfo) (io : MsgIO σ) (s : σ) : σ × Out (Option Err) :=
  sendCommand info io s Cmd.exitLinkingMode []

end Device

/-! ### devices/filters.go -/

/-- `CacheFilter` (devices/filters.go 95-99): the slice, its capacity and the index of the newest
message, over any type of entries. -/
structure Cache (α : Type) where
  msgs : List α
  cap : Nat
  i : Nat
deriving DecidableEq, Repr

namespace Cache
variable {α : Type}

/-- `NewCache` (devices/filters.go 65-79). -/
def new (size : Nat) (messages : List α) : Cache α :=
  ⟨messages, if size < messages.length then messages.length else size, messages.length - 1⟩

/-- `CacheFilter.push` (devices/filters.go 101-118); nil is ignored; writing outside the slice
panics. -/
def push (c : Cache α) : Option α → Out (Cache α)
  | none => .ok c
  | some m =>
    let i := if 0 < c.msgs.length then c.i + 1 else c.i
    if c.msgs.length < c.cap then .ok { c with msgs := c.msgs ++ [m], i := i }
    else
      let i := if i = c.msgs.length then 0 else i
      if i < c.msgs.length then .ok { c with msgs := c.msgs.set i m, i := i } else .panic

/-- The loop of `Lookup` (devices/filters.go 130-140) with fuel. -/
def lookupLoop (c : Cache α) (f : α → Bool) (j : Nat) : Nat → Int → Option (Out (Option α))
  | 0, _ => none
  | fuel + 1, i =>
    let i : Int := if i < 0 then (c.msgs.length : Int) - 1 else i
    match c.msgs[i.toNat]? with
    | none => some .panic
    | some m => if f m then some (.ok (some m))
      else if i = j then some (.ok none)
      else lookupLoop c f j fuel (i - 1)

/-- `CacheFilter.Lookup` (devices/filters.go 120-142). -/
def lookup (c : Cache α) (f : α → Bool) (fuel : Nat) : Option (Out (Option α)) :=
  if c.msgs.length = 0 then some (.ok none)
  else
    let j := if c.i + 1 = c.msgs.length then 0 else c.i + 1
    lookupLoop c f j fuel c.i

end Cache

/-- A message object: identity and contents. -/
abbrev MsgObj := Nat × Message

/-- State of a `FilterDuplicates` filter (devices/filters.go 28-50): its cache, the state below, and a
counter standing for object identity (every message read is a new object). -/
structure DupSt (σ : Type) where
  cache : Cache MsgObj
  fresh : Nat
  inner : σ

namespace DupFilter
variable {σ : Type}

/-- `cache := NewCache(10)` (devices/filters.go 30). -/
def init (s : σ) : DupSt σ := ⟨Cache.new 10 [], 0, s⟩

/-- `CacheFilter.Filter`'s read (devices/filters.go 82-86): the object read is pushed, even with an
error. -/
def cacheRead (io : MsgIO σ) (s : DupSt σ) : DupSt σ × Out (Option MsgObj × Option Err) :=
  match io.read s.inner with
  | (t, .panic) => ({ s with inner := t }, .panic)
  | (t, .ret m e) =>
    let o : Option MsgObj := m.map (fun m => (s.fresh, m))
    match s.cache.push o with
    | .ok c => (⟨c, s.fresh + 1, t⟩, .ok (o, e))
    | _ => ({ s with inner := t }, .panic)

/-- `DuplicateMatcher` (devices/matcher.go 38-47). -/
def dupMatcher (o : MsgObj) : MsgObj → Bool := fun p => if o.1 ≠ p.1 then o.2.duplicate p.2 else false

/-- The reading loop (devices/filters.go 32-43) with fuel for it and for each lookup. -/
def read (io : MsgIO σ) : Nat → DupSt σ → Option (DupSt σ × MRes)
  | 0, _ => none
  | fuel + 1, s =>
    match cacheRead io s with
    | (s, .ok (o, some e)) => some (s, .ret (o.map Prod.snd) (some e))
    | (s, .ok (none, none)) => some (s, .panic)
    | (s, .ok (some o, none)) =>
      match s.cache.lookup (dupMatcher o) (s.cache.msgs.length + 1) with
      | some (.ok (some _)) => read io fuel s
      | some (.ok none) => some (s, .ret (some o.2) none)
      | some _ => some (s, .panic)
      | none => none
    | (s, _) => some (s, .panic)

/-- Writing (devices/filters.go 88-91): pushed first, then written. -/
def write (io : MsgIO σ) (s : DupSt σ) (m : Message) : DupSt σ × MRes :=
  match s.cache.push (some (s.fresh, m)) with
  | .ok c =>
    let r := io.write s.inner m
    (⟨c, s.fresh + 1, r.1⟩, r.2)
  | _ => (s, .panic)

end DupFilter

/-- What the TTL filter makes of a message (devices/filters.go 57-58), in place. -/
def ttlMsg (ttl : BitVec 64) (m : Message) : Message :=
  { m with flags := (m.flags.setMaxTTL (ttl.setWidth 8)).setTTL (ttl.setWidth 8) }

/-- `TTL` (devices/filters.go 52-63). -/
def ttlFilter {σ : Type} (ttl : BitVec 64) (io : MsgIO σ) : MsgIO σ :=
  ⟨io.read, fun s m => io.write s (ttlMsg ttl m)⟩

/-- The loop of `RetryFilter` (devices/filters.go 150-163); the argument is how often `t > 1` will still
hold. -/
def retryFilterLoop {σ : Type} (w : σ → Message → σ × MRes) (m : Message) : Nat → σ → σ × MRes
  | 0, s => w s m
  | n + 1, s =>
    match w s m with
    | (s, .ret a (some e)) => if e = .devReadTimeout then retryFilterLoop w m n s else (s, .ret a (some e))
    | r => r

/-- `RetryFilter` (devices/filters.go 144-168). -/
def retryFilter {σ : Type} (tries : Int) (io : MsgIO σ) : MsgIO σ :=
  ⟨io.read, fun s m => retryFilterLoop io.write m (tries - 1).toNat s⟩

/-! ### devices/device.go: Open, Lookup -/

/-- The filters that do not change the type of the state below; the first one is innermost
(devices/device.go 168-170). -/
def applyFilters {σ : Type} : List (MsgIO σ → MsgIO σ) → MsgIO σ → MsgIO σ
  | [], io => io
  | f :: fs, io => applyFilters fs (f io)

/-- `Open` (devices/device.go 167-182) on the filtered writer: whether a device is returned, the info and
the error. -/
def Dev.open {σ : Type} (io : MsgIO σ) (fuel : Nat) (s : σ) (dst : Address) :
    Option (σ × Out (Bool × DeviceInfo × Option Err)) :=
  match getEngineVersion io s dst with
  | (s, .panic) => some (s, .panic)
  | (s, .err e) => some (s, .err e)
  | (s, .ok (v, some e)) => some (s, .ok (decide (e = .notLinked), ⟨dst, (0, 0), 0, v⟩, some e))
  | (s, .ok (v, none)) =>
    match idRequest io fuel s dst with
    | none => none
    | some (s, .panic) => some (s, .panic)
    | some (s, .err e) => some (s, .err e)
    | some (s, .ok (fw, cat, none)) => some (s, .ok (true, ⟨dst, cat, fw, v⟩, none))
    | some (s, .ok (fw, cat, some e)) =>
      some (s, .ok (decide (e = .notLinked), ⟨dst, cat, fw, v⟩, some e))

/-- The concrete types `Lookup` distinguishes. -/
inductive DeviceClass where
  | basic | dimmer | switch | outlet | thermostat
deriving DecidableEq, Repr

/-- `Lookup` (devices/device.go 186-202). -/
def Dev.lookup (cat : DevCat) : DeviceClass :=
  if cat.1 = 0x01#8 then .dimmer
  else if cat.1 = 0x02#8 then (if cat.2 = 0x08#8 then .outlet else .switch)
  else if cat.1 = 0x05#8 then .thermostat
  else .basic

end Insteon
