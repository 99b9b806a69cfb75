import Verif.Model.Names
import Verif.Model.Device
import Verif.Model.Lighting
import Verif.Model.Database

/-
util/snoop.go: the filter that prints all messages that pass through it.
-/

namespace Insteon

/-- `snoop` (util/snoop.go 14-19): the cache, what is below, and what has been printed. Errors of the
writer are ignored by the code. Simplification: the cache keeps messages by value; the code keeps pointers, and
what is below may still set the flags of a message that was written. -/
structure Monitor (σ : Type) where
  cache : Cache Message
  inner : σ
  out : Bytes

namespace Monitor
variable {σ : Type}

/-- `Snoop` (util/snoop.go 129-135). -/
def init (s : σ) : Monitor σ := ⟨Cache.new 10 [], s, []⟩

/-- Type, source and destination (util/snoop.go 45-60). -/
def headText (m : Message) : Bytes :=
  if m.flags.type = .allLinkBroadcast then lit "SA " ++ m.src.string ++ lit " -> ff.ff.ff"
  else if m.flags.type = .broadcast then
    lit "SB " ++ m.src.string ++ lit " -> ff.ff.ff DevCat "
      ++ devCatString (byte32 (m.dst >>> 16)) (byte32 (m.dst >>> 8)) ++ lit " Firmware " ++ decByte (byte32 m.dst)
  else if m.flags.type = .allLinkCleanup then lit "SC " ++ m.src.string ++ lit " -> " ++ m.dst.string
  else (if m.flags.extended then lit "E" else lit "S") ++ lit "D " ++ m.src.string ++ lit " -> " ++ m.dst.string

/-- The command (util/snoop.go 63-81). A lookup that panicked or did not end is `panic`. -/
def commandText (cache : Cache Message) (m : Message) : Out Bytes :=
  if m.flags.ack then
    match cache.lookup (Matcher.matchAck m) (cache.msgs.length + 1) with
    | some (.ok (some prev)) => .ok (lit " " ++ prev.command.string ++ lit " ACK")
    | some (.ok none) =>
      .ok (lit " " ++ decByte (m.command.command1.setWidth 8) ++ lit "." ++ decByte (m.command.command2.setWidth 8)
        ++ lit " (unknown ACK)")
    | _ => .panic
  else if m.flags.type = .allLinkBroadcast then
    if Matcher.cmd 0x0c0600#64 m then
      .ok (lit " " ++ (m.command &&& 0xffff00#64).string ++ lit ": "
        ++ Command.string (0x0c0000#64 ||| ((m.dst >>> 16).setWidth 64 <<< 8)) ++ lit " Group " ++ decByte (byte32 m.dst)
        ++ lit " (cleanup " ++ decByte (byte32 (m.dst >>> 8)) ++ lit ", failed " ++ decByte (m.command.command2.setWidth 8)
        ++ lit ")")
    else .ok (lit " " ++ (m.command &&& 0xffff00#64).string ++ lit " Group " ++ decByte (byte32 m.dst))
  else if m.flags.type = .allLinkCleanup then
    .ok (lit " " ++ (m.command &&& 0xffff00#64).string ++ lit " Group " ++ decByte (m.command.command2.setWidth 8))
  else .ok (lit " " ++ m.command.string)

/-- What is decoded of a payload, as text, or the error (util/snoop.go 84-106). `&{...}` is how fmt prints a
pointer to a struct. `db` gives the device category known for an address. -/
def payloadData (db : Option (Address → Option DeviceInfo)) (m : Message) : Option (Except Err Bytes) :=
  if m.command.matches' Cmd.productDataResp then
    match ProductData.zero.unmarshalBinary m.payload with
    | (pd, none) => some (.ok (lit "&{" ++ productKeyString pd.key.1 pd.key.2.1 pd.key.2.2 ++ lit " "
        ++ devCatString pd.devCat.1 pd.devCat.2 ++ lit "}"))
    | (_, some e) => some (.error e)
  else if m.command.matches' Cmd.readWriteALDB then
    match LinkRequest.zero.unmarshalBinary m.payload with
    | (lr, none) => some (.ok lr.string)
    | (_, some e) => some (.error e)
  else if m.command.matches' Cmd.extendedGetSet then
    match db.bind (fun db => db m.src) with
    | none => none
    | some info =>
      let d (i : Nat) : Bytes := decByte (m.payload.getD i 0)
      if info.devCat.1 = 0x01#8 then
        match DimmerConfig.zero.unmarshalBinary m.payload with
        | (_, none) => some (.ok (lit "&{" ++ d 4 ++ lit " " ++ d 5 ++ lit " " ++ d 6 ++ lit " " ++ d 7 ++ lit " " ++ d 8 ++ lit "}"))
        | (_, some e) => some (.error e)
      else if info.devCat.1 = 0x02#8 then
        match SwitchConfig.zero.unmarshalBinary m.payload with
        | (_, none) => some (.ok (lit "&{" ++ d 4 ++ lit " " ++ d 5 ++ lit "}"))
        | (_, some e) => some (.error e)
      else none
  else none

/-- The payload (util/snoop.go 83-114); `errText` is `Error()` of an error value. -/
def payloadText (errText : Err → Bytes) (db : Option (Address → Option DeviceInfo)) (m : Message) : Bytes :=
  if m.flags.extended then
    lit " " ++ match payloadData db m with
      | some (.ok t) => t
      | some (.error e) => lit "payload error [" ++ payloadString (lit ", ") m.payload ++ lit "] " ++ errText e
      | none => lit "unknown payload [" ++ payloadString (lit ", ") m.payload ++ lit "]"
  else []

/-- `print` (util/snoop.go 44-116): what is printed for a message. -/
def line (errText : Err → Bytes) (db : Option (Address → Option DeviceInfo)) (cache : Cache Message) (m : Message) :
    Out Bytes :=
  match commandText cache m with
  | .ok t => .ok (headText m ++ lit " " ++ decByte m.flags.maxTTL ++ lit ":" ++ decByte m.flags.ttl ++ t
      ++ payloadText errText db m ++ lit "\n")
  | .err e => .err e
  | .panic => .panic

variable (errText : Err → Bytes) (db : Option (Address → Option DeviceInfo)) (io : MsgIO σ)

/-- `snoop.Read` (util/snoop.go 26-32) over `CacheFilter`'s read (devices/filters.go 82-86). Printing the nil
message panics. -/
def read (s : Monitor σ) : Monitor σ × MRes :=
  match io.read s.inner with
  | (t, .panic) => ({ s with inner := t }, .panic)
  | (t, .ret m e) =>
    match s.cache.push m with
    | .ok c =>
      (match m, e with
      | m, some e => (⟨c, t, s.out⟩, .ret m (some e))
      | none, none => (⟨c, t, s.out⟩, .panic)
      | some m, none =>
        (match line errText db c m with
        | .ok l => (⟨c, t, s.out ++ l⟩, .ret (some m) none)
        | _ => (⟨c, t, s.out⟩, .panic)))
    | _ => ({ s with inner := t }, .panic)

/-- `snoop.Write` (util/snoop.go 34-42) over `CacheFilter`'s write (devices/filters.go 88-91). -/
def write (s : Monitor σ) (m : Message) : Monitor σ × MRes :=
  match line errText db s.cache m with
  | .ok l =>
    (match s.cache.push (some m) with
    | .ok c =>
      (match io.write s.inner m with
      | (t, .panic) => (⟨c, t, s.out ++ l⟩, .panic)
      | (t, .ret none e) => (⟨c, t, s.out ++ l⟩, .ret none e)
      | (t, .ret (some a) e) =>
        (match line errText db c a with
        | .ok l' => (⟨c, t, s.out ++ l ++ l'⟩, .ret (some a) e)
        | _ => (⟨c, t, s.out ++ l⟩, .panic)))
    | _ => ({ s with out := s.out ++ l }, .panic))
  | _ => (s, .panic)

/-- `snoop` as a message writer (util/snoop.go 21-24). -/
def over : MsgIO (Monitor σ) := ⟨read errText db io, write errText db io⟩

end Monitor

end Insteon
