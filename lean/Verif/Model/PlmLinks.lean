import Verif.Model.Plm

/-
plm/linkdb.go
-/

namespace Insteon

/-- The `packetWriter` interface (plm/port.go 25-28) over an arbitrary state. -/
structure PacketWriter (σ : Type) where
  write : σ → Packet → σ × PRes
  read : σ → σ × PRes

/-- The PLM as a `packetWriter` (plm/plm.go 87). -/
def Plm.asWriter {σ : Type} (io : PlmIO σ) : PacketWriter σ := ⟨Plm.writePacket io, Plm.readPacket io⟩

/-- `manageRecordRequest` (plm/linkdb.go 35-38). -/
structure ManageRecord where
  cmd : Byte
  link : LinkRecord
deriving DecidableEq, Repr

namespace ManageRecord
/-- `MarshalBinary` (plm/linkdb.go 44-50). -/
def marshalBinary (m : ManageRecord) : Bytes := m.cmd :: m.link.marshalBinary

/-- `UnmarshalBinary` (plm/linkdb.go 52-56); an empty buffer panics. -/
def unmarshalBinary (buf : Bytes) : Out (ManageRecord × Option Err) :=
  match buf with
  | [] => .panic
  | c :: rest => let r := LinkRecord.unmarshalBinary LinkRecord.zero rest; .ok (⟨c, r.1⟩, r.2)
end ManageRecord

/-- `allLinkReq.MarshalBinary` (plm/linkdb.go 65-67). -/
def allLinkReq (mode : Byte) (group : Group) : Bytes := [mode, group]

/-- `allLinkReq.UnmarshalBinary` (plm/linkdb.go 69-77). -/
def parseAllLinkReq (buf : Bytes) : Except Err (Byte × Group) :=
  match buf with
  | m :: g :: _ => .ok (m, g)
  | _ => .error (.wrapped .bufferTooShort)

namespace PlmLinks
variable {σ : Type}

/-- The loop of `refresh` (plm/linkdb.go 101-114) after a successful write, with fuel. Result: the
records collected and the error that ended the loop, or a panic (nil packet). -/
def refreshLoop (w : PacketWriter σ) (retries : Int) :
    Nat → σ → List LinkRecord → Option (σ × Out (List LinkRecord × Err))
  | 0, _, _ => none
  | fuel + 1, s, links =>
    match w.read s with
    | (s, .panic) => some (s, .panic)
    | (s, .ret _ (some e)) => some (s, .ok (links, e))
    | (s, .ret none none) => some (s, .panic)
    | (s, .ret (some pkt) none) =>
      if pkt.command = PCmd.allLinkRecordResp then
        match LinkRecord.unmarshalBinary LinkRecord.zero pkt.payload with
        | (_, some e) => some (s, .ok (links, e))
        | (link, none) =>
          match retryWrite w.write retries false s ⟨PCmd.getNextAllLink, [], 0#8⟩ with
          | (s, .panic) => some (s, .panic)
          | (s, .ret _ (some e)) => some (s, .ok (links ++ [link], e))
          | (s, .ret _ none) => refreshLoop w retries fuel s (links ++ [link])
      else refreshLoop w retries fuel s links

/-- `refresh` (plm/linkdb.go 95-121): cached links → new cached links and error. `old()` is always
true because `age` is never set (plm/linkdb.go 84, 91-93), so the check is left out. -/
def refresh (w : PacketWriter σ) (retries : Int) (fuel : Nat) (s : σ) (cached : List LinkRecord) :
    Option (σ × Out (List LinkRecord × Option Err)) :=
  match retryWrite w.write retries true s ⟨PCmd.getFirstAllLink, [], 0#8⟩ with
  | (s, .panic) => some (s, .panic)
  | (s, .ret _ (some e)) => some (s, .ok (if e = .plmNak then ([], none) else (cached, some e)))
  | (s, .ret _ none) =>
    match refreshLoop w retries fuel s [] with
    | none => none
    | some (s, .ok (links, e)) => some (s, .ok (if e = .plmNak then (links, none) else (cached, some e)))
    | some (s, _) => some (s, .panic)

/-- `Links` (plm/linkdb.go 123-128): the result is a copy of the cache after `refresh`. -/
def links (w : PacketWriter σ) (retries : Int) (fuel : Nat) (s : σ) (cached : List LinkRecord) :
    Option (σ × Out (List LinkRecord × Option Err)) :=
  refresh w retries fuel s cached

/-- `deleteLink` (plm/linkdb.go 130-137). -/
def deleteLink (w : PacketWriter σ) (s : σ) (link : LinkRecord) : σ × PRes :=
  retryWrite w.write 3 true s
    ⟨PCmd.manageAllLinkRecord, ManageRecord.marshalBinary ⟨0x80#8, link⟩, 0#8⟩

/-- `writeLink` (plm/linkdb.go 139-149). -/
def writeLink (w : PacketWriter σ) (s : σ) (link : LinkRecord) : σ × PRes :=
  retryWrite w.write 3 true s
    ⟨PCmd.manageAllLinkRecord,
      ManageRecord.marshalBinary ⟨if link.flags.controller then 0x40#8 else 0x41#8, link⟩, 0#8⟩

/-- The deletion loop of `WriteLinks` (plm/linkdb.go 156-158). -/
def deleteAll (w : PacketWriter σ) : σ → List LinkRecord → σ × Out (Option Err)
  | s, [] => (s, .ok none)
  | s, l :: ls =>
    match deleteLink w s l with
    | (s, .panic) => (s, .panic)
    | (s, .ret _ (some e)) => (s, .ok (some e))
    | (s, .ret _ none) => deleteAll w s ls

/-- One round of the write loop (plm/linkdb.go 165-186): error, nil when the link is appended to the
cache. `UnmarshalBinary` errors are ignored there, leaving an empty record. -/
def writeOne (w : PacketWriter σ) (s : σ) (link : LinkRecord) : σ × Out (Option Err) :=
  match writeLink w s link with
  | (s, .panic) => (s, .panic)
  | (s, .ret _ none) => (s, .ok none)
  | (s, .ret ack (some e)) =>
    if e = .wrongPayload then
      match ack with
      | none => (s, .panic)
      | some ack =>
        match deleteLink w s (LinkRecord.unmarshalBinary LinkRecord.zero ack.payload).1 with
        | (s, .panic) => (s, .panic)
        | (s, .ret _ (some e)) => (s, .ok (some e))
        | (s, .ret _ none) =>
          match writeLink w s link with
          | (s, .panic) => (s, .panic)
          | (s, .ret _ e) => (s, .ok e)
    else (s, .ok (some e))

/-- The write loop of `WriteLinks` (plm/linkdb.go 164-191): cache so far → cache and error. -/
def writeAll (w : PacketWriter σ) : σ → List LinkRecord → List LinkRecord →
    σ × Out (List LinkRecord × Option Err)
  | s, cached, [] => (s, .ok (cached, none))
  | s, cached, l :: ls =>
    match writeOne w s l with
    | (s, .ok none) => writeAll w s (cached ++ [l]) ls
    | (s, .ok (some e)) => (s, .ok (cached, some e))
    | (s, _) => (s, .panic)

/-- `WriteLinks` (plm/linkdb.go 151-195): cached links, new links → new cache and error. -/
def writeLinks (w : PacketWriter σ) (s : σ) (cached newLinks : List LinkRecord) :
    σ × Out (List LinkRecord × Option Err) :=
  match deleteAll w s cached with
  | (s, .ok (some e)) => (s, .ok (cached, some e))
  | (s, .ok none) => writeAll w s [] newLinks
  | (s, _) => (s, .panic)

/-- The loop of `IterateDevices` (plm/linkdb.go 201-207): addresses passed to the callback, `seen`
being the map `read`. -/
def iterate (seen : List Address) : List LinkRecord → List Address
  | [] => []
  | l :: ls => if l.address ∈ seen then iterate seen ls else l.address :: iterate (l.address :: seen) ls

/-- `IterateDevices` (plm/linkdb.go 197-210): callback arguments in order, and error. -/
def iterateDevices (w : PacketWriter σ) (retries : Int) (fuel : Nat) (s : σ) (cached : List LinkRecord) :
    Option (σ × Out (List Address × Option Err)) :=
  match links w retries fuel s cached with
  | none => none
  | some (s, .ok (ls, none)) => some (s, .ok (iterate [] ls, none))
  | some (s, .ok (_, some e)) => some (s, .ok ([], some e))
  | some (s, _) => some (s, .panic)

/-- `EnterLinkingMode` (plm/linkdb.go 216-221). -/
def enterLinkingMode (w : PacketWriter σ) (s : σ) (g : Group) : σ × PRes :=
  w.write s ⟨PCmd.startAllLink, allLinkReq 0x03#8 g, 0#8⟩

/-- `ExitLinkingMode` (plm/linkdb.go 223-226). -/
def exitLinkingMode (w : PacketWriter σ) (s : σ) : σ × PRes := w.write s ⟨PCmd.cancelAllLink, [], 0#8⟩

/-- `EnterUnlinkingMode` (plm/linkdb.go 228-233). -/
def enterUnlinkingMode (w : PacketWriter σ) (s : σ) (g : Group) : σ × PRes :=
  w.write s ⟨PCmd.startAllLink, allLinkReq 0xff#8 g, 0#8⟩

/-- `UpdateLinks` (plm/linkdb.go 212-214). -/
def updateLinks : Option Err := some .insNotImplemented

end PlmLinks

end Insteon
