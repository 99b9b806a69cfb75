import Verif.Model.Address

/-
link.go
-/

namespace Insteon

/-- `type RecordControlFlags byte` (link.go 28). -/
abbrev RecordControlFlags := BitVec 8

namespace RecordControlFlags

/-- `setBit` (link.go 39-41). -/
def setBit (f : RecordControlFlags) (pos : Nat) : RecordControlFlags := f ||| (1#8 <<< pos)
/-- `clearBit` (link.go 43-45). -/
def clearBit (f : RecordControlFlags) (pos : Nat) : RecordControlFlags := f &&& ~~~(1#8 <<< pos)
/-- `InUse` (link.go 48). -/
def inUse (f : RecordControlFlags) : Bool := f &&& 0x80#8 == 0x80#8
/-- `SetInUse` (link.go 51-53). -/
def setInUse (f : RecordControlFlags) : RecordControlFlags := setBit f 7
/-- `Available` (link.go 57). -/
def available (f : RecordControlFlags) : Bool := f &&& 0x80#8 == 0x00#8
/-- `SetAvailable` (link.go 61-63). -/
def setAvailable (f : RecordControlFlags) : RecordControlFlags := clearBit f 7
/-- `Controller` (link.go 67). -/
def controller (f : RecordControlFlags) : Bool := f &&& 0x40#8 == 0x40#8
/-- `SetController` (link.go 68-70). -/
def setController (f : RecordControlFlags) : RecordControlFlags := setBit f 6
/-- `Responder` (link.go 74). -/
def responder (f : RecordControlFlags) : Bool := f &&& 0x40#8 == 0x00#8
/-- `SetResponder` (link.go 75-77). -/
def setResponder (f : RecordControlFlags) : RecordControlFlags := clearBit f 6
/-- `LastRecord` (link.go 81). -/
def lastRecord (f : RecordControlFlags) : Bool := f &&& 0x02#8 == 0x00#8
/-- `ClearLastRecord` (link.go 82-84). -/
def clearLastRecord (f : RecordControlFlags) : RecordControlFlags := setBit f 1
/-- `SetLastRecord` (link.go 86-88). -/
def setLastRecord (f : RecordControlFlags) : RecordControlFlags := clearBit f 1

/-- `RecordControlFlags.String` (link.go 93-105). -/
def string (f : RecordControlFlags) : Bytes :=
  [if f.inUse then ch 'U' else ch 'A', if f.controller then ch 'C' else ch 'R']

/-- First half of `UnmarshalText` (link.go 117-123). -/
def unmarshalAvail (f : RecordControlFlags) (c : Bytes) : RecordControlFlags × Option Err :=
  if c = [ch 'A'] then (f.setAvailable, none)
  else if c = [ch 'U'] then (f.setInUse, none)
  else (f, some (.other 11))

/-- Second half of `UnmarshalText` (link.go 125-131); an error overrides the first one. -/
def unmarshalRole (f : RecordControlFlags) (e : Option Err) (c : Bytes) :
    RecordControlFlags × Option Err :=
  if c = [ch 'C'] then (f.setController, e)
  else if c = [ch 'R'] then (f.setResponder, e)
  else (f, some (.other 12))

/-- `RecordControlFlags.UnmarshalText` (link.go 111-133): receiver, text → receiver, error. -/
def unmarshalText (f : RecordControlFlags) (text : Bytes) : RecordControlFlags × Option Err :=
  match charsOf text.length text with
  | [c0, c1] => let r := unmarshalAvail f c0; unmarshalRole r.1 r.2 c1
  | _ => (f, some (.other 10))

end RecordControlFlags

/-- `type Group byte` (link.go 136). -/
abbrev Group := BitVec 8

/-- `Group.String` (link.go 139). -/
def Group.string (g : Group) : Bytes := decByte g

/-- `Group.UnmarshalText` (link.go 153-165). -/
def Group.unmarshalText (g : Group) (text : Bytes) : Group × Option Err :=
  match atoi text with
  | none => (g, some (.other 13))
  | some v => if 0 ≤ v ∧ v ≤ 255 then (BitVec.ofInt 8 v, none) else (g, some (.other 14))

/-- The decimal digits a text starts with and the rest (`(*ss).scanNumber`, used at link.go 142). -/
def takeDec : Bytes → Bytes × Bytes
  | [] => ([], [])
  | b :: s => if 48 ≤ b.toNat ∧ b.toNat ≤ 57 then (b :: (takeDec s).1, (takeDec s).2) else ([], b :: s)

/-- `Group.Set` (link.go 141-144): `fmt.Sscanf(s, "%d", g)` into a value of 8 bits: skip blanks, at least one digit, the value must fit;
what follows is not looked at. -/
def Group.set (g : Group) (s : Bytes) : Group × Option Err :=
  match skipSpace s with
  | none => (g, some (.other 62))
  | some s =>
    match decNumber 0 (takeDec s).1 with
    | none => (g, some (.other 63))
    | some n => if (takeDec s).1 = [] then (g, some (.other 63)) else if 255 < n then (g, some (.other 64)) else (BitVec.ofNat 8 n, none)

/-- `LinkRecord` (link.go 168-173). -/
structure LinkRecord where
  flags : RecordControlFlags
  group : Group
  address : Address
  d0 : Byte
  d1 : Byte
  d2 : Byte
deriving DecidableEq, Repr

namespace LinkRecord

/-- The Go zero value `LinkRecord{}`. -/
def zero : LinkRecord := ⟨0, 0, 0, 0, 0, 0⟩

/-- `ControllerLink` (link.go 177-179). -/
def controllerLink (group : Group) (address : Address) : LinkRecord :=
  ⟨0xc0#8 ||| 0x02#8, group, address, 0, 0, 0⟩

/-- `ResponderLink` (link.go 183-185). -/
def responderLink (group : Group) (address : Address) : LinkRecord :=
  ⟨0x80#8 ||| 0x02#8, group, address, 0, 0, 0⟩

/-- `LinkRecord.ID` for a non-nil record (link.go 204-209). -/
def id (l : LinkRecord) : Bytes :=
  [l.flags &&& 0x40#8, l.group, byte32 (l.address >>> 16),
   byte32 ((l.address &&& 0xff00#32) >>> 8), byte32 (l.address &&& 0xff#32)]

/-- `LinkRecord.ID` including a nil receiver (link.go 204-209). -/
def idPtr : Option LinkRecord → Bytes
  | none => [0, 0, 0, 0, 0]
  | some l => l.id

/-- `LinkRecord.Equal` (link.go 196-198) for non-nil records. -/
def equal (l other : LinkRecord) : Bool := l.id == other.id

/-- `LinkRecord.MarshalBinary` (link.go 213-220). -/
def marshalBinary (l : LinkRecord) : Bytes :=
  [l.flags, l.group] ++ l.address.bytes ++ [l.d0, l.d1, l.d2]

/-- `LinkRecord.UnmarshalBinary` (link.go 232-241): receiver, buffer → receiver, error. -/
def unmarshalBinary (l : LinkRecord) (buf : Bytes) : LinkRecord × Option Err :=
  match buf with
  | b0 :: b1 :: b2 :: b3 :: b4 :: b5 :: b6 :: b7 :: _ =>
    (⟨b0, b1, Address.put [b2, b3, b4], b5, b6, b7⟩, none)
  | _ => (l, some (.wrapped .bufferTooShort))

/-- `LinkRecord.MarshalText` (link.go 225-228):
`"%-5s %5v %8s   %02x %02x %02x"`. `l.Group` is passed by value, so `%v` prints the number. -/
def marshalText (l : LinkRecord) : Bytes :=
  padRight 5 l.flags.string ++ [ch ' '] ++ padLeft 5 (decByte l.group) ++ [ch ' ']
    ++ padLeft 8 l.address.string ++ [ch ' ', ch ' ', ch ' ']
    ++ hex2 l.d0 ++ [ch ' '] ++ hex2 l.d1 ++ [ch ' '] ++ hex2 l.d2

/-- One `fmt.Sscanf(field, "%x", &l.Data[i])` (link.go 272): value or error. -/
def scanData (old : Byte) (field : Bytes) : Byte × Option Err :=
  match scanHexByte none field with
  | none => (old, some (.other 16))
  | some (b, _) => (b, none)

/-- `LinkRecord.UnmarshalText` after the field count check (link.go 256-274): receiver, the six
fields → receiver, error. Each field is stored only if all earlier ones were accepted, except
that the role/availability bits accepted so far and the cleared end marker stay. -/
def unmarshalFields (l : LinkRecord) (f0 f1 f2 f3 f4 f5 : Bytes) : LinkRecord × Option Err :=
  let r0 := l.flags.unmarshalText f0
  let l := { l with flags := RecordControlFlags.clearLastRecord r0.1 }
  if r0.2.isSome then (l, r0.2) else
  let r1 := Group.unmarshalText l.group f1
  let l := { l with group := r1.1 }
  if r1.2.isSome then (l, r1.2) else
  let r2 := Address.unmarshalText l.address f2
  let l := { l with address := r2.1 }
  if r2.2.isSome then (l, r2.2) else
  let r3 := scanData l.d0 f3
  let l := { l with d0 := r3.1 }
  if r3.2.isSome then (l, r3.2) else
  let r4 := scanData l.d1 f4
  let l := { l with d1 := r4.1 }
  if r4.2.isSome then (l, r4.2) else
  let r5 := scanData l.d2 f5
  let l := { l with d2 := r5.1 }
  (l, r5.2)

/-- `LinkRecord.UnmarshalText` (link.go 250-275). -/
def unmarshalText (l : LinkRecord) (buf : Bytes) : LinkRecord × Option Err :=
  match fields buf with
  | [f0, f1, f2, f3, f4, f5] => unmarshalFields l f0 f1 f2 f3 f4 f5
  | _ => (l, some (.other 15))

/-- `LinkRecord.String` (link.go 189-191): `"%s %v %s 0x%02x 0x%02x 0x%02x"`. -/
def string (l : LinkRecord) : Bytes :=
  l.flags.string ++ [ch ' '] ++ decByte l.group ++ [ch ' '] ++ l.address.string ++ [ch ' ']
    ++ lit "0x" ++ hex2 l.d0 ++ [ch ' '] ++ lit "0x" ++ hex2 l.d1 ++ [ch ' '] ++ lit "0x" ++ hex2 l.d2

end LinkRecord

end Insteon
