import Verif.Model.Device
import Verif.Model.Json
import Mathlib.Data.List.Sort

/-
util/database.go, insteon.go (DevCat), address.go (JSON)
-/

namespace Insteon

/-- `DevCat.String`, the text in `DevCat.MarshalJSON` (insteon.go 93-95, 105-107). -/
def DevCat.text (c : DevCat) : Bytes := hex2 c.1 ++ [ch '.'] ++ hex2 c.2

/-- The scan in `DevCat.UnmarshalJSON` (insteon.go 115-118); `none` for an error. Simplification: on an error the first
byte may have been stored by the code; the receiver is thrown away by its only caller then. -/
def DevCat.scan (s : Bytes) : Option DevCat :=
  match scanHexByte (some 2) s with
  | none => none
  | some (a, s) =>
  match scanLit (ch '.') s with
  | none => none
  | some s =>
  match scanHexByte (some 2) s with
  | none => none
  | some (b, _) => some (a, b)

/-- `DevCat.In` (insteon.go 81-88). -/
def DevCat.isIn (c : DevCat) : List Byte → Bool
  | [] => false
  | d :: ds => if c.1 = d then true else DevCat.isIn c ds

/-- The Go zero value `DeviceInfo{}`. -/
def DeviceInfo.zero : DeviceInfo := ⟨0, (0, 0), 0, 0⟩

/-- `map[insteon.Address]devices.DeviceInfo` (util/database.go 102): entries with distinct keys. The order of the
list stands for Go's arbitrary order of iteration. -/
abbrev DbMap := List (Address × DeviceInfo)

namespace DbMap
/-- Map lookup. -/
def get : DbMap → Address → Option DeviceInfo
  | [], _ => none
  | (k, v) :: m, a => if k = a then some v else get m a
/-- Map assignment. -/
def put : DbMap → Address → DeviceInfo → DbMap
  | [], a, i => [(a, i)]
  | (k, v) :: m, a, i => if k = a then (k, i) :: m else (k, v) :: put m a i
end DbMap

/-- The JSON object of a device (devices/device.go 155-160, address.go 83-85). -/
def DeviceInfo.fields (i : DeviceInfo) : Json.Fields :=
  [(lit "address", .str i.address.string), (lit "devCat", .str i.devCat.text),
   (lit "firmwareVersion", .num i.firmwareVersion.toInt), (lit "engineVersion", .num i.engineVersion.toInt)]

/-- ASCII lower case, for the case-insensitive matching of field names by encoding/json. -/
def lowerByte (b : Byte) : Byte := if 65 ≤ b.toNat ∧ b.toNat ≤ 90 then BitVec.ofNat 8 (b.toNat + 32) else b

/-- Field name matching of encoding/json (`equalFoldRight`, and `simpleLetterEqualFold` for names without an s): the case of letters does
not matter, and the long s (U+017F) matches an s. The first argument is the name of the field. -/
def nameEq : Bytes → Bytes → Bool
  | [], t => t.isEmpty
  | _ :: _, [] => false
  | b :: s, c :: t =>
    if c.toNat < 0x80 then lowerByte b == lowerByte c && nameEq s t
    else match t with
      | [] => false
      | d :: t => lowerByte b == ch 's' && c == 0xc5#8 && d == 0xbf#8 && nameEq s t

/-- Storing a JSON value in an `int` field: `null` changes nothing; anything that is not a number of 64 bits without fraction and exponent
is an error that is remembered while decoding goes on, and the field keeps its value. -/
def decodeInt (old : BitVec 64) : Json.Value → BitVec 64 × Option Err
  | .num t => match atoi t with
    | some n => (BitVec.ofInt 64 n, none)
    | none => (old, some (.other 21))
  | .null => (old, none)
  | _ => (old, some (.other 22))

/-- `Address.UnmarshalJSON` (address.go 88-94): `null` is read as the empty text. -/
def Address.unmarshalJSON (a : Address) : Json.Value → Address × Option Err
  | .str s => a.set s
  | .null => a.set []
  | _ => (a, some (.other 23))

/-- `DevCat.UnmarshalJSON` (insteon.go 111-121); `none` for an error. -/
def DevCat.unmarshalJSON : Json.Value → Option DevCat
  | .str s => DevCat.scan s
  | .null => DevCat.scan []
  | _ => none

/-- Decoding the fields of a device, in order; the second argument is the error remembered so far. `.error` stops the decoding
(devices/device.go 155-160, address.go 88-94, insteon.go 111-121, encoding/json for the others). Unknown names are
ignored. -/
def decodeFields : List (Bytes × Json.Value) → DeviceInfo → Option Err → Except Err (DeviceInfo × Option Err)
  | [], i, e => .ok (i, e)
  | (k, v) :: fs, i, e =>
    if nameEq (lit "address") k then
      match i.address.unmarshalJSON v with
      | (a, none) => decodeFields fs { i with address := a } e
      | (_, some err) => .error err
    else if nameEq (lit "devCat") k then
      match DevCat.unmarshalJSON v with
      | some c => decodeFields fs { i with devCat := c } e
      | none => .error (.other 24)
    else if nameEq (lit "firmwareVersion") k then
      let r := decodeInt i.firmwareVersion v
      decodeFields fs { i with firmwareVersion := r.1 } (e.or r.2)
    else if nameEq (lit "engineVersion") k then
      let r := decodeInt i.engineVersion v
      decodeFields fs { i with engineVersion := r.1 } (e.or r.2)
    else decodeFields fs i e

/-- Decoding one entry, into a new info: `null` changes nothing; anything else that is not an object is an error that is remembered. -/
def decodeEntry (v : Json.Value) (e : Option Err) : Except Err (DeviceInfo × Option Err) :=
  match v with
  | .obj fs => decodeFields fs DeviceInfo.zero e
  | .null => .ok (DeviceInfo.zero, e)
  | _ => .ok (DeviceInfo.zero, e.or (some (.other 65)))

/-- Decoding the entries of the document into the map, in order; keys are addresses (address.go 88-94). -/
def decodeDoc : List (Bytes × Json.Value) → DbMap → Option Err → DbMap × Option Err
  | [], m, e => (m, e)
  | (k, v) :: d, m, e =>
    match decodeEntry v e with
    | .error err => (m, some err)
    | .ok (i, e) =>
      match Address.set 0 k with
      | (_, some err) => (m, some err)
      | (a, none) => decodeDoc d (m.put a i) e

/-- `memDB` (util/database.go 101-104). -/
structure MemDb where
  values : DbMap
  dirty : Bool
  /-- The map is Go's nil map: it reads as empty and cannot be written to. -/
  nilMap : Bool
deriving DecidableEq, Repr

namespace MemDb

/-- `NewMemDB` (util/database.go 64-69). -/
def new : MemDb := ⟨[], false, false⟩

/-- `memDB.Get` (util/database.go 115-118). -/
def get (db : MemDb) (a : Address) : Option DeviceInfo := db.values.get a

/-- `memDB.Put` (util/database.go 124-130): a missing entry reads as the zero info. It never returns an error; `none` is a panic: something
is stored in a nil map. -/
def put (db : MemDb) (info : DeviceInfo) : Option MemDb :=
  if (db.values.get info.address).getD DeviceInfo.zero ≠ info then
    (if db.nilMap then none else some { db with values := db.values.put info.address info, dirty := true })
  else some db

/-- `memDB.Filter` (util/database.go 106-113). -/
def filter (db : MemDb) (domains : List Byte) : List Address :=
  (db.values.filter fun e => e.2.devCat.isIn domains).map Prod.fst

/-- The order in which encoding/json writes map entries: by the text of the key. -/
def entryLe (x y : Address × DeviceInfo) : Bool := !strLt y.1.string x.1.string

/-- The entries in that order. -/
def sorted (db : MemDb) : DbMap := db.values.insertionSort fun x y => entryLe x y = true

/-- `memDB.MarshalJSON` (util/database.go 155-157): a nil map is written as `null`. -/
def marshalJSON (db : MemDb) : Bytes :=
  if db.nilMap then lit "null" else Json.docText (db.sorted.map fun e => (e.1.string, e.2.fields))

/-- `memDB.UnmarshalJSON` (util/database.go 159-162): the content is dropped first. encoding/json checks the syntax of the
whole text before it stores anything; `null` makes the map nil. -/
def unmarshalJSON (db : MemDb) (data : Bytes) : MemDb × Option Err :=
  match Json.readDoc data with
  | none => ({ db with values := [], nilMap := false }, some (.other 20))
  | some .null => ({ db with values := [], nilMap := true }, none)
  | some (.obj ms) => let r := decodeDoc ms [] none; ({ db with values := r.1, nilMap := false }, r.2)
  | some _ => ({ db with values := [], nilMap := false }, some (.other 66))

/-- `memDB.Load` (util/database.go 132-138); the reader yields the bytes or an error. -/
def load (db : MemDb) : Except Err Bytes → MemDb × Option Err
  | .error e => (db, some e)
  | .ok data => db.unmarshalJSON data

/-- `memDB.Save` (util/database.go 144-153) to any writer. -/
def save {σ : Type} (db : MemDb) (write : σ → Bytes → σ × Option Err) (s : σ) : σ × MemDb × Option Err :=
  match write s db.marshalJSON with
  | (s, none) => (s, { db with dirty := false }, none)
  | (s, some e) => (s, db, some e)

/-- `memDB.Open` (util/database.go 169-180): the device returned is its info and the writer it uses. The filters are only used for
devices that are not in the database. -/
def openDevice {σ : Type} (db : MemDb) (io : MsgIO σ) (fuel : Nat) (s : σ) (addr : Address) (filters : List (MsgIO σ → MsgIO σ)) :
    Option (σ × MemDb × Out (Option (DeviceInfo × MsgIO σ) × Option Err)) :=
  match db.get addr with
  | some info => some (s, db, .ok (some (info, io), none))
  | none =>
    match Dev.open (applyFilters filters io) fuel s addr with
    | none => none
    | some (s, .panic) => some (s, db, .panic)
    | some (s, .err e) => some (s, db, .err e)
    | some (s, .ok (dev, info, err)) =>
      match if err = none then db.put info else some db with
      | none => some (s, { db with dirty := true }, .panic)
      | some db => some (s, db, .ok (if dev then some (info, applyFilters filters io) else none, err))

end MemDb

/-- What can go wrong with the file: opening it, or writing after some bytes. -/
structure FileFault where
  openErr : Option Err
  writeErr : Option (Nat × Err)
deriving DecidableEq, Repr

/-- Everything works. -/
def FileFault.none : FileFault := ⟨.none, .none⟩

/-- One `file.Write` (util/database.go 147) to the truncated file: content afterwards and error. -/
def FileFault.write (f : FileFault) (file : Option Bytes) (data : Bytes) : Option Bytes × Option Err :=
  match f.writeErr with
  | .none => (some (file.getD [] ++ data), .none)
  | some (k, e) => (some (file.getD [] ++ data.take k), some e)

/-- `SaveDB` (util/database.go 185-198) for a memory database, which is always saveable. `file` is the content of the file, `none`
if there is no such file. Opening it truncates or creates it. -/
def saveDB (f : FileFault) (file : Option Bytes) (db : MemDb) : Option Bytes × MemDb × Option Err :=
  if db.dirty then
    match f.openErr with
    | some e => (file, db, some e)
    | none => db.save f.write (some [])
  else (file, db, none)

/-- The contents the file has one after the other during `SaveDB` (util/database.go 189-191): unchanged, truncated, then growing.
A program that stops in between leaves one of them. -/
def saveStates (file : Option Bytes) (db : MemDb) : List (Option Bytes) :=
  file :: if db.dirty then (List.range (db.marshalJSON.length + 1)).map fun k => some (db.marshalJSON.take k) else []

/-- `LoadDB` (util/database.go 203-215) for a memory database, which is always loadable; a missing file is an error. -/
def loadDB (file : Option Bytes) (db : MemDb) : MemDb × Option Err :=
  match file with
  | none => (db, some (.other 30))
  | some data => db.load (.ok data)

/-- `fileDB` (util/database.go 71-74) with the content of its file. -/
structure FileDb where
  mem : MemDb
  file : Option Bytes
deriving DecidableEq, Repr

namespace FileDb

/-- `NewFileDB` (util/database.go 76-83). -/
def new (file : Option Bytes) : FileDb × Option Err :=
  let r := loadDB file MemDb.new
  (⟨r.1, file⟩, r.2)

/-- `fileDB.save` (util/database.go 94-99). -/
def save (f : FileFault) (db : FileDb) (err : Option Err) : FileDb × Option Err :=
  if err = none ∧ db.mem.dirty = true then
    let r := saveDB f db.file db.mem
    (⟨r.2.1, r.1⟩, r.2.2)
  else (db, err)

/-- `fileDB.Put` (util/database.go 120-122); `none` is a panic. -/
def put (f : FileFault) (db : FileDb) (info : DeviceInfo) : Option (FileDb × Option Err) :=
  (db.mem.put info).map fun mem => save f { db with mem := mem } none

/-- `fileDB.Open` (util/database.go 85-92): the filters are not passed on. -/
def openDevice {σ : Type} (f : FileFault) (db : FileDb) (io : MsgIO σ) (fuel : Nat) (s : σ) (addr : Address)
    (_filters : List (MsgIO σ → MsgIO σ)) : Option (σ × FileDb × Out (Option (DeviceInfo × MsgIO σ) × Option Err)) :=
  match db.mem.openDevice io fuel s addr [] with
  | none => none
  | some (s, mem, .panic) => some (s, { db with mem := mem }, .panic)
  | some (s, mem, .err e) => some (s, { db with mem := mem }, .err e)
  | some (s, mem, .ok (dev, err)) =>
    let r := save f { db with mem := mem } err
    some (s, r.1, .ok (dev, r.2))

end FileDb

end Insteon
