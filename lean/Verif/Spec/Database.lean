import Verif.Model.Database
import Verif.Spec.Json

/-
Specification vocabulary for the device database: histories of calls and the content an observer expects.
-/

namespace Insteon.Spec

/-- What a database knows, address by address. -/
abbrev Contents := Address → Option DeviceInfo

/-- Nothing is known. -/
def Contents.empty : Contents := fun _ => none

/-- One more device is known. -/
def Contents.set (c : Contents) (a : Address) (i : DeviceInfo) : Contents := fun b => if b = a then some i else c b

/-- Calls on a memory database: storing, saving to a writer that succeeds or fails, loading from a reader. -/
inductive DbOp where
  | put (info : DeviceInfo)
  | save (failure : Option Err)
  | load (input : Except Err (List (BitVec 8)))

/-- Running one call: the database afterwards and the error; `none` for a panic. -/
def DbOp.run (db : MemDb) : DbOp → Option (MemDb × Option Err)
  | .put info => (db.put info).map fun d => (d, none)
  | .save failure => some (db.save (fun (_ : Unit) _ => ((), failure)) ()).2
  | .load input => some (db.load input)

/-- The database after a history, and the content it had when it was last saved or loaded without error (empty in the
beginning); `none` if one of the calls panics. -/
def history : MemDb → Contents → List DbOp → Option (MemDb × Contents)
  | db, c, [] => some (db, c)
  | db, c, op :: ops =>
    match op.run db with
    | none => none
    | some r => history r.1 (match op, r.2 with
      | .save _, none => r.1.get
      | .load _, none => r.1.get
      | _, _ => c) ops

/-- Every address stored is a three byte address. -/
def ThreeBytes (c : Contents) : Prop := ∀ a i, c a = some i → a.toNat < 2 ^ 24 ∧ i.address.toNat < 2 ^ 24

/-- Calls on a file database. -/
inductive FileOp (σ : Type) where
  | put (fault : FileFault) (info : DeviceInfo)
  | openDevice (fault : FileFault) (io : MsgIO σ) (fuel : Nat) (s : σ) (addr : Address) (filters : List (MsgIO σ → MsgIO σ))

/-- Running one call on a file database: the database and file afterwards, and the error; `none` if the call does not return. -/
def FileOp.run {σ : Type} (db : FileDb) : FileOp σ → Option (FileDb × Option Err)
  | .put fault info => db.put fault info
  | .openDevice fault io fuel s addr filters =>
    match db.openDevice fault io fuel s addr filters with
    | some (_, db', .ok (_, err)) => some (db', err)
    | _ => none

/-- Running calls one after the other, with the error of the last one. -/
def FileOp.runAll {σ : Type} : FileDb × Option Err → List (FileOp σ) → Option (FileDb × Option Err)
  | r, [] => some r
  | r, op :: ops => match op.run r.1 with
    | none => none
    | some r' => FileOp.runAll r' ops

/-! ### What a database file says -/

/-- The key is the field name up to the case of letters; `ſ` (U+017F) counts as an s. -/
inductive SameName : List (BitVec 8) → List (BitVec 8) → Prop
  | nil : SameName [] []
  | same (b : BitVec 8) {name key} (h : SameName name key) : SameName (b :: name) (b :: key)
  /-- The same letter in the other case: bit 5 is the other one. -/
  | other (l u : BitVec 8) {name key} (hl : 0x61 ≤ l.toNat ∧ l.toNat ≤ 0x7a) (hu : u.toNat + 0x20 = l.toNat) (h : SameName name key) :
      SameName (l :: name) (u :: key)
  | other' (l u : BitVec 8) {name key} (hl : 0x61 ≤ l.toNat ∧ l.toNat ≤ 0x7a) (hu : u.toNat + 0x20 = l.toNat) (h : SameName name key) :
      SameName (u :: name) (l :: key)
  | long (s : BitVec 8) {name key} (hs : s = 0x73#8 ∨ s = 0x53#8) (h : SameName name key) : SameName (s :: name) (utf8 0x17f ++ key)

/-- The text of an address as the parser understands it. -/
def AddressSays (s : List (BitVec 8)) (a : Address) : Prop :=
  ∃ v1 v2 v3 rest, AddressForm (withDots s) v1 v2 v3 rest ∧ a.toNat = v1 * 65536 + v2 * 256 + v3

/-- The text of a category: two hex numbers of one or two digits with a dot between them, blanks before each; what follows does not matter. -/
def CategorySays (s : List (BitVec 8)) (c : DevCat) : Prop :=
  ∃ w1 f1 w2 f2 rest, s = w1 ++ f1 ++ ascii "." ++ (w2 ++ f2 ++ rest) ∧ Blank w1 ∧ Blank w2 ∧ HexField f1 c.1.toNat ∧ HexField f2 c.2.toNat ∧
    (f2.length = 2 ∨ ¬ StartsHex rest)

/-- What a field of a version says: a whole number of 64 bits, or nothing (`null`: the version is what it was). -/
def VersionSays (old : BitVec 64) (v : Json.Value) (new : BitVec 64) : Prop :=
  (v = .null ∧ new = old) ∨ ∃ t n, v = .num t ∧ IntegerText t n ∧ -(2 ^ 63) ≤ n ∧ n < 2 ^ 63 ∧ new = BitVec.ofInt 64 n

/-- `FieldsSay old fs i`: the fields, one after the other, change `old` to `i`. Fields with other names say nothing. -/
inductive FieldsSay : DeviceInfo → List (List (BitVec 8) × Json.Value) → DeviceInfo → Prop
  | done (i) : FieldsSay i [] i
  | address {i k s a fs j} (hk : SameName (ascii "address") k) (ha : AddressSays s a) (h : FieldsSay { i with address := a } fs j) :
      FieldsSay i ((k, .str s) :: fs) j
  | category {i k s c fs j} (hk : SameName (ascii "devCat") k) (hc : CategorySays s c) (h : FieldsSay { i with devCat := c } fs j) :
      FieldsSay i ((k, .str s) :: fs) j
  | firmware {i k v x fs j} (hk : SameName (ascii "firmwareVersion") k) (hv : VersionSays i.firmwareVersion v x)
      (h : FieldsSay { i with firmwareVersion := x } fs j) : FieldsSay i ((k, v) :: fs) j
  | engine {i k v x fs j} (hk : SameName (ascii "engineVersion") k) (hv : VersionSays i.engineVersion v x)
      (h : FieldsSay { i with engineVersion := x } fs j) : FieldsSay i ((k, v) :: fs) j
  | other {i k v fs j} (hk : ∀ n ∈ ["address", "devCat", "firmwareVersion", "engineVersion"], ¬ SameName (ascii n) k) (h : FieldsSay i fs j) :
      FieldsSay i ((k, v) :: fs) j

/-- What the entry of a device says; what is not mentioned is zero. -/
def EntrySays (v : Json.Value) (i : DeviceInfo) : Prop :=
  (v = .null ∧ i = ⟨0, (0, 0), 0, 0⟩) ∨ ∃ fs, v = .obj fs ∧ FieldsSay ⟨0, (0, 0), 0, 0⟩ fs i

/-- The entries, one after the other, change one content to another. -/
inductive EntriesSay : Contents → List (List (BitVec 8) × Json.Value) → Contents → Prop
  | done (c) : EntriesSay c [] c
  | entry {c k v a i es d} (ha : AddressSays k a) (hv : EntrySays v i) (h : EntriesSay (c.set a i) es d) : EntriesSay c ((k, v) :: es) d

/-- `DatabaseText s c`: the text says that the content is `c`. -/
def DatabaseText (s : List (BitVec 8)) (c : Contents) : Prop :=
  (JsonText s .null ∧ c = Contents.empty) ∨ ∃ es, JsonText s (.obj es) ∧ EntriesSay Contents.empty es c

end Insteon.Spec
