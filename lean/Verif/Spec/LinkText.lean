import Verif.Spec.Text
import Verif.Model.Link

/-
Specification vocabulary for link records and their text.
-/

namespace Insteon.Spec

/-- Attributes of a record's flags by bit position. -/
def inUseBit (f : BitVec 8) : Prop := f.toNat / 128 = 1
def controllerBit (f : BitVec 8) : Prop := f.toNat / 64 % 2 = 1
def notLastBit (f : BitVec 8) : Prop := f.toNat / 2 % 2 = 1

instance (f : BitVec 8) : Decidable (inUseBit f) := by unfold inUseBit; infer_instance
instance (f : BitVec 8) : Decidable (controllerBit f) := by unfold controllerBit; infer_instance
instance (f : BitVec 8) : Decidable (notLastBit f) := by unfold notLastBit; infer_instance

/-- Decimal digits. -/
def Digits (s : List (BitVec 8)) : Prop := s ≠ [] ∧ ∀ c ∈ s, 48 ≤ c.toNat ∧ c.toNat ≤ 57

/-- Value of a digit string. -/
def decimalValue (s : List (BitVec 8)) : Nat := s.foldl (fun n c => 10 * n + (c.toNat - 48)) 0

/-- `s` is decimal integer text (optional sign) with value `v`. -/
def IntegerText (s : List (BitVec 8)) (v : Int) : Prop :=
  (Digits s ∧ v = decimalValue s) ∨
  (∃ d, s = ascii "+" ++ d ∧ Digits d ∧ v = decimalValue d) ∨
  (∃ d, s = ascii "-" ++ d ∧ Digits d ∧ v = -(decimalValue d : Int))

/-- Text that begins, after blanks, with a decimal number of value `v`; `rest` is what follows its last digit. -/
def NumberThen (s : List (BitVec 8)) (v : Nat) (rest : List (BitVec 8)) : Prop :=
  ∃ w ds, s = w ++ ds ++ rest ∧ Blank w ∧ Digits ds ∧ v = decimalValue ds ∧ ∀ c ∈ rest.head?, ¬ (48 ≤ c.toNat ∧ c.toNat ≤ 57)

/-- The record that text form stands for: availability and role kept, all other flag bits
clear except the one that says "not the last record"; 24-bit address. -/
def textNormal (l : LinkRecord) : LinkRecord where
  flags := BitVec.ofNat 8 ((if inUseBit l.flags then 128 else 0)
    + (if controllerBit l.flags then 64 else 0) + 2)
  group := l.group
  address := BitVec.ofNat 32 (l.address.toNat % 2 ^ 24)
  d0 := l.d0
  d1 := l.d1
  d2 := l.d2

/-- A line of an edited link file. -/
inductive Line where
  | blank (w : List (BitVec 8))
  | comment (w s : List (BitVec 8))
  | record (l : LinkRecord)

/-- A line is acceptable: blanks are blank, nothing contains a newline. -/
def Line.ok : Line → Prop
  | .blank w => Blank w
  | .comment w s => Blank w ∧ 0x0a#8 ∉ s
  | .record _ => True

/-- The records of a list of lines. -/
def Line.records : List Line → List LinkRecord
  | [] => []
  | .record l :: ls => l :: Line.records ls
  | _ :: ls => Line.records ls

/-- A word: something without white space. -/
def Word (f : List (BitVec 8)) : Prop := f ≠ [] ∧ ∀ c ∈ whiteSpace, ¬ utf8 c <:+: f

/-- The words of a text, which are separated by white space. -/
inductive Words : List (BitVec 8) → List (List (BitVec 8)) → Prop
  | nothing (w) : White w → Words w []
  | last (w f) : White w → Word f → Words (w ++ f) [f]
  | next (w f c s fs) : White w → Word f → c ∈ whiteSpace → Words s fs → Words (w ++ f ++ utf8 c ++ s) (f :: fs)

/-- Hex digits, upper or lower case, and their value. -/
inductive HexNumeral : List (BitVec 8) → Nat → Prop
  | one (c v) : IsHexDigit c v → HexNumeral [c] v
  | more (ds v c x) : HexNumeral ds v → IsHexDigit c x → HexNumeral (ds ++ [c]) (16 * v + x)

/-- The text starts with a hex numeral of this value; what comes after its last digit does not matter. -/
def HexStart (f : List (BitVec 8)) (v : Nat) : Prop := ∃ ds rest, f = ds ++ rest ∧ HexNumeral ds v ∧ ¬ StartsHex rest

/-- What a line says about a record, and which one. `old` gives the flag bits that are not in the line. -/
def LineSays (old : LinkRecord) (line : List (BitVec 8)) (l : LinkRecord) : Prop :=
  ∃ f0 f1 f2 f3 f4 f5, Words line [f0, f1, f2, f3, f4, f5]
    ∧ f0 = (if inUseBit l.flags then ascii "U" else ascii "A") ++ (if controllerBit l.flags then ascii "C" else ascii "R")
    ∧ l.flags.toNat % 64 = (old.flags ||| 0x02).toNat % 64
    ∧ IntegerText f1 l.group.toNat
    ∧ (∃ v1 v2 v3 rest, AddressForm (withDots f2) v1 v2 v3 rest ∧ l.address.toNat = v1 * 65536 + v2 * 256 + v3)
    ∧ HexStart f3 l.d0.toNat ∧ HexStart f4 l.d1.toNat ∧ HexStart f5 l.d2.toNat

/-- What the lines of an edited file say: white space says nothing, nor does a line whose first character that is not white space is `#`. -/
inductive FileSays : List (List (BitVec 8)) → List LinkRecord → Prop
  | done : FileSays [] []
  | blank (w ls rs) : White w → FileSays ls rs → FileSays (w :: ls) rs
  | comment (w s ls rs) : White w → FileSays ls rs → FileSays ((w ++ ascii "#" ++ s) :: ls) rs
  | record (l r ls rs) : LineSays .zero l r → FileSays ls rs → FileSays (l :: ls) (r :: rs)

/-- A line that is neither white space nor a comment nor a record. -/
def BadLine (l : List (BitVec 8)) : Prop :=
  ¬ White l ∧ (∀ w s, White w → l ≠ w ++ ascii "#" ++ s) ∧ ∀ r, ¬ LineSays .zero l r

/-- The lines of a text, which are separated by newlines. -/
def LinesOf (text : List (BitVec 8)) (ls : List (List (BitVec 8))) : Prop :=
  ls ≠ [] ∧ (∀ l ∈ ls, 0x0a#8 ∉ l) ∧ text = List.intercalate [0x0a#8] ls

end Insteon.Spec
