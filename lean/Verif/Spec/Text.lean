import Verif.Model.Base

/-
Specification vocabulary for text: hex digits by table, blanks, address texts.
Nothing here uses the model's text functions.
-/

namespace Insteon.Spec

/-- ASCII text as bytes. -/
def ascii (s : String) : List (BitVec 8) := s.toList.map fun c => BitVec.ofNat 8 c.toNat

/-- The lower-case hex digits, in order of value. -/
def lowerDigits : List (BitVec 8) := ascii "0123456789abcdef"

/-- The upper-case hex digits, in order of value. -/
def upperDigits : List (BitVec 8) := ascii "0123456789ABCDEF"

/-- Character `c` is the hex digit of value `v`, upper or lower case. -/
def IsHexDigit (c : BitVec 8) (v : Nat) : Prop :=
  lowerDigits[v]? = some c ∨ upperDigits[v]? = some c

/-- The character is some hex digit. -/
def HexChar (c : BitVec 8) : Prop := ∃ v, IsHexDigit c v

/-- `s` is one or two hex digits with numeric value `v`. -/
def HexField (s : List (BitVec 8)) (v : Nat) : Prop :=
  (∃ c, s = [c] ∧ IsHexDigit c v) ∨
    (∃ c d x y, s = [c, d] ∧ IsHexDigit c x ∧ IsHexDigit d y ∧ v = 16 * x + y)

/-- UTF-8: the bytes of the character with this number. -/
def utf8 (c : Nat) : List (BitVec 8) :=
  if c < 0x80 then [BitVec.ofNat 8 c]
  else if c < 0x800 then [BitVec.ofNat 8 (0xc0 + c / 64), BitVec.ofNat 8 (0x80 + c % 64)]
  else if c < 0x10000 then [BitVec.ofNat 8 (0xe0 + c / 4096), BitVec.ofNat 8 (0x80 + c / 64 % 64), BitVec.ofNat 8 (0x80 + c % 64)]
  else [BitVec.ofNat 8 (0xf0 + c / 262144), BitVec.ofNat 8 (0x80 + c / 4096 % 64), BitVec.ofNat 8 (0x80 + c / 64 % 64),
    BitVec.ofNat 8 (0x80 + c % 64)]

/-- The white space characters of Unicode. -/
def whiteSpace : List Nat :=
  [0x09, 0x0a, 0x0b, 0x0c, 0x0d, 0x20, 0x85, 0xa0, 0x1680, 0x2000, 0x2001, 0x2002, 0x2003, 0x2004, 0x2005, 0x2006, 0x2007, 0x2008, 0x2009,
    0x200a, 0x2028, 0x2029, 0x202f, 0x205f, 0x3000]

/-- White space only. -/
def White (s : List (BitVec 8)) : Prop := ∃ cs : List Nat, (∀ c ∈ cs, c ∈ whiteSpace) ∧ s = cs.flatMap utf8

/-- White space only, and no newline. -/
def Blank (s : List (BitVec 8)) : Prop := ∃ cs : List Nat, (∀ c ∈ cs, c ∈ whiteSpace ∧ c ≠ 0x0a) ∧ s = cs.flatMap utf8

/-- Text starts with a hex digit. -/
def StartsHex : List (BitVec 8) → Prop
  | [] => False
  | c :: _ => HexChar c

/-- The canonical text of a 24-bit number as an Insteon address, digits taken from
the table `ds`, separator `sep` between the bytes. -/
def addressText (ds : List (BitVec 8)) (sep : List (BitVec 8)) (n : Nat) : List (BitVec 8) :=
  [ds.getD (n / 1048576 % 16) 0, ds.getD (n / 65536 % 16) 0] ++ sep ++
  [ds.getD (n / 4096 % 16) 0, ds.getD (n / 256 % 16) 0] ++ sep ++
  [ds.getD (n / 16 % 16) 0, ds.getD (n % 16) 0]

/-- `s` reads as three dot-separated hex bytes `v1.v2.v3`, each with one or two
digits and possibly preceded by blanks, followed by `rest`; the last byte takes
two digits if two are there. -/
def AddressForm (s : List (BitVec 8)) (v1 v2 v3 : Nat) (rest : List (BitVec 8)) : Prop :=
  ∃ w1 f1 w2 f2 w3 f3, s = w1 ++ f1 ++ ascii "." ++ w2 ++ f2 ++ ascii "." ++ w3 ++ f3 ++ rest
    ∧ Blank w1 ∧ Blank w2 ∧ Blank w3
    ∧ HexField f1 v1 ∧ HexField f2 v2 ∧ HexField f3 v3
    ∧ (f3.length = 2 ∨ ¬ StartsHex rest)

/-- The text the parser looks at: six characters are read as if they were dotted. -/
def withDots : List (BitVec 8) → List (BitVec 8)
  | [a, b, c, d, e, f] => [a, b] ++ ascii "." ++ [c, d] ++ ascii "." ++ [e, f]
  | s => s

/-- Well-formed address text: exactly two hex digits per byte, dotted or undotted,
nothing else. -/
def StrictAddressText (s : List (BitVec 8)) (v1 v2 v3 : Nat) : Prop :=
  ∃ f1 f2 f3, (s = f1 ++ ascii "." ++ f2 ++ ascii "." ++ f3 ∨ s = f1 ++ f2 ++ f3)
    ∧ f1.length = 2 ∧ f2.length = 2 ∧ f3.length = 2
    ∧ HexField f1 v1 ∧ HexField f2 v2 ∧ HexField f3 v3

end Insteon.Spec
