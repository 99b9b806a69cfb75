import Verif.Model.Base

/-
Specification vocabulary for numbers written as in Go: which text stands for which number.
-/

namespace Insteon.Spec

/-- `c` is the digit of value `v` in base `b`: 0 to 9, then letters in either case. -/
def IsDigit (b : Nat) (c : BitVec 8) (v : Nat) : Prop := v < b ∧ (v < 10 ∧ c.toNat = 48 + v ∨ 10 ≤ v ∧ v < 36 ∧ (c.toNat = 97 + (v - 10) ∨ c.toNat = 65 + (v - 10)))

/-- After a digit, or what counts as one, the number so far being `n`, the text goes on and the number comes to `m`. Digits may be separated by single underscores. -/
inductive MoreDigits (b : Nat) : Nat → List (BitVec 8) → Nat → Prop
  | done (n : Nat) : MoreDigits b n [] n
  | digit {n v m : Nat} {c : BitVec 8} {s : List (BitVec 8)} (h : IsDigit b c v) (hs : MoreDigits b (n * b + v) s m) : MoreDigits b n (c :: s) m
  | separated {n v m : Nat} {c : BitVec 8} {s : List (BitVec 8)} (h : IsDigit b c v) (hs : MoreDigits b (n * b + v) s m) : MoreDigits b n (0x5f#8 :: c :: s) m

/-- The letters b, o and x, in either case, and the base they stand for. -/
def BaseLetter (p : BitVec 8) (b : Nat) : Prop := (p = 0x62#8 ∨ p = 0x42#8) ∧ b = 2 ∨ (p = 0x6f#8 ∨ p = 0x4f#8) ∧ b = 8 ∨ (p = 0x78#8 ∨ p = 0x58#8) ∧ b = 16

/-- A number without sign: decimal, octal after a 0, or after a 0 and a letter in the base of the letter, with at least one digit. -/
inductive GoUnsigned : List (BitVec 8) → Nat → Prop
  | decimal {c : BitVec 8} {v m : Nat} {s : List (BitVec 8)} (h : IsDigit 10 c v) (h0 : v ≠ 0) (hs : MoreDigits 10 v s m) : GoUnsigned (c :: s) m
  | octal {m : Nat} {s : List (BitVec 8)} (hs : MoreDigits 8 0 s m) : GoUnsigned (0x30#8 :: s) m
  | lettered {p : BitVec 8} {b m : Nat} {s : List (BitVec 8)} (hp : BaseLetter p b) (hne : s ≠ []) (hs : MoreDigits b 0 s m) : GoUnsigned (0x30#8 :: p :: s) m

/-- A number with or without sign. -/
inductive GoNumber : List (BitVec 8) → Int → Prop
  | plain {s : List (BitVec 8)} {m : Nat} (h : GoUnsigned s m) : GoNumber s m
  | plus {s : List (BitVec 8)} {m : Nat} (h : GoUnsigned s m) : GoNumber (0x2b#8 :: s) m
  | minus {s : List (BitVec 8)} {m : Nat} (h : GoUnsigned s m) : GoNumber (0x2d#8 :: s) (-(m : Int))

/-- The bytes of the mark U+FEFF. -/
def markBytes : List (BitVec 8) := [0xef#8, 0xbb#8, 0xbf#8]

/-- `t` is `s` without the marks U+FEFF in it. -/
inductive WithoutMarks : List (BitVec 8) → List (BitVec 8) → Prop
  | nil : WithoutMarks [] []
  | mark {s t : List (BitVec 8)} (h : WithoutMarks s t) : WithoutMarks (markBytes ++ s) t
  | byte {b : BitVec 8} {s t : List (BitVec 8)} (hb : ¬ markBytes <+: b :: s) (h : WithoutMarks s t) : WithoutMarks (b :: s) (b :: t)

end Insteon.Spec
