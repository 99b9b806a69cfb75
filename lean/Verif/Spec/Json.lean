import Verif.Model.Json
import Verif.Spec.Text
import Verif.Spec.LinkText

/-
What JSON text is and what it means (RFC 8259), with what encoding/json makes of strings that are not proper Unicode. Only the type of JSON
values is taken from the model.
-/

namespace Insteon.Spec

open Json (Value)

/-- JSON white space. -/
def JsonSpace (s : List (BitVec 8)) : Prop := ∀ b ∈ s, b ∈ [0x20#8, 0x09#8, 0x0a#8, 0x0d#8]

/-- The number of a character that is not half of a surrogate pair. -/
def ScalarValue (c : Nat) : Prop := c < 0xd800 ∨ (0xe000 ≤ c ∧ c ≤ 0x10ffff)

/-- The letters of the short escapes and the bytes they stand for. -/
def shortEscapes : List (BitVec 8 × BitVec 8) :=
  [(0x22, 0x22), (0x5c, 0x5c), (0x2f, 0x2f), (0x62, 0x08), (0x66, 0x0c), (0x6e, 0x0a), (0x72, 0x0d), (0x74, 0x09)]

/-- `\u` and four hex digits of value `v`. -/
def UnicodeEscape (s : List (BitVec 8)) (v : Nat) : Prop :=
  ∃ a b c d w x y z, s = [0x5c#8, 0x75#8, a, b, c, d] ∧ IsHexDigit a w ∧ IsHexDigit b x ∧ IsHexDigit c y ∧ IsHexDigit d z ∧
    v = 4096 * w + 256 * x + 16 * y + z

/-- The first and the second half of a surrogate pair. -/
def HighHalf (v : Nat) : Prop := 0xd800 ≤ v ∧ v < 0xdc00
/-- See above. -/
def LowHalf (v : Nat) : Prop := 0xdc00 ≤ v ∧ v < 0xe000

/-- `StringText s v`: `s` may stand between quotes and means `v`. -/
inductive StringText : List (BitVec 8) → List (BitVec 8) → Prop
  | nil : StringText [] []
  /-- A character other than a quote, a backslash and the control characters stands for itself. -/
  | char {s v} (c : Nat) (hc : ScalarValue c) (h : 0x20 ≤ c ∧ c ≠ 0x22 ∧ c ≠ 0x5c) (ht : StringText s v) : StringText (utf8 c ++ s) (utf8 c ++ v)
  /-- A byte that is not part of a character stands for U+FFFD. -/
  | wrong {s v} (b : BitVec 8) (h : ∀ c t, ScalarValue c → b :: s ≠ utf8 c ++ t) (ht : StringText s v) : StringText (b :: s) (utf8 0xfffd ++ v)
  | short {s v} (l m : BitVec 8) (h : (l, m) ∈ shortEscapes) (ht : StringText s v) : StringText (0x5c#8 :: l :: s) (m :: v)
  | unicode {s v} (e : List (BitVec 8)) (u : Nat) (he : UnicodeEscape e u) (hu : ScalarValue u) (ht : StringText s v) :
      StringText (e ++ s) (utf8 u ++ v)
  | pair {s v} (e f : List (BitVec 8)) (hi lo : Nat) (he : UnicodeEscape e hi) (hf : UnicodeEscape f lo) (hh : HighHalf hi) (hl : LowHalf lo)
      (ht : StringText s v) : StringText (e ++ (f ++ s)) (utf8 (0x10000 + (hi - 0xd800) * 0x400 + (lo - 0xdc00)) ++ v)
  /-- Half a pair stands for U+FFFD. -/
  | half {s v} (e : List (BitVec 8)) (u : Nat) (he : UnicodeEscape e u) (hu : HighHalf u ∨ LowHalf u)
      (hn : HighHalf u → ∀ f t lo, UnicodeEscape f lo → LowHalf lo → s ≠ f ++ t) (ht : StringText s v) : StringText (e ++ s) (utf8 0xfffd ++ v)

/-- Digits without a superfluous zero in front. -/
def PlainDigits (s : List (BitVec 8)) : Prop := Digits s ∧ (s.head? = some 0x30#8 → s = [0x30#8])

/-- The text of a number. -/
def NumberText (s : List (BitVec 8)) : Prop :=
  ∃ sign i f e, s = sign ++ i ++ f ++ e ∧ (sign = [] ∨ sign = ascii "-") ∧ PlainDigits i ∧
    (f = [] ∨ ∃ d, Digits d ∧ f = ascii "." ++ d) ∧
    (e = [] ∨ ∃ c g d, (c = ascii "e" ∨ c = ascii "E") ∧ (g = [] ∨ g = ascii "+" ∨ g = ascii "-") ∧ Digits d ∧ e = c ++ g ++ d)

mutual
/-- `ValueText n s v`: `s` is the text of the value `v`, with at most `n` objects and arrays inside each other. -/
inductive ValueText : Nat → List (BitVec 8) → Value → Prop
  | null (n) : ValueText n (ascii "null") .null
  | yes (n) : ValueText n (ascii "true") (.bool true)
  | no (n) : ValueText n (ascii "false") (.bool false)
  | num (n) {s} (h : NumberText s) : ValueText n s (.num s)
  | str (n) {s v} (h : StringText s v) : ValueText n (0x22#8 :: (s ++ [0x22#8])) (.str v)
  | emptyObj (n) {w} (h : JsonSpace w) : ValueText (n + 1) (0x7b#8 :: (w ++ [0x7d#8])) (.obj [])
  | obj (n) {s ms} (h : MembersText n s ms) : ValueText (n + 1) (0x7b#8 :: (s ++ [0x7d#8])) (.obj ms)
  | emptyArr (n) {w} (h : JsonSpace w) : ValueText (n + 1) (0x5b#8 :: (w ++ [0x5d#8])) (.arr [])
  | arr (n) {s vs} (h : ElementsText n s vs) : ValueText (n + 1) (0x5b#8 :: (s ++ [0x5d#8])) (.arr vs)
/-- One or more members of an object. -/
inductive MembersText : Nat → List (BitVec 8) → List (List (BitVec 8) × Value) → Prop
  | one (n) {w1 k w2 w3 t w4 key v} (h1 : JsonSpace w1) (hk : StringText k key) (h2 : JsonSpace w2) (h3 : JsonSpace w3) (hv : ValueText n t v)
      (h4 : JsonSpace w4) : MembersText n (w1 ++ 0x22#8 :: (k ++ 0x22#8 :: (w2 ++ 0x3a#8 :: (w3 ++ (t ++ w4))))) [(key, v)]
  | more (n) {w1 k w2 w3 t w4 key v s ms} (h1 : JsonSpace w1) (hk : StringText k key) (h2 : JsonSpace w2) (h3 : JsonSpace w3)
      (hv : ValueText n t v) (h4 : JsonSpace w4) (hs : MembersText n s ms) :
      MembersText n (w1 ++ 0x22#8 :: (k ++ 0x22#8 :: (w2 ++ 0x3a#8 :: (w3 ++ (t ++ (w4 ++ 0x2c#8 :: s)))))) ((key, v) :: ms)
/-- One or more elements of an array. -/
inductive ElementsText : Nat → List (BitVec 8) → List Value → Prop
  | one (n) {w1 t w2 v} (h1 : JsonSpace w1) (hv : ValueText n t v) (h2 : JsonSpace w2) : ElementsText n (w1 ++ (t ++ w2)) [v]
  | more (n) {w1 t w2 v s vs} (h1 : JsonSpace w1) (hv : ValueText n t v) (h2 : JsonSpace w2) (hs : ElementsText n s vs) :
      ElementsText n (w1 ++ (t ++ (w2 ++ 0x2c#8 :: s))) (v :: vs)
end

/-- The text of a document: a value with white space around it. encoding/json takes at most 10000 objects and arrays inside each other. -/
def JsonText (s : List (BitVec 8)) (v : Value) : Prop := ∃ w1 t w2, s = w1 ++ (t ++ w2) ∧ JsonSpace w1 ∧ ValueText 10000 t v ∧ JsonSpace w2

end Insteon.Spec
