import Verif.Model.DevCats

/-
`strconv.ParseInt(str, 0, 64)` as `parseHex` of internal/devcats.go 93-99 calls it. Both errors, of syntax and of range, are `none`: the program ends with either.
-/

namespace Insteon
namespace Num

/-- The value of a digit or letter, in either case (the `switch` in the loop of `strconv.ParseUint`, called at internal/devcats.go 94). -/
def digit (c : Byte) : Option Nat :=
  if 48 ≤ c.toNat ∧ c.toNat ≤ 57 then some (c.toNat - 48)
  else if 97 ≤ c.toNat ∧ c.toNat ≤ 122 then some (c.toNat - 87)
  else if 65 ≤ c.toNat ∧ c.toNat ≤ 90 then some (c.toNat - 55)
  else none

/-- The loop of `strconv.ParseUint` over the digits with base 0 given (internal/devcats.go 94). The two comparisons there that find a number too large for 64 bits are one here. -/
def loop (base : Nat) : Nat → Bytes → Option Nat
  | n, [] => some n
  | n, c :: s =>
    if c = 0x5f#8 then loop base n s
    else match digit c with
      | none => none
      | some d => if d ≥ base then none else if n * base + d > 2 ^ 64 - 1 then none else loop base (n * base + d) s

/-- What `underscoreOK` of `strconv` saw last. -/
inductive Saw where
  | start | digit | underscore | other
deriving DecidableEq

/-- The loop of `underscoreOK` of `strconv` (internal/devcats.go 94). -/
def okLoop (hex : Bool) : Saw → Bytes → Bool
  | saw, [] => saw ≠ .underscore
  | saw, c :: s =>
    if (48 ≤ c.toNat ∧ c.toNat ≤ 57) ∨ (hex = true ∧ ((97 ≤ c.toNat ∧ c.toNat ≤ 102) ∨ (65 ≤ c.toNat ∧ c.toNat ≤ 70))) then okLoop hex .digit s
    else if c = 0x5f#8 then (if saw ≠ .digit then false else okLoop hex .underscore s)
    else if saw = .underscore then false
    else okLoop hex .other s

/-- The base a letter after the first 0 stands for (`strconv.ParseUint`, internal/devcats.go 94). -/
def prefixBase (p : Byte) : Option Nat :=
  if p = 0x62#8 ∨ p = 0x42#8 then some 2
  else if p = 0x6f#8 ∨ p = 0x4f#8 then some 8
  else if p = 0x78#8 ∨ p = 0x58#8 then some 16
  else none

/-- `underscoreOK` of `strconv` after the sign (internal/devcats.go 94). -/
def okAfterSign (s : Bytes) : Bool :=
  match s with
  | 0x30#8 :: p :: t =>
    match prefixBase p with
    | some b => okLoop (b = 16) .digit t
    | none => okLoop false .start s
  | _ => okLoop false .start s

/-- `underscoreOK` of `strconv` (internal/devcats.go 94). -/
def underscoreOK (s : Bytes) : Bool :=
  match s with
  | c :: t => if c = 0x2d#8 ∨ c = 0x2b#8 then okAfterSign t else okAfterSign s
  | [] => okAfterSign s

/-- The base of a number and its digits (the `switch` over the base in `strconv.ParseUint`, internal/devcats.go 94). -/
def split (s : Bytes) : Nat × Bytes :=
  match s with
  | 0x30#8 :: t =>
    match t with
    | p :: d :: u =>
      match prefixBase p with
      | some b => (b, d :: u)
      | none => (8, t)
    | _ => (8, t)
  | _ => (10, s)

/-- `strconv.ParseUint(s, 0, 64)` (internal/devcats.go 94). -/
def parseUint (s : Bytes) : Option Nat :=
  if s = [] then none
  else match loop (split s).1 0 (split s).2 with
    | none => none
    | some n => if 0x5f#8 ∈ (split s).2 ∧ underscoreOK s = false then none else some n

/-- `strconv.ParseInt(s, 0, 64)` (internal/devcats.go 94). -/
def parseInt (s : Bytes) : Option Int :=
  match s with
  | [] => none
  | c :: t =>
    match parseUint (if c = 0x2b#8 ∨ c = 0x2d#8 then t else s) with
    | none => none
    | some n =>
      if c = 0x2d#8 then (if n > 2 ^ 63 then none else some (-(n : Int)))
      else if n ≥ 2 ^ 63 then none else some (n : Int)

end Num
end Insteon
