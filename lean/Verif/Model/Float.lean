import Verif.Model.Json

/-
float32, as far as thermostat temperatures need it (devices/thermostat.go 165-170 and 190)
-/

namespace Insteon

/-- The integer nearest to a rational, of two equally near ones the even one. -/
def roundEven (q : Rat) : Int :=
  let f := q.floor
  if q - f < 1 / 2 then f
  else if 1 / 2 < q - f then f + 1
  else if f % 2 = 0 then f else f + 1

/-- The exponent `e` of a positive rational: `2 ^ e ≤ q < 2 ^ (e + 1)`. -/
def exponent (q : Rat) : Int :=
  let e := (q.num.natAbs.log2 : Int) - q.den.log2
  if (q.num.natAbs : Int) * 2 ^ (-e).toNat < q.den * 2 ^ e.toNat then e - 1 else e

/-- The float32 nearest to a rational that is not negative, as a Go conversion, product, quotient or sum gives it: 24 binary digits. Simplification:
no overflow and no subnormal numbers; the temperatures here are 0 or between 0.1 and 120000. -/
def f32 (q : Rat) : Rat :=
  if q = 0 then 0
  else
    let e := exponent q
    let up : Rat := ((2 ^ (23 - e).toNat : Nat) : Rat)
    let down : Rat := ((2 ^ (e - 23).toNat : Nat) : Rat)
    roundEven (q * up / down) * down / up

/-- `fmt.Sprintf("%.01f", q)` (devices/thermostat.go 190) for a number that is not negative: the nearest number of tenths, of two equally near
ones the even one. -/
def fixed1 (q : Rat) : Bytes :=
  let t := (roundEven (q * 10)).toNat
  Json.intText (t / 10 : Nat) ++ lit "." ++ Json.intText (t % 10 : Nat)

end Insteon
