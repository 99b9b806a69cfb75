import Verif.Model.ResetRace

/-
Specification for resets of the modem by several goroutines.
-/

namespace Insteon.Spec

/-- No goroutine is in a reset. -/
def NoReset (s : ResetSt) : Prop := ∀ i, s.phase i = .out

/-- At no time in the run are two goroutines in a reset. -/
def OneAtATime (t₀ : Int) (es : List Nat) : Prop :=
  ∀ es', es' <+: es → ∀ i j, ((ResetSt.init t₀).run es').phase i ≠ .out → ((ResetSt.init t₀).run es').phase j ≠ .out → i = j

/-- Twenty seconds in Go's `time.Duration`. -/
def twentySeconds : Int := 20000000000

end Insteon.Spec
