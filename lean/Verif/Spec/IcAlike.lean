import Verif.Spec.IcFailures
import Verif.Spec.Answers

/-
Specification vocabulary for what the program ic depends on.
-/

namespace Insteon.Spec

/-- Two runs come to the same, in corresponding states, or none of them has ended. -/
def SameOutcome {σ τ α : Type} (R : σ → τ → Prop) (x : Option (σ × α)) (y : Option (τ × α)) : Prop :=
  match x, y with
  | some (s, a), some (t, b) => a = b ∧ R s t
  | none, none => True
  | _, _ => False

end Insteon.Spec
