import Verif.Spec.Timed
import Verif.Model.DeviceLinks

/-
Specification vocabulary for a line that falls silent.
-/

namespace Insteon.Spec

/-- No message arrives after the time `last` until more than `timeout` later. -/
def SilentAfter (last timeout : Nat) (msgs : List (Nat × Packet)) : Prop := ∀ m ∈ msgs, m.1 ≤ last ∨ last + timeout < m.1

/-- The messages of a PLM with a clock, as a device sees them. Nothing is written while a call waits. -/
def arriving {τ : Type} (react : τ → Nat → Bytes → τ × Nat × Option Err × List (Nat × Packet) × List (Nat × Packet)) (tie : Nat → Bool)
    (timeout : Int) : MsgIO (Timed τ) := ⟨Plm.read (Timed.io react tie timeout), fun s _ => (s, .panic)⟩

end Insteon.Spec
