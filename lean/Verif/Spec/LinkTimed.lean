import Verif.Model.LinkTimed
import Verif.Spec.Timed

/-
Specification vocabulary for the time that linking takes.
-/

namespace Insteon.Spec

/-- A message written to a device: when the call began, what was written, when the call returned, and whether it returned an acknowledgement. -/
structure TimedWrite where
  start : Nat
  msg : Message
  done : Nat
  acked : Bool

/-- The same line to the devices, with every message that is written noted. -/
def noted {σ : Type} (time : σ → Nat) (io : MsgIO σ) : MsgIO (σ × List TimedWrite) where
  read := fun s => (((io.read s.1).1, s.2), (io.read s.1).2)
  write := fun s m =>
    (((io.write s.1 m).1, s.2 ++ [⟨time s.1, m, time (io.write s.1 m).1, match (io.write s.1 m).2 with | .ret (some _) none => true | _ => false⟩]),
      (io.write s.1 m).2)

/-- Asks a device to enter linking or unlinking mode: INSTEON commands 09 and 0A, standard or extended. -/
def StartsLinking (m : Message) : Prop := (m.command >>> 8) &&& 0xff#64 = 0x09#64 ∨ (m.command >>> 8) &&& 0xff#64 = 0x0a#64

/-- Half a second and the time that fourteen bytes need with three hops, 14 · 4 / 60 seconds, in nanoseconds. -/
def linkingPause : Nat := 1433333333

/-- At the time `t` an exchange is over, and if a device has been brought into linking mode by it, the pause has passed. -/
def Settled (x : TimedWrite) (t : Nat) : Prop := x.done ≤ t ∧ (x.acked = true → StartsLinking x.msg → x.done + linkingPause ≤ t)

/-- No exchange begins before the earlier ones have settled. -/
def Unhurried (l : List TimedWrite) : Prop := l.Pairwise fun a b => Settled a b.start

/-- The clock never goes back, and a message is written within `most`. -/
structure Clocked {σ : Type} (io : MsgIO σ) (time : σ → Nat) (most : Nat) : Prop where
  forward : ∀ s m, time s ≤ time (io.write s m).1
  within : ∀ s m, time (io.write s m).1 ≤ time s + most

end Insteon.Spec
