import Verif.Model.Timed

/-
Specification vocabulary for time.
-/

namespace Insteon.Spec

/-- A world with a clock in which a wait for the modem or for a message takes at most `limit`, gives up after exactly `limit`, and writing bytes
takes at most `slow`. Nothing else is said about what happens in it. -/
structure KeepsTime {σ : Type} (io : PlmIO σ) (time : σ → Nat) (limit slow : Nat) : Prop where
  packet : ∀ s, time s ≤ time (io.rxPacket s).1 ∧ time (io.rxPacket s).1 ≤ time s + limit
  packetLate : ∀ s, (io.rxPacket s).2 = .timeout → time (io.rxPacket s).1 = time s + limit
  message : ∀ s, time s ≤ time (io.rxMsg s).1 ∧ time (io.rxMsg s).1 ≤ time s + limit
  messageLate : ∀ s, (io.rxMsg s).2 = .timeout → time (io.rxMsg s).1 = time s + limit
  sent : ∀ s b, time s ≤ time (io.tx s b).1 ∧ time (io.tx s b).1 ≤ time s + slow

/-- One second in nanoseconds. -/
def oneSecond : Nat := 10 ^ 9

/-- Times at which something was sent are at least `gap` apart. -/
def Apart (gap : Int) (sent : List (Nat × List (BitVec 8))) : Prop :=
  sent.Pairwise fun a b => (a.1 : Int) + gap ≤ b.1

/-- The options a PLM can be created with. -/
inductive Opt where
  | timeout (d : Int)
  | writeDelay (d : Int)

/-- The timeout an option sets. -/
def Opt.timeoutOf : Opt → Option Int
  | .timeout d => some d
  | .writeDelay _ => none

/-- The option as the program represents it. -/
def Opt.apply : Opt → PlmCfg → PlmCfg
  | .timeout d => PlmCfg.timeoutOpt d
  | .writeDelay d => PlmCfg.writeDelayOpt d

/-- A message from 00.00.05 every second, `n` of them, from second `k + 1` on. -/
def everySecond (k n : Nat) : List (Nat × Packet) :=
  (List.range' k n).map fun j => ((j + 1) * oneSecond, ⟨0x50, [0, 0, 5, 0, 0, 0, 0x8b, 0x11, 0], 0⟩)

end Insteon.Spec
