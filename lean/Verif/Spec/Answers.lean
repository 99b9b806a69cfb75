import Verif.Model.Device

/-
Specification vocabulary for what a call on a device depends on: message writers that answer alike, and message writers that keep track of crashes.
-/

namespace Insteon.Spec

/-- Two message writers in corresponding states give the same results, to all reads and to all messages such as `Q`, and are in corresponding states again. -/
structure AnswerAlike {σ τ : Type} (Q : Message → Prop) (a : MsgIO σ) (b : MsgIO τ) (R : σ → τ → Prop) : Prop where
  read : ∀ s t, R s t → (a.read s).2 = (b.read t).2 ∧ R (a.read s).1 (b.read t).1
  write : ∀ s t m, R s t → Q m → (a.write s m).2 = (b.write t m).2 ∧ R (a.write s m).1 (b.write t m).1

/-- The message writer with a mark that is set once reading or writing has crashed. -/
def noteCrash {σ : Type} (io : MsgIO σ) : MsgIO (Bool × σ) where
  read w := ((w.1 || decide ((io.read w.2).2 = .panic), (io.read w.2).1), (io.read w.2).2)
  write w m := ((w.1 || decide ((io.write w.2 m).2 = .panic), (io.write w.2 m).1), (io.write w.2 m).2)

end Insteon.Spec
