import Verif.Model.Device

/-
Specification vocabulary for calls on devices as conversations: what a call does with a message writer is to write and to read, and apart from the results it depends on
nothing but its arguments.
-/

namespace Insteon.Spec

/-- A conversation over a message writer: what is computed between two messages is a function of the results so far. -/
inductive Talk (α : Type) where
  | ret (a : α)
  | read (k : MRes → Talk α)
  | write (m : Message) (k : MRes → Talk α)

namespace Talk
variable {α : Type}

/-- The conversation held over a message writer. -/
def run {σ : Type} (io : MsgIO σ) : Talk α → σ → σ × α
  | .ret a, s => (s, a)
  | .read k, s => run io (k (io.read s).2) (io.read s).1
  | .write m k, s => run io (k (io.write s m).2) (io.write s m).1

/-- Whatever the answers, only messages such as `Q` are written. -/
def Says (Q : Message → Prop) : Talk α → Prop
  | .ret _ => True
  | .read k => ∀ r, Says Q (k r)
  | .write m k => Q m ∧ ∀ r, Says Q (k r)

end Talk

/-- Results that are crashes. -/
class Crash (α : Type) where
  crash : α → Prop

instance : Crash MRes := ⟨fun | .panic => True | _ => False⟩
instance {α : Type} : Crash (Out α) := ⟨fun | .panic => True | _ => False⟩
instance {α β : Type} [Crash β] : Crash (α × β) := ⟨fun r => Crash.crash r.2⟩
instance {α : Type} [Crash α] : Crash (Option α) := ⟨fun | some a => Crash.crash a | none => False⟩

/-- A crash below ends the conversation, and is a crash. -/
def Talk.Unwinds {α : Type} [Crash α] : Talk α → Prop
  | .ret _ => True
  | .read k => (∃ a, k .panic = .ret a ∧ Crash.crash a) ∧ ∀ r, Unwinds (k r)
  | .write _ k => (∃ a, k .panic = .ret a ∧ Crash.crash a) ∧ ∀ r, Unwinds (k r)

/-- A call of the library, which works over any message writer, is a conversation with messages such as `Q`, and does not go on after a crash. -/
def IsTalk {α : Type} [Crash α] (Q : Message → Prop) (f : (σ : Type) → MsgIO σ → σ → σ × α) : Prop :=
  ∃ P : Talk α, P.Says Q ∧ P.Unwinds ∧ ∀ (σ : Type) (io : MsgIO σ) (s : σ), P.run io s = f σ io s

/-- The same for calls with loops, which are modelled with a bound on the number of rounds and come to nothing when it is used up. -/
def IsLongTalk {α : Type} [Crash α] (Q : Message → Prop) (f : (σ : Type) → MsgIO σ → σ → Option (σ × α)) : Prop :=
  ∃ P : Talk (Option α), P.Says Q ∧ P.Unwinds ∧ ∀ (σ : Type) (io : MsgIO σ) (s : σ),
    (∀ s' a, f σ io s = some (s', a) → P.run io s = (s', some a)) ∧ (f σ io s = none → (P.run io s).2 = none)

end Insteon.Spec
