import Verif.Model.Device

/-
What it means to watch messages without disturbing them.
-/

namespace Insteon

/-- Something a program does with a message writer. -/
inductive MonOp where
  | read
  | write (m : Message)

/-- One operation. -/
def MonOp.perform {σ : Type} (io : MsgIO σ) : MonOp → σ → σ × MRes
  | .read, s => io.read s
  | .write m, s => io.write s m

/-- A sequence of operations: the final state and the results in order. -/
def performAll {σ : Type} (io : MsgIO σ) : List MonOp → σ → σ × List MRes
  | [], s => (s, [])
  | op :: ops, s =>
    let r := op.perform io s
    let rest := performAll io ops r.1
    (rest.1, r.2 :: rest.2)

/-- The messages to be seen in one operation: the message read; the message written and then its
acknowledgement, if there is one. -/
def MonOp.seen : MonOp → MRes → List Message
  | .read, .ret (some m) none => [m]
  | .write m, .ret (some a) _ => [m, a]
  | .write m, .ret none _ => [m]
  | _, _ => []

/-- The messages to be seen in a sequence of operations. -/
def seenAll : List MonOp → List MRes → List Message
  | op :: ops, r :: rs => op.seen r ++ seenAll ops rs
  | _, _ => []

/-- The messages that pass through in one operation, apart from the acknowledgement a write returns. -/
def MonOp.passed : MonOp → MRes → List Message
  | .read, .ret (some m) _ => [m]
  | .write m, _ => [m]
  | _, _ => []

/-- The messages that pass through in a sequence of operations. -/
def passedAll : List MonOp → List MRes → List Message
  | op :: ops, r :: rs => op.passed r ++ passedAll ops rs
  | _, _ => []

/-- A result that no correct reader or writer gives: a panic, or a successful read of no message. -/
def MonOp.broken : MonOp → MRes → Prop
  | _, .panic => True
  | .read, .ret none none => True
  | _, _ => False

/-- A line of text that shows a message: two letters, the source and more, without a line break but at the
end. -/
def Shows (m : Message) (line : Bytes) : Prop :=
  ∃ a b rest, line = [a, b, ch ' '] ++ m.src.string ++ rest ++ [0x0a#8] ∧ a ≠ 0x0a#8 ∧ b ≠ 0x0a#8 ∧ 0x0a#8 ∉ rest

/-- The requests an acknowledgement may belong to: sent to the one who acknowledges, by the one it is addressed
to, and not an acknowledgement itself. -/
def Requests (ack m : Message) : Prop := m.dst = ack.src ∧ m.src = ack.dst ∧ m.flags.ack = false ∧ m.flags.nak = false

end Insteon
