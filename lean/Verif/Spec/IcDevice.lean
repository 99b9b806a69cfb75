import Verif.Spec.Control
import Verif.Spec.Text

/-
Specification vocabulary for the command line programs that work on devices: what it means that a device is only asked, and what its
status looks like.
-/

namespace Insteon.Spec

/-- The state `s'` can be reached from `s` by reading messages and by writing messages that satisfy `Q`, in any order and number. -/
inductive Reaches {σ : Type} (io : MsgIO σ) (Q : Message → Prop) : σ → σ → Prop where
  | refl (s : σ) : Reaches io Q s s
  | read (s s' : σ) : Reaches io Q s s' → Reaches io Q s (io.read s').1
  | write (s s' : σ) (m : Message) : Q m → Reaches io Q s s' → Reaches io Q s (io.write s' m).1

/-- Messages that ask a device for something and change nothing in it: the version of its engine (0x0d), its identification (0x10), and its
links (0x2f with data that is zero up to the checksum: read all records). -/
def OnlyAsks (m : Message) : Prop :=
  (cmd1 m = 0x0d ∧ cmd2 m = 0 ∧ m.payload = []) ∨
  (cmd1 m = 0x10 ∧ cmd2 m = 0 ∧ m.payload = []) ∨
  (cmd1 m = 0x2f ∧ cmd2 m = 0 ∧ m.payload.take 13 = List.replicate 13 0)

/-- What a status command prints and reports when the answer carries this level, given the text for each level. -/
def shown {σ : Type} (text : Nat → List (BitVec 8)) : σ × Out (List Nat × Option Err) → σ × List (BitVec 8) × Out (Option Err)
  | (s, .ok (l, none)) => (s, text (l.getD 0 0), .ok none)
  | (s, .ok (_, some e)) => (s, [], .ok (some e))
  | (s, .err e) => (s, [], .err e)
  | (s, .panic) => (s, [], .panic)

/-- A number below 256 as two hex digits. -/
def hexPair (n : Nat) : List (BitVec 8) := [lowerDigits.getD (n / 16) 0, lowerDigits.getD (n % 16) 0]

/-- A number below 256 in decimal. -/
def decimal (n : Nat) : List (BitVec 8) := ascii (toString n)

end Insteon.Spec
