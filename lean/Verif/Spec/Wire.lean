import Verif.Model.Base

/-
Specification vocabulary for the Insteon message header, in plain arithmetic.
-/

namespace Insteon.Spec

/-- Message type number: the top three bits of the flag byte, as a number 0..7. -/
def typeNumber (f : BitVec 8) : Nat := f.toNat / 32

/-- Extended bit of the flag byte. -/
def isExtended (f : BitVec 8) : Prop := f.toNat / 16 % 2 = 1

instance (f : BitVec 8) : Decidable (isExtended f) := by unfold isExtended; infer_instance

/-- Hops left (bits 2-3) and maximum hops (bits 0-1). -/
def hopsLeft (f : BitVec 8) : Nat := f.toNat / 4 % 4
def maxHops (f : BitVec 8) : Nat := f.toNat % 4

/-- Command class belonging to a flag byte: 1 for extended messages, otherwise 8 for
broadcasts (type 4), 12 for the four all-link types (2, 3, 6, 7), 0 for direct messages. -/
def commandClass (f : BitVec 8) : Nat :=
  if isExtended f then 1
  else if typeNumber f = 4 then 8
  else if typeNumber f = 2 ∨ typeNumber f = 3 ∨ typeNumber f = 6 ∨ typeNumber f = 7 then 12
  else 0

/-- A positive acknowledgement is type 1 or 3, a negative one type 5 or 7. -/
def isAck (f : BitVec 8) : Prop := typeNumber f = 1 ∨ typeNumber f = 3
def isNak (f : BitVec 8) : Prop := typeNumber f = 5 ∨ typeNumber f = 7

instance (f : BitVec 8) : Decidable (isAck f) := by unfold isAck; infer_instance
instance (f : BitVec 8) : Decidable (isNak f) := by unfold isNak; infer_instance

/-- `p` cut to `n` bytes or filled up with zeros to `n` bytes. -/
def fit : Nat → List (BitVec 8) → List (BitVec 8)
  | 0, _ => []
  | n + 1, [] => 0#8 :: fit n []
  | n + 1, b :: p => b :: fit n p

end Insteon.Spec
