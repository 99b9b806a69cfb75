import Verif.Model.ErrorText

/-
Specification vocabulary for the texts of errors: what it means that a decoder needs some bytes more.
-/

namespace Insteon.Spec

/-- Decoding fails because there are too few bytes. -/
def TooShort (d : Decoder) (data : List (BitVec 8)) : Prop := d.error data = some (.wrapped .bufferTooShort)

/-- The decoder needs `n` bytes more, whatever they are: fewer are not enough, and with as many it does not lack any. -/
def Lacks (d : Decoder) (data : List (BitVec 8)) (n : Nat) : Prop :=
  ∀ more, TooShort d (data ++ more) ↔ more.length < n

end Insteon.Spec
