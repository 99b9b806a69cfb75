import Mathlib.Data.List.Forall2
import Verif.Model.DeviceLinks

/-
Specification vocabulary: what may have happened to the lists a program hands to a device.
-/

namespace Insteon.Spec

/-- `b` is the record `a`, perhaps with the mark for the end of a database (bit 1 of the flags clear) taken off. -/
def SameButEnd (a b : LinkRecord) : Prop :=
  b.group = a.group ∧ b.address = a.address ∧ b.d0 = a.d0 ∧ b.d1 = a.d1 ∧ b.d2 = a.d2 ∧
    (b.flags = a.flags ∨ b.flags = a.flags ||| 0x02#8)

/-- `b` is the record `a`, perhaps with bit 7 (in use) set and the end mark taken off. -/
def SameButUse (a b : LinkRecord) : Prop :=
  b.group = a.group ∧ b.address = a.address ∧ b.d0 = a.d0 ∧ b.d1 = a.d1 ∧ b.d2 = a.d2 ∧
    (b.flags = a.flags ∨ b.flags = a.flags ||| 0x82#8)

/-- The record does not mark the end of a database. -/
def NoEnd (l : LinkRecord) : Prop := l.flags.toNat / 2 % 2 = 1

/-- The record is marked as in use. -/
def Used (l : LinkRecord) : Prop := 128 ≤ l.flags.toNat

/-- The links of a list that the records `known` have no link with the same identity for. -/
def strangers (known links : List LinkRecord) : List LinkRecord :=
  links.filter fun l => !known.any fun r => r.id == l.id

end Insteon.Spec
