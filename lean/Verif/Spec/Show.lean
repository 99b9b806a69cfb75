import Verif.Spec.LinkText

/-
Specification vocabulary for what is shown to a person.
-/

namespace Insteon.Spec

/-- Lines of text, each ended by a line break. -/
def lines (ls : List (List (BitVec 8))) : List (BitVec 8) := (ls.map (· ++ [0x0a#8])).flatten

/-- A number below 256 as `0x` and two hex digits. -/
def hexByteText (n : Nat) : List (BitVec 8) :=
  ascii "0x" ++ [lowerDigits.getD (n / 16) 0, lowerDigits.getD (n % 16) 0]

/-- The line that shows a link record byte by byte: flags, group, the three bytes of the address, the data. -/
def recordBytesLine (l : LinkRecord) : List (BitVec 8) :=
  ascii "- [" ++ hexByteText l.flags.toNat ++ ascii ", " ++ hexByteText l.group.toNat
    ++ ascii ", " ++ hexByteText (l.address.toNat / 65536 % 256) ++ ascii ", " ++ hexByteText (l.address.toNat / 256 % 256)
    ++ ascii ", " ++ hexByteText (l.address.toNat % 256)
    ++ ascii ", " ++ hexByteText l.d0.toNat ++ ascii ", " ++ hexByteText l.d1.toNat ++ ascii ", " ++ hexByteText l.d2.toNat
    ++ ascii "]"

/-- The address fits the three bytes of the network. -/
def ThreeByteAddress (l : LinkRecord) : Prop := l.address.toNat < 2 ^ 24

/-- `a` may stand before `b` in a list ordered by address and then by group. -/
def InOrder (a b : LinkRecord) : Prop :=
  a.address.toNat < b.address.toNat ∨ (a.address.toNat = b.address.toNat ∧ a.group.toNat ≤ b.group.toNat)

/-- What a sorting function promises (Go's `sort.Sort`): for a comparison that is irreflexive, transitive and whose
incomparability is transitive on the elements, a rearrangement without inversions. Nothing is promised about the order
of elements that compare equal, nor about other comparisons. -/
def Sorts {α : Type} (less : α → α → Bool) (sort : List α → List α) : Prop :=
  ∀ l : List α,
    (∀ a ∈ l, less a a = false) →
    (∀ a ∈ l, ∀ b ∈ l, ∀ c ∈ l, less a b = true → less b c = true → less a c = true) →
    (∀ a ∈ l, ∀ b ∈ l, ∀ c ∈ l, less a b = false → less b a = false → less b c = false → less c b = false →
      less a c = false ∧ less c a = false) →
    (sort l).Perm l ∧ (sort l).Pairwise fun a b => less b a = false

/-- The documented names of thermostat modes. -/
def modeNames : List String :=
  ["Thermostat Off", "Heat Mode", "Cool Mode", "Auto Mode", "Fan On", "Program Auto", "Program Heat", "Program Cool", "Fan Off"]

/-- The documented names of fan speeds. -/
def fanNames : List String := ["Single Speed", "Low Speed", "Medium Speed", "High Speed"]

end Insteon.Spec
