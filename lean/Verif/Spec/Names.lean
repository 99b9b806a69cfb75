import Verif.Model.Message

/-
What it means that a printed text identifies what was printed.
-/

namespace Insteon

/-- Two commands that are printed alike although they differ: the command numbers by which
older and newer dimmers are turned on or off at a ramp rate (0x2e and 0x34, 0x2f and 0x35), with
the same second byte. -/
def RampTwins (a b : Command) : Prop :=
  ∃ x : Byte, (a = 0x2e00#64 ||| x.setWidth 64 ∧ b = 0x3400#64 ||| x.setWidth 64)
    ∨ (a = 0x3400#64 ||| x.setWidth 64 ∧ b = 0x2e00#64 ||| x.setWidth 64)
    ∨ (a = 0x2f00#64 ||| x.setWidth 64 ∧ b = 0x3500#64 ||| x.setWidth 64)
    ∨ (a = 0x3500#64 ||| x.setWidth 64 ∧ b = 0x2f00#64 ||| x.setWidth 64)

/-- A message as decoded from bytes of the network. -/
def Received (m : Message) : Prop := ∃ data, Message.zero.unmarshalBinary data = (m, none)

/-- The group number of an all-link broadcast: the last byte of its destination. -/
def groupOf (m : Message) : Nat := m.dst.toNat % 256

end Insteon
