import Verif.Spec.Control

/-
Specification vocabulary for reading thermostats: questions, the two data sets, single bits.
-/

namespace Insteon.Spec

/-- A question: command bytes and payload. -/
structure Question where
  c1 : Nat
  c2 : Nat
  payload : List (BitVec 8)

/-- The message `m` puts the question to the device: direct, with these command bytes, extended exactly when there is
a payload, which for I2CS devices is filled up to 14 bytes with a valid checksum at the end. -/
def Asks (info : DeviceInfo) (q : Question) (m : Message) : Prop :=
  m.dst = info.address ∧ cmd1 m = q.c1 ∧ cmd2 m = q.c2 ∧ typeNumber m.flags = 0 ∧ (isExtended m.flags ↔ q.payload ≠ []) ∧
  (if info.engineVersion = 2#64 ∧ q.payload ≠ [] then
    m.payload.length = 14 ∧ m.payload.take 13 = (fit 14 q.payload).take 13 ∧ checksumOk m
   else m.payload = q.payload)

/-- The two questions for data sets 0 and 1. -/
def infoQuestions : List Question := [⟨0x2e, 0, [0, 0, 0]⟩, ⟨0x2e, 0, [0, 0, 1]⟩]

/-- The questions of a status report: temperature, deadband, setpoint and humidity of zone 0, both data sets, mode,
equipment state. -/
def statusQuestions : List Question :=
  [⟨0x6a, 0x00, []⟩, ⟨0x6a, 0x10, []⟩, ⟨0x6a, 0x20, []⟩, ⟨0x6a, 0x30, []⟩] ++ infoQuestions ++ [⟨0x6b, 0x02, []⟩, ⟨0x6b, 0x0d, []⟩]

/-- Everything two data sets say: `a` is data set 0, `b` data set 1. -/
def bothSets (a b : List (BitVec 8)) : ThermostatInfo :=
  let x := fun i => ((a.getD i 0).toNat : Int)
  let y := fun i => ((b.getD i 0).toNat : Int)
  let celsius : Rat := ((a.getD 13 0).toNat * 256 + (a.getD 3 0).toNat : Nat) / 10
  { temp := if (a.getD 12 0).toNat / 8 % 2 = 1 then celsius else celsius * 9 / 5 + 32
    humidity := x 4, tempOffset := x 5, humidityOffset := x 6, mode := a.getD 7 0, fanMode := x 8, backlightSeconds := x 9,
    hysteresisMinutes := x 10, flags := a.getD 12 0,
    humidityHigh := y 3, humidityLow := y 4, rev := y 5, coolSetPoint := y 6, heatSetPoint := y 7, rfOffset := y 8,
    energySetbackPoint := y 9, externalTempOffset := y 10, statusReportEnabled := decide (y 11 = 1),
    externalPower := decide (y 12 = 1), externalTemp := decide (y 13 = 2) }

/-- The same information, except that the temperature may be off by less than 1/500 of a degree, as it is kept with 24 binary digits. -/
def SameInfo (got said : ThermostatInfo) : Prop :=
  got = { said with temp := got.temp } ∧ -(1 / 500) < got.temp - said.temp ∧ got.temp - said.temp < 1 / 500

/-- The tenths of a degree nearest to a temperature given in tenths of a degree Celsius, in degrees Celsius or Fahrenheit; there is
never a second one equally near. -/
def nearestTenths (celsius : Bool) (tenths : Nat) : Nat := if celsius then tenths else (tenths * 18 + 3200 + 5) / 10

/-- The messages up to the next one with first command byte 0x2e, that one, and the messages after it. -/
def NextReply (inbox : List Message) (m : Message) (rest : List Message) : Prop :=
  ∃ pre, inbox = pre ++ m :: rest ∧ (∀ x ∈ pre, cmd1 x ≠ 0x2e) ∧ cmd1 m = 0x2e

/-- Bit `k` of a byte. -/
def bit (k : Nat) (b : BitVec 8) : Prop := b.toNat / 2 ^ k % 2 = 1

instance (k b) : Decidable (bit k b) := by unfold bit; infer_instance

end Insteon.Spec
