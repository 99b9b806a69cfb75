import Verif.Spec.Device
import Verif.Props.Device

/-
C179: the reason a device gives for refusing a command.
-/

namespace Insteon
open Spec

/-- The reasons devices give in the second command byte of a refusal, by engine. -/
def Spec.reasonOf (i2cs : Bool) (code : Nat) : Err :=
  if code = 0xff then .notLinked
  else if code = 0xfe then .noLoadDetected
  else if code = 0xfd then (if i2cs then .incorrectChecksum else .unknownCommand)
  else if i2cs ∧ code = 0xfc then .preNak
  else if i2cs ∧ code = 0xfb then .illegalValue
  else .unexpectedResponse

/-- C179, what holds of the table the library has: it gives the documented reason for every refusal, and leaves other errors and success
alone. No call uses it. -/
theorem refusal_reasons_partial (info : DeviceInfo) (m : Message) (e : Option Err) :
    (e = some .devNak → Device.errLookup info m e = some (reasonOf (info.engineVersion == 2#64) (cmd2 m))) ∧
    (e ≠ some .devNak → Device.errLookup info m e = e) := by
  constructor
  · rintro rfl
    have hc : (m.command.command2 &&& 0xff#64).toNat = cmd2 m := by
      unfold cmd2 Command.command2
      simp only [BitVec.toNat_and]
      rw [show (0xff#64).toNat = 2 ^ 8 - 1 from rfl, Nat.and_two_pow_sub_one_eq_mod, Nat.and_two_pow_sub_one_eq_mod]
      omega
    have hlt : cmd2 m < 256 := by unfold cmd2; omega
    unfold Device.errLookup
    rw [if_pos rfl, hc]
    generalize cmd2 m = n at hlt
    unfold reasonOf
    by_cases hv : info.engineVersion = verI2Cs
    · rw [if_pos hv]
      have : (info.engineVersion == 2#64) = true := by rw [hv]; rfl
      rw [this]
      have key : ∀ n : Fin 256, (match n.val with
          | 0xfb => some Err.illegalValue | 0xfc => some .preNak | 0xfd => some .incorrectChecksum
          | 0xfe => some .noLoadDetected | 0xff => some .notLinked | _ => some .unexpectedResponse) = some (reasonOf true n.val) := by decide +kernel
      exact key ⟨n, hlt⟩
    · rw [if_neg hv]
      have : (info.engineVersion == 2#64) = false := by simpa using hv
      rw [this]
      have key : ∀ n : Fin 256, (match n.val with
          | 0xfd => some Err.unknownCommand | 0xfe => some .noLoadDetected | 0xff => some .notLinked
          | _ => some .unexpectedResponse) = some (reasonOf false n.val) := by decide +kernel
      exact key ⟨n, hlt⟩
  · intro h
    unfold Device.errLookup
    rw [if_neg h]

/-- C179, what holds of the calls: a refused command is an error, and always the same one. -/
theorem refusal_reported_partial {σ : Type} (info : DeviceInfo) (io : MsgIO σ) (s s' : σ) (command : Command) (payload : Bytes) (m : Message)
    (h : io.write s (Device.prepare info ⟨0, 0, 0, command, payload⟩) = (s', .ret (some m) (some .devNak))) :
    Device.send info io s command payload = (s', .ok (0, some .devNak)) ∧
    Device.sendCommand info io s command payload = (s', .ok (some .devNak)) := by
  have hs : Device.send info io s command payload = (s', .ok (0, some .devNak)) := by
    unfold Device.send Device.write
    rw [h]
  refine ⟨hs, ?_⟩
  unfold Device.sendCommand
  rw [hs]

/-- C179 is false of the code: a device that does not know the sender and one without a load are reported alike. -/
theorem refusal_reason_refuted :
    ¬ ∀ (info : DeviceInfo) (ioA ioB : MsgIO Unit) (command : Command) (a b : Message),
      (∀ m, ioA.write () m = ((), .ret (some a) (some .devNak))) → (∀ m, ioB.write () m = ((), .ret (some b) (some .devNak))) → cmd2 a ≠ cmd2 b →
      Device.send info ioA () command [] ≠ Device.send info ioB () command [] := by
  intro h
  exact h ⟨5, (1, 1), 1, 2⟩ ⟨fun _ => ((), .panic), fun _ _ => ((), .ret (some ⟨5, 1, 0xaf, 0x0011ff, []⟩) (some .devNak))⟩
    ⟨fun _ => ((), .panic), fun _ _ => ((), .ret (some ⟨5, 1, 0xaf, 0x0011fe, []⟩) (some .devNak))⟩ 0x1100
    ⟨5, 1, 0xaf, 0x0011ff, []⟩ ⟨5, 1, 0xaf, 0x0011fe, []⟩ (fun _ => rfl) (fun _ => rfl) (by decide) rfl

example : Device.errLookup ⟨5, (1, 1), 1, 2⟩ ⟨5, 1, 0xaf, 0x0011fd, []⟩ (some .devNak) = some .incorrectChecksum ∧
    Device.errLookup ⟨5, (1, 1), 1, 1⟩ ⟨5, 1, 0xaf, 0x0011fd, []⟩ (some .devNak) = some .unknownCommand := by decide

end Insteon
