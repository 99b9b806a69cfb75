import Verif.Spec.Control
import Verif.Props.Command
import Verif.Props.Device

/-
Properties C61 - C66, C90 - C94: switches, dimmers and thermostats.
-/

namespace Insteon
open Spec

theorem sends_command (info : DeviceInfo) (c : Command) (p : Bytes) (hp : p.length ≤ 13 ∨ p = List.replicate 14 0#8) :
    Sends info (c.toNat / 256 % 256) (c.toNat % 256) p (fun _ io s => Device.sendCommand info io s c p) := by
  intro σ io s
  obtain ⟨out, h1, h2, h3, h4, h5, h6, h7, h8⟩ := device_write_framing info io s ⟨0, 0, 0, c, p⟩
  refine ⟨Device.prepare info ⟨0, 0, 0, c, p⟩, ?_, ?_⟩
  · show Device.sendCommand info io s c p = _
    unfold Device.sendCommand Device.send Device.write
    rcases io.write s (Device.prepare info ⟨0, 0, 0, c, p⟩) with ⟨s', ⟨_ | a, _ | e⟩ | _⟩ <;> rfl
  · by_cases hpe : p = []
    · subst hpe
      rw [prepare_standard _ _ rfl]
      exact ⟨rfl, rfl, rfl, (by decide : typeNumber 0x0f#8 = 0), by simp [show ¬ isExtended 0x0f#8 by decide], by simp⟩
    · by_cases hv : info.engineVersion = 2#64
      · obtain ⟨k1, k2, k3⟩ := i2cs_checksum_partial info hv ⟨0, 0, 0, c, p⟩ hpe
        have hmax : max 14 p.length = 14 := by
          rcases hp with h | h
          · omega
          · rw [h]; simp
        dsimp only at k1 k2 k3
        rw [hmax] at k1 k2 k3
        have hlast : (fit 14 p).getLast? = some 0#8 := by
          rcases hp with h | h
          · have hf : fit 14 p = p ++ List.replicate (14 - p.length) 0#8 := by
              rw [← copyPad_fit, copyPad, List.take_of_length_le (by omega)]
            rw [hf]
            obtain ⟨k, hk⟩ : ∃ k, 14 - p.length = k + 1 := ⟨13 - p.length, by omega⟩
            rw [hk, List.replicate_succ', ← List.append_assoc, List.getLast?_append]
            simp
          · rw [h]; decide
        have hck := k3.mpr hlast
        have ht : (Device.prepare info ⟨0, 0, 0, c, p⟩).payload.take 13 = (fit 14 p).take 13 := by
          rw [List.dropLast_eq_take, List.dropLast_eq_take, k1, fit_length] at k2
          exact k2
        rw [if_pos ⟨hv, hpe⟩]
        rw [prepare_i2cs info _ hpe hv] at k1 hck ht ⊢
        exact ⟨rfl, rfl, rfl, (by decide : typeNumber 0x1a#8 = 0), by simp [show isExtended 0x1a#8 by decide, hpe], k1, ht, hck⟩
      · rw [prepare_extended info _ hpe hv, if_neg (by tauto)]
        exact ⟨rfl, rfl, rfl, (by decide : typeNumber 0x1a#8 = 0), by simp [show isExtended 0x1a#8 by decide, hpe], rfl⟩

theorem sends_sub (info : DeviceInfo) (c : Command) (x : BitVec 64) (p : Bytes) (c1 c2 : Nat) (h1 : c.toNat / 256 % 256 = c1)
    (h2 : x.toNat % 256 = c2) (hp : p.length ≤ 13) :
    Sends info c1 c2 p (fun _ io s => Device.sendCommand info io s (c.subCommand x) p) := by
  have := sends_command info (c.subCommand x) p (Or.inl hp)
  rw [subCommand_toNat] at this
  rw [show (c.toNat / 256 % 65536 * 256 + x.toNat % 256) / 256 % 256 = c1 by omega,
    show (c.toNat / 256 % 65536 * 256 + x.toNat % 256) % 256 = c2 by omega] at this
  exact this

theorem ofInt_low8 (x : Int) : (BitVec.ofInt 64 x).toNat % 256 = low8 x := by
  rw [BitVec.toNat_ofInt, low8]; omega

theorem twice_low8 (x : Int) : (Thermostat.twice x).toNat % 256 = low8 (2 * x) := by
  unfold Thermostat.twice low8
  rw [BitVec.toNat_mul, BitVec.toNat_ofInt]
  simp only [BitVec.toNat_ofNat]
  omega

/-! ### C90: lighting commands -/

/-- C90: every control method of a switch or dimmer sends exactly one command, the one documented for it, and reports
the writer's error; a level is sent modulo 256. -/
theorem lighting_commands (info : DeviceInfo) :
    Sends info 0x13 0x00 [] (fun _ io s => Switch.turnOff info io s) ∧
    (∀ level, Sends info 0x11 (low8 level) [] (fun _ io s => Switch.turnOn info io s level)) ∧
    (∀ on, Sends info 0x20 (if on then 0x06 else 0x07) (List.replicate 14 0) (fun _ io s => Switch.setLoadSense info io s on)) ∧
    (∀ on, Sends info 0x20 (if on then 0x09 else 0x08) (List.replicate 14 0) (fun _ io s => Switch.setBacklight info io s on)) ∧
    Sends info 0x15 0x00 [] (fun _ io s => Dimmer.brighten info io s) ∧
    Sends info 0x16 0x00 [] (fun _ io s => Dimmer.dim info io s) ∧
    Sends info 0x17 0x01 [] (fun _ io s => Dimmer.startBrighten info io s) ∧
    Sends info 0x17 0x00 [] (fun _ io s => Dimmer.startDim info io s) ∧
    Sends info 0x18 0x00 [] (fun _ io s => Dimmer.stopManualChange info io s) ∧
    Sends info 0x12 0x00 [] (fun _ io s => Dimmer.onFast info io s) ∧
    (∀ level, Sends info 0x21 (low8 level) [] (fun _ io s => Dimmer.instantChange info io s level)) ∧
    (∀ level, Sends info 0x27 (low8 level) [] (fun _ io s => Dimmer.setStatus info io s level)) := by
  refine ⟨sends_command info _ [] (by simp), fun l => sends_sub info _ _ [] _ _ rfl (ofInt_low8 l) (by simp), ?_, ?_,
    sends_command info _ [] (by simp), sends_command info _ [] (by simp), sends_command info _ [] (by simp),
    sends_command info _ [] (by simp), sends_command info _ [] (by simp), sends_command info _ [] (by simp),
    fun l => sends_sub info _ _ [] _ _ rfl (ofInt_low8 l) (by simp), fun l => sends_sub info _ _ [] _ _ rfl (ofInt_low8 l) (by simp)⟩
  · intro on
    cases on
    · exact sends_command info Cmd.disableLoadSense (List.replicate 14 0#8) (Or.inr rfl)
    · exact sends_command info Cmd.enableLoadSense (List.replicate 14 0#8) (Or.inr rfl)
  · intro on
    cases on
    · exact sends_command info Cmd.disableLED (List.replicate 14 0#8) (Or.inr rfl)
    · exact sends_command info Cmd.enableLED (List.replicate 14 0#8) (Or.inr rfl)

/-- A level from 0 to 255 is sent as it is. -/
theorem low8_of_lt (level : Int) (h0 : 0 ≤ level) (h : level < 256) : (low8 level : Int) = level := by
  unfold low8; omega

/-! ### C64 -/

theorem ramp_byte (level rate : Int) :
    (((BitVec.ofInt 8 level <<< 4) ||| (BitVec.ofInt 8 rate &&& 0x0f#8)).setWidth 64).toNat % 256 = low8 level % 16 * 16 + low8 rate % 16 := by
  have key : ∀ a b : BitVec 8, (((a <<< 4) ||| (b &&& 0x0f#8)).setWidth 64).toNat % 256 = a.toNat % 16 * 16 + b.toNat % 16 := by
    intro a b
    have e1 : (a <<< 4) ||| (b &&& 0x0f#8) = (a <<< 4) + (b &&& 0x0f#8) := by
      rw [← BitVec.add_eq_or_of_and_eq_zero]
      ext i hi
      simp only [BitVec.getElem_and, BitVec.getElem_shiftLeft]
      interval_cases i <;> simp
    have e2 : (b &&& 0x0f#8).toNat = b.toNat % 16 := by
      rw [BitVec.toNat_and]
      exact Nat.and_two_pow_sub_one_eq_mod b.toNat 4
    rw [e1, BitVec.toNat_setWidth, BitVec.toNat_add, e2, BitVec.toNat_shiftLeft, Nat.shiftLeft_eq]
    omega
  rw [key, BitVec.toNat_ofInt, BitVec.toNat_ofInt]
  rfl

theorem toNat_ramp (rate : Int) : (0x0f#64 &&& BitVec.ofInt 64 rate).toNat % 256 = low8 rate % 16 := by
  rw [BitVec.toNat_and, Nat.and_comm, show (0x0f#64).toNat = 2 ^ 4 - 1 from rfl, Nat.and_two_pow_sub_one_eq_mod, ← ofInt_low8]
  omega

/-- C64: on-at-ramp and off-at-ramp send one command without payload, 0x34 / 0x35 from firmware 0x43 on (as a signed
number) and 0x2e / 0x2f before, with the level in the high and the rate in the low nibble. -/
theorem ramp_commands (info : DeviceInfo) (level rate : Int) :
    Sends info (if 0x43 ≤ info.firmwareVersion.toInt then 0x34 else 0x2e) (low8 level % 16 * 16 + low8 rate % 16) []
      (fun _ io s => Dimmer.onAtRamp info io s level rate) ∧
    Sends info (if 0x43 ≤ info.firmwareVersion.toInt then 0x35 else 0x2f) (low8 rate % 16) []
      (fun _ io s => Dimmer.offAtRamp info io s rate) := by
  have hfw : BitVec.sle 0x43#64 info.firmwareVersion = decide (0x43 ≤ info.firmwareVersion.toInt) := by
    rw [BitVec.sle_eq_decide]; rfl
  constructor
  · unfold Dimmer.onAtRamp
    rw [hfw]
    by_cases h : 0x43 ≤ info.firmwareVersion.toInt
    · simp only [h, decide_true, if_true]
      exact sends_sub info _ _ [] _ _ rfl (ramp_byte level rate) (by simp)
    · simp only [h, decide_false, if_false, Bool.false_eq_true]
      exact sends_sub info _ _ [] _ _ rfl (ramp_byte level rate) (by simp)
  · unfold Dimmer.offAtRamp
    rw [hfw]
    by_cases h : 0x43 ≤ info.firmwareVersion.toInt
    · simp only [h, decide_true, if_true]
      exact sends_sub info _ _ [] _ _ rfl (toNat_ramp rate) (by simp)
    · simp only [h, decide_false, if_false, Bool.false_eq_true]
      exact sends_sub info _ _ [] _ _ rfl (toNat_ramp rate) (by simp)

/-- Level and rate can be read back from the byte. -/
theorem ramp_recover (level rate : Int) (h1 : 0 ≤ level) (h2 : level < 16) (h3 : 0 ≤ rate) (h4 : rate < 16) :
    (((low8 level % 16 * 16 + low8 rate % 16) / 16 : Nat) : Int) = level ∧
    (((low8 level % 16 * 16 + low8 rate % 16) % 16 : Nat) : Int) = rate := by
  unfold low8; omega

/-- The two nibbles do not disturb each other, whatever the arguments. -/
theorem ramp_nibbles (level rate : Int) :
    (low8 level % 16 * 16 + low8 rate % 16) / 16 = low8 level % 16 ∧ (low8 level % 16 * 16 + low8 rate % 16) % 16 = low8 rate % 16 := by
  omega

/-! ### C61 -/

/-- C61: setting one of the nine modes sends exactly one command, 0x6b with the documented byte. -/
theorem set_mode_valid (info : DeviceInfo) (mode : ThermostatMode) (b : Nat) (h : modeByte mode.toNat = some b) :
    Sends info 0x6b b [] (fun _ io s => Thermostat.setMode info io s mode) := by
  have key : ∀ m : ThermostatMode, (Thermostat.modeCommand m).map (fun c => (c.toNat / 256 % 256, c.toNat % 256)) =
      (modeByte m.toNat).map fun b => (0x6b, b) := by decide +kernel
  have k := key mode
  rw [h] at k
  unfold Thermostat.setMode
  rcases hc : Thermostat.modeCommand mode with _ | c <;> rw [hc] at k
  · simp at k
  · simp only [Option.map_some, Option.some.injEq, Prod.mk.injEq] at k
    have := sends_command info c [] (by simp)
    rw [k.1, k.2] at this
    exact this

/-- C61: any other mode is rejected without traffic. -/
theorem set_mode_invalid (info : DeviceInfo) (mode : ThermostatMode) (h : 8 < mode.toNat) :
    Refuses .invalidThermostatMode (fun _ io s => Thermostat.setMode info io s mode) := by
  have key : ∀ m : ThermostatMode, 8 < m.toNat → Thermostat.modeCommand m = none := by decide +kernel
  intro σ io s
  simp only [Thermostat.setMode, key mode h]

/-- C61: the nine commands are different. -/
theorem modes_distinct (m n b : Nat) (hm : modeByte m = some b) (hn : modeByte n = some b) : m = n := by
  have h9 : ∀ k, modeByte k = some b → k < 9 := by
    intro k hk
    by_contra hge
    obtain ⟨j, rfl⟩ : ∃ j, k = j + 9 := ⟨k - 9, by omega⟩
    simp [modeByte] at hk
  exact (by decide : ∀ m < 9, ∀ n < 9, modeByte m = modeByte n → m = n) m (h9 m hm) n (h9 n hn) (by rw [hm, hn])

/-- Exactly the modes 0 to 8 are valid. -/
theorem mode_valid_iff (m : Nat) : (modeByte m).isSome ↔ m ≤ 8 := by
  constructor
  · intro h
    by_contra hge
    obtain ⟨j, rfl⟩ : ∃ j, m = j + 9 := ⟨m - 9, by omega⟩
    simp [modeByte] at h
  · intro h
    interval_cases m <;> rfl

/-- C61: fan speeds 1 to 3 and the two temperature units; anything else is rejected without traffic. -/
theorem set_fan_speed (info : DeviceInfo) (speed : Int) :
    (1 ≤ speed → speed ≤ 3 → Sends info 0x6b (0x12 + speed.toNat) [] (fun _ io s => Thermostat.setFanSpeed info io s speed)) ∧
    (speed < 1 ∨ 3 < speed → Refuses .invalidFanSpeed (fun _ io s => Thermostat.setFanSpeed info io s speed)) := by
  constructor
  · intro h1 h3
    interval_cases speed
    · exact sends_command info Cmd.setFanOnLow [] (by simp)
    · exact sends_command info Cmd.setFanOnMed [] (by simp)
    · exact sends_command info Cmd.setFanOnHigh [] (by simp)
  · intro h σ io s
    simp only [Thermostat.setFanSpeed]
    rw [if_neg (by omega), if_neg (by omega), if_neg (by omega)]

theorem set_temp_unit (info : DeviceInfo) (unit : Int) :
    (unit = 0 → Sends info 0x2e 0x00 [0, 4, 0, 0] (fun _ io s => Thermostat.setTempUnit info io s unit)) ∧
    (unit = 1 → Sends info 0x2e 0x00 [0, 4, 0, 8] (fun _ io s => Thermostat.setTempUnit info io s unit)) ∧
    (unit ≠ 0 → unit ≠ 1 → Refuses .invalidUnit (fun _ io s => Thermostat.setTempUnit info io s unit)) := by
  refine ⟨?_, ?_, ?_⟩
  · rintro rfl
    exact sends_command info Cmd.extendedGetSet [0#8, 4#8, 0#8, 0#8] (by simp)
  · rintro rfl
    exact sends_command info Cmd.extendedGetSet [0#8, 4#8, 0#8, 8#8] (by simp)
  · intro h0 h1 σ io s
    simp only [Thermostat.setTempUnit]
    rw [if_neg h1, if_neg h0]

/-- C61: status messages are switched on with 0x2e and data 0 8 0, and off with 0x6b 0x17. -/
theorem set_status_message (info : DeviceInfo) :
    Sends info 0x2e 0x00 [0, 8, 0] (fun _ io s => Thermostat.setStatusMessage info io s true) ∧
    Sends info 0x6b 0x17 [] (fun _ io s => Thermostat.setStatusMessage info io s false) :=
  ⟨sends_command info Cmd.extendedGetSet [0#8, 8#8, 0#8] (by simp), sends_command info Cmd.disableStatusMessage [] (by simp)⟩

/-! ### C62 -/

/-- C62, what is proved: which byte each temperature command carries. -/
theorem temperature_commands_partial (info : DeviceInfo) (zone t d : Int) :
    Sends info 0x6c (low8 (2 * t)) [] (fun _ io s => Thermostat.setCoolSetpoint info io s zone t) ∧
    Sends info 0x6d (low8 (2 * t)) [] (fun _ io s => Thermostat.setHeatSetpoint info io s zone t) ∧
    Sends info 0x69 (low8 (2 * t)) [] (fun _ io s => Thermostat.increaseTemp info io s t) ∧
    Sends info 0x68 (low8 (2 * t)) [] (fun _ io s => Thermostat.decreaseTemp info io s t) ∧
    Sends info 0x68 (low8 zone) [BitVec.ofNat 8 (low8 (2 * t))] (fun _ io s => Thermostat.increaseZoneTemp info io s zone t) ∧
    Sends info 0x69 (low8 zone) [BitVec.ofNat 8 (low8 (2 * t))] (fun _ io s => Thermostat.decreaseZoneTemp info io s zone t) ∧
    Sends info 0x6c (low8 zone) [BitVec.ofNat 8 (low8 (2 * t)), BitVec.ofNat 8 (low8 d)]
      (fun _ io s => Thermostat.setZoneCoolSetpoint info io s zone t d) ∧
    Sends info 0x6d (low8 zone) [BitVec.ofNat 8 (low8 (2 * t)), BitVec.ofNat 8 (low8 d)]
      (fun _ io s => Thermostat.setZoneHeatSetpoint info io s zone t d) := by
  have e1 : (Thermostat.twice t).setWidth 8 = BitVec.ofNat 8 (low8 (2 * t)) := by
    apply BitVec.eq_of_toNat_eq
    rw [BitVec.toNat_setWidth, BitVec.toNat_ofNat, ← twice_low8]
    omega
  have e2 : BitVec.ofInt 8 d = BitVec.ofNat 8 (low8 d) := by
    apply BitVec.eq_of_toNat_eq
    rw [BitVec.toNat_ofInt, BitVec.toNat_ofNat, low8]
    omega
  simp only [← e1, ← e2]
  exact ⟨sends_sub info _ _ [] _ _ rfl (twice_low8 t) (by simp), sends_sub info _ _ [] _ _ rfl (twice_low8 t) (by simp),
    sends_sub info _ _ [] _ _ rfl (twice_low8 t) (by simp), sends_sub info _ _ [] _ _ rfl (twice_low8 t) (by simp),
    sends_sub info _ _ _ _ _ rfl (ofInt_low8 zone) (by simp), sends_sub info _ _ _ _ _ rfl (ofInt_low8 zone) (by simp),
    sends_sub info _ _ _ _ _ rfl (ofInt_low8 zone) (by simp), sends_sub info _ _ _ _ _ rfl (ofInt_low8 zone) (by simp)⟩

/-- C62, what is proved: temperatures from 0 to 127 decode to themselves (half-degree units, as in zone
information). -/
theorem temperature_roundtrip_partial (t : Int) (h0 : 0 ≤ t) (h : t < 128) (a b c : Int) :
    (ZoneInfo.mk (low8 (2 * t)) a b c).temperature = t ∧ (ZoneInfo.mk a b (low8 (2 * t)) c).setpoint = t := by
  unfold ZoneInfo.temperature ZoneInfo.setpoint low8
  constructor <;> (dsimp only; rw [Int.tdiv_eq_ediv_of_nonneg (by omega)]; omega)

/-- C62 in full is false of the code: setting 128 degrees sends the same command as setting 0. -/
theorem temperature_roundtrip_refuted :
    ¬ ∀ (info : DeviceInfo) (zone t u : Int), t ≠ u →
      ¬ ∀ (σ : Type) (io : MsgIO σ) (s : σ), Thermostat.setCoolSetpoint info io s zone t = Thermostat.setCoolSetpoint info io s zone u := by
  intro h
  exact h ⟨5, (0, 0), 0, 0⟩ 0 128 0 (by decide) fun _ _ _ => rfl

/-! ### C63 -/

/-- C63, what is proved: four flags come from bits 0 to 3; the time format is always 0. -/
theorem thermostat_flags_partial (f : ThermostatFlags) :
    (f.linkingLock = true ↔ f.toNat % 2 = 1) ∧ (f.buttonBeep = true ↔ f.toNat / 2 % 2 = 1) ∧
    (f.buttonLock = true ↔ f.toNat / 4 % 2 = 1) ∧ f.tempFormat = (f.toNat / 8 % 2 : Nat) ∧ f.timeFormat = 0 := by
  revert f; decide +kernel

/-- C63 in full is false of the code: the time format does not depend on its bit. -/
theorem thermostat_flags_refuted : ¬ ∀ f : ThermostatFlags, f.timeFormat = (f.toNat / 16 % 2 : Nat) := by
  intro h
  exact absurd (h 0x10#8) (by decide)

/-! ### C65 -/

/-- C65: switch and dimmer configurations with byte-sized fields survive; only 14 bytes and more are accepted. -/
theorem switch_config_roundtrip (sc old : SwitchConfig) (h1 : 0 ≤ sc.houseCode ∧ sc.houseCode < 256) (h2 : 0 ≤ sc.unitCode ∧ sc.unitCode < 256) :
    sc.marshalBinary.length = 14 ∧ old.unmarshalBinary sc.marshalBinary = (sc, none) := by
  obtain ⟨a, b⟩ := sc
  refine ⟨by simp [SwitchConfig.marshalBinary], ?_⟩
  simp [SwitchConfig.marshalBinary, SwitchConfig.unmarshalBinary]
  dsimp only at h1 h2
  omega

theorem dimmer_config_roundtrip (dc old : DimmerConfig) (h1 : 0 ≤ dc.houseCode ∧ dc.houseCode < 256)
    (h2 : 0 ≤ dc.unitCode ∧ dc.unitCode < 256) (h3 : 0 ≤ dc.ramp ∧ dc.ramp < 256) (h4 : 0 ≤ dc.onLevel ∧ dc.onLevel < 256)
    (h5 : 0 ≤ dc.snt ∧ dc.snt < 256) :
    dc.marshalBinary.length = 14 ∧ old.unmarshalBinary dc.marshalBinary = (dc, none) := by
  obtain ⟨a, b, c, d, e⟩ := dc
  refine ⟨by simp [DimmerConfig.marshalBinary], ?_⟩
  simp [DimmerConfig.marshalBinary, DimmerConfig.unmarshalBinary]
  dsimp only at h1 h2 h3 h4 h5
  omega

theorem light_config_short (sc : SwitchConfig) (dc : DimmerConfig) (buf : Bytes) (h : buf.length < 14) :
    sc.unmarshalBinary buf = (sc, some .bufferTooShort) ∧ dc.unmarshalBinary buf = (dc, some .bufferTooShort) := by
  simp [SwitchConfig.unmarshalBinary, DimmerConfig.unmarshalBinary, h]

/-- What a device sent is stored field by field: bytes 4 to 8. -/
theorem config_fields (sc : SwitchConfig) (dc : DimmerConfig) (b0 b1 b2 b3 house unit ramp level snt : Byte) (rest : Bytes)
    (h : 5 ≤ rest.length) :
    sc.unmarshalBinary ([b0, b1, b2, b3, house, unit, ramp, level, snt] ++ rest) = (⟨house.toNat, unit.toNat⟩, none) ∧
    dc.unmarshalBinary ([b0, b1, b2, b3, house, unit, ramp, level, snt] ++ rest) =
      (⟨house.toNat, unit.toNat, ramp.toNat, level.toNat, snt.toNat⟩, none) := by
  have hl : ¬ ([b0, b1, b2, b3, house, unit, ramp, level, snt] ++ rest).length < 14 := by simp; omega
  simp only [SwitchConfig.unmarshalBinary, DimmerConfig.unmarshalBinary, if_neg hl]
  exact ⟨rfl, rfl⟩

example : (SwitchConfig.mk 3 200).marshalBinary = [0, 0, 0, 0, 3, 200, 0, 0, 0, 0, 0, 0, 0, 0] := by decide

/-! ### C66 -/

/-- C66, what is proved: filled up to 14 bytes, product data survives. -/
theorem product_data_roundtrip_partial (pd old : ProductData) (rest : Bytes) (h : 7 ≤ rest.length) :
    old.unmarshalBinary (pd.marshalBinary ++ rest) = (pd, none) := by
  have hl : ¬ (pd.marshalBinary ++ rest).length < 14 := by simp [ProductData.marshalBinary]; omega
  simp only [ProductData.unmarshalBinary, if_neg hl]
  rfl

/-- C66 in full is false of the code: no product data at all can be decoded from its own encoding. -/
theorem product_data_roundtrip_refuted (pd old : ProductData) :
    old.unmarshalBinary pd.marshalBinary = (old, some (.wrapped .bufferTooShort)) := by
  simp [ProductData.unmarshalBinary, ProductData.marshalBinary]

/-! ### C91: queries -/

theorem askAll_asked {σ : Type} (info : DeviceInfo) (io : MsgIO σ) (cs : List Command) (s : σ) :
    Device.askAll info io cs s = match asked io info.address cs s with
      | (s, .ok (l, e)) => (s, .ok (l.map (BitVec.ofNat 64), e))
      | (s, .err e) => (s, .err e)
      | (s, .panic) => (s, .panic) := by
  induction cs generalizing s with
  | nil => rfl
  | cons c cs ih =>
    rw [Device.askAll, Device.write, prepare_standard _ _ rfl, asked]
    show (match io.write s ⟨0, info.address, 0x0f#8, c, []⟩ with | _ => _) = _
    rcases io.write s ⟨0, info.address, 0x0f#8, c, []⟩ with ⟨s', ⟨_ | a, _ | e⟩ | _⟩ <;> try rfl
    dsimp only
    rw [ih]
    have hc : a.command.command2 = BitVec.ofNat 64 (cmd2 a) := by
      apply BitVec.eq_of_toNat_eq
      rw [(command_bytes _).2.2, BitVec.toNat_ofNat, cmd2]
      omega
    rcases asked io info.address cs s' with ⟨s'', ⟨l, e⟩ | e | _⟩ <;> simp [hc]

theorem asked_lt {σ : Type} (io : MsgIO σ) (dst : Address) (cs : List Command) (s s' : σ) (l : List Nat) (e : Option Err)
    (h : asked io dst cs s = (s', .ok (l, e))) : (∀ v ∈ l, v < 256) ∧ (e = none → l.length = cs.length) := by
  induction cs generalizing s l with
  | nil => simp only [asked, Prod.mk.injEq, Out.ok.injEq] at h; obtain ⟨-, rfl, rfl⟩ := h; simp
  | cons c cs ih =>
    rw [asked] at h
    rcases hw : io.write s ⟨0, dst, 0x0f, c, []⟩ with ⟨s1, ⟨_ | a, _ | e1⟩ | _⟩ <;> rw [hw] at h <;> dsimp only at h
    · simp at h
    · simp only [Prod.mk.injEq, Out.ok.injEq] at h; obtain ⟨-, rfl, rfl⟩ := h; simp
    · rcases ha : asked io dst cs s1 with ⟨s2, ⟨l2, e2⟩ | e2 | _⟩ <;> rw [ha] at h <;>
        simp only [Prod.mk.injEq, Out.ok.injEq, reduceCtorEq, and_false] at h
      obtain ⟨rfl, rfl, rfl⟩ := h
      obtain ⟨i1, i2⟩ := ih s1 l2 ha
      refine ⟨?_, fun he => by simp [i2 he]⟩
      intro v hv
      rcases List.mem_cons.mp hv with rfl | hv
      · unfold cmd2; omega
      · exact i1 v hv
    · simp only [Prod.mk.injEq, Out.ok.injEq] at h; obtain ⟨-, rfl, rfl⟩ := h; simp
    · simp at h

/-- C91: the operating flags of a switch are the answers to the five questions 0x1f with 0x01, 0x02, 0x04, 0x10, 0x20,
asked in this order up to the first error, which is reported; flags not answered are zero. -/
theorem operating_flags_queries {σ : Type} (info : DeviceInfo) (io : MsgIO σ) (s : σ) :
    Switch.operatingFlags info io s =
      match asked io info.address [0x1f01, 0x1f02, 0x1f04, 0x1f10, 0x1f20] s with
      | (s, .ok (l, e)) => (s, .ok (⟨BitVec.ofNat 8 (l.getD 0 0), BitVec.ofNat 8 (l.getD 1 0), BitVec.ofNat 8 (l.getD 2 0),
          BitVec.ofNat 8 (l.getD 3 0), BitVec.ofNat 8 (l.getD 4 0)⟩, e))
      | (s, .err e) => (s, .err e)
      | (s, .panic) => (s, .panic) := by
  unfold Switch.operatingFlags
  rw [askAll_asked]
  rw [show [Cmd.getOperatingFlags.subCommand 0x01#64, Cmd.getOperatingFlags.subCommand 0x02#64,
      Cmd.getOperatingFlags.subCommand 0x04#64, Cmd.getOperatingFlags.subCommand 0x10#64,
      Cmd.getOperatingFlags.subCommand 0x20#64] = ([0x1f01, 0x1f02, 0x1f04, 0x1f10, 0x1f20] : List Command) from by decide]
  rcases asked io info.address [0x1f01, 0x1f02, 0x1f04, 0x1f10, 0x1f20] s with ⟨s', ⟨l, e⟩ | e | _⟩ <;> try rfl
  dsimp only
  have hb : ∀ i, ((l.map (BitVec.ofNat 64)).getD i 0).setWidth 8 = BitVec.ofNat 8 (l.getD i 0) := by
    intro i
    apply BitVec.eq_of_toNat_eq
    rw [List.getD_eq_getElem?_getD, List.getD_eq_getElem?_getD, List.getElem?_map]
    rcases l[i]? with _ | v
    · rfl
    · simp
  simp only [hb]

/-- C91: zone information is the answers to the four questions 0x6a with the zone (0 to 15, higher bits are ignored)
in the low nibble and 0 to 3 in the high one. -/
theorem zone_info_queries {σ : Type} (info : DeviceInfo) (io : MsgIO σ) (s : σ) (zone : Int) :
    Thermostat.getZoneInfo info io s zone =
      match asked io info.address ([0, 1, 2, 3].map fun k => BitVec.ofNat 64 (0x6a00 + 16 * k + low8 zone % 16)) s with
      | (s, .ok (l, e)) => (s, .ok (⟨l.getD 0 0, l.getD 1 0, l.getD 2 0, l.getD 3 0⟩, e))
      | (s, .err e) => (s, .err e)
      | (s, .panic) => (s, .panic) := by
  unfold Thermostat.getZoneInfo
  have hz : (BitVec.ofInt 64 zone &&& 0x0f#64) = BitVec.ofNat 64 (low8 zone % 16) := by
    apply BitVec.eq_of_toNat_eq
    rw [BitVec.toNat_and, show (0x0f#64).toNat = 2 ^ 4 - 1 from rfl, Nat.and_two_pow_sub_one_eq_mod, BitVec.toNat_ofNat, ← ofInt_low8]
    omega
  have hlt : low8 zone % 16 < 16 := Nat.mod_lt _ (by decide)
  have hcs : [Cmd.getZoneInfo.subCommand (BitVec.ofInt 64 zone &&& 0x0f#64),
      Cmd.getZoneInfo.subCommand (0x10#64 ||| (BitVec.ofInt 64 zone &&& 0x0f#64)),
      Cmd.getZoneInfo.subCommand (0x20#64 ||| (BitVec.ofInt 64 zone &&& 0x0f#64)),
      Cmd.getZoneInfo.subCommand (0x30#64 ||| (BitVec.ofInt 64 zone &&& 0x0f#64))] =
      [0, 1, 2, 3].map fun k => BitVec.ofNat 64 (0x6a00 + 16 * k + low8 zone % 16) := by
    rw [hz]
    generalize low8 zone % 16 = z at hlt
    revert hlt
    revert z
    decide +kernel
  dsimp only
  rw [askAll_asked, hcs]
  have hl := asked_lt io info.address ([0, 1, 2, 3].map fun k => BitVec.ofNat 64 (0x6a00 + 16 * k + low8 zone % 16)) s
  rcases hx : asked io info.address ([0, 1, 2, 3].map fun k => BitVec.ofNat 64 (0x6a00 + 16 * k + low8 zone % 16)) s with
    ⟨s', ⟨l, e⟩ | e | _⟩ <;> try rfl
  dsimp only
  obtain ⟨hlt, -⟩ := hl _ _ _ hx
  have hb : ∀ i, ((l.map (BitVec.ofNat 64)).getD i 0).toInt = (l.getD i 0 : Nat) := by
    intro i
    rw [List.getD_eq_getElem?_getD, List.getD_eq_getElem?_getD, List.getElem?_map]
    rcases hv : l[i]? with _ | v
    · rfl
    · have := hlt v (List.mem_of_getElem? hv)
      simp only [Option.map_some, Option.getD_some]
      rw [BitVec.toInt_eq_toNat_of_lt (by rw [BitVec.toNat_ofNat]; omega), BitVec.toNat_ofNat]
      omega
  simp only [hb]

end Insteon
