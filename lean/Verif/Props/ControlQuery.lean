import Verif.Props.Control
import Verif.Props.DeviceLinks
import Verif.Lemmas.Float

/-
Properties C91 - C95: questions to switches, dimmers and thermostats.
-/

namespace Insteon
open Spec

theorem ask_asked {σ : Type} (info : DeviceInfo) (io : MsgIO σ) (s : σ) (c : Command) :
    Thermostat.ask info io s c = match asked io info.address [c] s with
      | (s, .ok (l, e)) => (s, .ok (BitVec.ofNat 64 (l.getD 0 0), e))
      | (s, .err e) => (s, .err e)
      | (s, .panic) => (s, .panic) := by
  unfold Thermostat.ask Device.send Device.write
  rw [prepare_standard _ _ rfl]
  simp only [asked]
  rcases hw : io.write s ⟨0, info.address, 0x0f#8, c, []⟩ with ⟨s', ⟨_ | a, _ | e⟩ | _⟩ <;> try rfl
  dsimp only
  have hc : a.command.command2 = BitVec.ofNat 64 (cmd2 a) := by
    apply BitVec.eq_of_toNat_eq
    rw [(command_bytes _).2.2, BitVec.toNat_ofNat, cmd2]
    omega
  simp [hc]

/-- The value of a single answer, 0 if there is none. -/
def Spec.single {σ α : Type} (f : Nat → α) : σ × Out (List Nat × Option Err) → σ × Out (α × Option Err)
  | (s, .ok (l, e)) => (s, .ok (f (l.getD 0 0), e))
  | (s, .err e) => (s, .err e)
  | (s, .panic) => (s, .panic)

/-- C91: light status, thermostat mode, ambient temperature, equipment state and fan speed are the second command byte of
the answer to 0x19 00, 0x6b 02, 0x6b 03, 0x6b 0d and 0x6b 12; an error is reported with the value 0. -/
theorem single_queries {σ : Type} (info : DeviceInfo) (io : MsgIO σ) (s : σ) :
    Switch.status info io s = single (BitVec.ofNat 64) (asked io info.address [0x1900] s) ∧
    Thermostat.getMode info io s = single (BitVec.ofNat 8) (asked io info.address [0x6b02] s) ∧
    Thermostat.getAmbientTemp info io s = single (BitVec.ofNat 64) (asked io info.address [0x6b03] s) ∧
    Thermostat.getEquipmentState info io s = single (BitVec.ofNat 8) (asked io info.address [0x6b0d] s) ∧
    Thermostat.getFanSpeed info io s = single (BitVec.ofNat 64) (asked io info.address [0x6b12] s) := by
  have h8 : ∀ n : Nat, (BitVec.ofNat 64 n).setWidth 8 = BitVec.ofNat 8 n := by
    intro n
    apply BitVec.eq_of_toNat_eq
    simp
  have hst : Switch.status info io s = Thermostat.ask info io s Cmd.lightStatusRequest := by
    unfold Switch.status Thermostat.ask Device.send
    rcases Device.write info io s ⟨0, 0, 0, Cmd.lightStatusRequest, []⟩ with ⟨s', ⟨_ | a, _ | e⟩ | _⟩ <;> rfl
  refine ⟨?_, ?_, ?_, ?_, ?_⟩
  · rw [hst, ask_asked]; rfl
  · unfold Thermostat.getMode
    rw [ask_asked]
    rw [show Cmd.getThermostatMode = (0x6b02 : Command) from rfl]
    rcases asked io info.address [0x6b02] s with ⟨s', ⟨l, e⟩ | e | _⟩ <;> simp [single, h8]
  · unfold Thermostat.getAmbientTemp
    rw [ask_asked]; rfl
  · unfold Thermostat.getEquipmentState
    rw [ask_asked]
    rw [show Cmd.getEquipmentState = (0x6b0d : Command) from rfl]
    rcases asked io info.address [0x6b0d] s with ⟨s', ⟨l, e⟩ | e | _⟩ <;> simp [single, h8]
  · unfold Thermostat.getFanSpeed
    rw [ask_asked]; rfl

/-- Asking for the mode after setting it: a thermostat that stores the mode and answers with it. -/
example : (Thermostat.getMode dev5 (wireIO fun m => .ret (some ⟨m.dst, 0, 0x2f, 0x6b03, []⟩) none) ⟨[], []⟩).2 = .ok (3, none) := by
  decide

/-! ### C92: answers that are messages of their own -/

theorem query_wire (info : DeviceInfo) (answer : Message → MRes) (inbox sent : List Message) (fuel : Nat) (request expected : Command)
    (payload : Bytes) (a : Option Message) (hans : answer (Device.prepare info ⟨0, 0, 0, request, payload⟩) = .ret a none)
    (hfuel : inbox.length < fuel) :
    Device.query info (wireIO answer) fuel ⟨inbox, sent⟩ request payload expected =
      some (match inbox.dropWhile (fun m => !Matcher.cmd expected m) with
        | [] => (⟨[], sent ++ [Device.prepare info ⟨0, 0, 0, request, payload⟩]⟩, .ok (.error .eof))
        | m :: rest => (⟨rest, sent ++ [Device.prepare info ⟨0, 0, 0, request, payload⟩]⟩, .ok (.ok m.payload))) := by
  unfold Device.query Device.write
  rw [show (wireIO answer).write ⟨inbox, sent⟩ (Device.prepare info ⟨0, 0, 0, request, payload⟩) =
    (⟨inbox, sent ++ [Device.prepare info ⟨0, 0, 0, request, payload⟩]⟩, .ret a none) by rw [← hans]; rfl]
  dsimp only
  rw [devRead_wire _ _ _ _ _ _ hfuel]
  rcases inbox.dropWhile (fun m => !Matcher.cmd expected m) with _ | ⟨m, rest⟩ <;> rfl

theorem dropWhile_first {α : Type} (f : α → Bool) (l : List α) (m : α) (rest : List α) (h : l.dropWhile (fun x => !f x) = m :: rest) :
    m ∈ l ∧ f m = true := by
  induction l with
  | nil => simp at h
  | cons x xs ih =>
    rw [List.dropWhile_cons] at h
    split_ifs at h with hx
    · obtain ⟨h1, h2⟩ := ih h
      exact ⟨by simp [h1], h2⟩
    · simp only [List.cons.injEq] at h
      obtain ⟨rfl, -⟩ := h
      exact ⟨by simp, by simpa using hx⟩

/-- C92, what is proved: the configuration a switch or dimmer reports, and product data, are decoded from a received
message with the expected command; so if only this device sends such messages they are its own. -/
theorem config_source_partial (info : DeviceInfo) (answer : Message → MRes) (inbox sent : List Message) (fuel : Nat) (w : Wire)
    (hfuel : inbox.length < fuel) (honly : ∀ m ∈ inbox, cmd1 m = 0x2e ∨ cmd1 m = 0x03 → m.src = info.address) :
    (∀ cfg, Switch.config info (wireIO answer) fuel ⟨inbox, sent⟩ = some (w, .ok (cfg, none)) →
      ∃ m ∈ inbox, m.src = info.address ∧ cmd1 m = 0x2e ∧ 14 ≤ m.payload.length ∧
        cfg = ⟨(m.payload.getD 4 0).toNat, (m.payload.getD 5 0).toNat⟩) ∧
    (∀ cfg, Dimmer.config info (wireIO answer) fuel ⟨inbox, sent⟩ = some (w, .ok (cfg, none)) →
      ∃ m ∈ inbox, m.src = info.address ∧ cmd1 m = 0x2e ∧ 14 ≤ m.payload.length ∧
        cfg = ⟨(m.payload.getD 4 0).toNat, (m.payload.getD 5 0).toNat, (m.payload.getD 6 0).toNat, (m.payload.getD 7 0).toNat,
          (m.payload.getD 8 0).toNat⟩) ∧
    (∀ pd, Device.productData info (wireIO answer) fuel ⟨inbox, sent⟩ = some (w, .ok (some pd, none)) →
      ∃ m ∈ inbox, m.src = info.address ∧ cmd1 m = 0x03 ∧ 14 ≤ m.payload.length ∧
        pd = ⟨(m.payload.getD 1 0, m.payload.getD 2 0, m.payload.getD 3 0), (m.payload.getD 4 0, m.payload.getD 5 0)⟩) := by
  have key : ∀ (request expected : Command) (payload p : Bytes) (s' : Wire),
      Device.query info (wireIO answer) fuel ⟨inbox, sent⟩ request payload expected = some (s', .ok (.ok p)) →
      ∃ m ∈ inbox, cmd1 m = expected.toNat / 256 % 256 ∧ m.payload = p := by
    intro request expected payload p s' h
    rcases ha : answer (Device.prepare info ⟨0, 0, 0, request, payload⟩) with ⟨a, _ | e⟩ | _
    · rw [query_wire _ _ _ _ _ _ _ _ _ ha hfuel] at h
      rcases hd : inbox.dropWhile (fun m => !Matcher.cmd expected m) with _ | ⟨m, rest⟩ <;> rw [hd] at h <;>
        simp only [Option.some.injEq, Prod.mk.injEq, Out.ok.injEq, Except.ok.injEq, reduceCtorEq, and_false] at h
      obtain ⟨h1, h2⟩ := dropWhile_first _ _ _ _ hd
      rw [cmdMatcher_iff] at h2
      exact ⟨m, h1, h2.symm, h.2⟩
    · simp only [Device.query, Device.write, wireIO, ha, Option.some.injEq, Prod.mk.injEq, Out.ok.injEq, reduceCtorEq, and_false] at h
    · simp only [Device.query, Device.write, wireIO, ha, Option.some.injEq, Prod.mk.injEq, reduceCtorEq, and_false] at h
  refine ⟨?_, ?_, ?_⟩
  · intro cfg h
    unfold Switch.config at h
    rcases hq : Device.query info (wireIO answer) fuel ⟨inbox, sent⟩ Cmd.extendedGetSet [0x01#8, 0x00#8] Cmd.extendedGetSet with
      _ | ⟨s', (e | p) | e | _⟩ <;> rw [hq] at h <;>
      simp only [reduceCtorEq, Option.some.injEq, Prod.mk.injEq, Out.ok.injEq, and_false] at h
    obtain ⟨m, hm, hc, hp⟩ := key _ _ _ _ _ hq
    rw [show Cmd.extendedGetSet.toNat / 256 % 256 = 0x2e from by decide] at hc
    obtain ⟨-, h⟩ := h
    unfold SwitchConfig.unmarshalBinary at h
    split_ifs at h with hl
    · simp at h
    · simp only [Prod.mk.injEq, and_true] at h
      exact ⟨m, hm, honly m hm (Or.inl hc), hc, by rw [hp]; omega, by rw [hp]; exact h.symm⟩
  · intro cfg h
    unfold Dimmer.config at h
    rcases hq : Device.query info (wireIO answer) fuel ⟨inbox, sent⟩ Cmd.extendedGetSet [0x01#8, 0x00#8] Cmd.extendedGetSet with
      _ | ⟨s', (e | p) | e | _⟩ <;> rw [hq] at h <;>
      simp only [reduceCtorEq, Option.some.injEq, Prod.mk.injEq, Out.ok.injEq, and_false] at h
    obtain ⟨m, hm, hc, hp⟩ := key _ _ _ _ _ hq
    rw [show Cmd.extendedGetSet.toNat / 256 % 256 = 0x2e from by decide] at hc
    obtain ⟨-, h⟩ := h
    unfold DimmerConfig.unmarshalBinary at h
    split_ifs at h with hl
    · simp at h
    · simp only [Prod.mk.injEq, and_true] at h
      exact ⟨m, hm, honly m hm (Or.inl hc), hc, by rw [hp]; omega, by rw [hp]; exact h.symm⟩
  · intro pd h
    unfold Device.productData at h
    rcases hq : Device.query info (wireIO answer) fuel ⟨inbox, sent⟩ Cmd.productDataReq [] Cmd.productDataResp with
      _ | ⟨s', (e | p) | e | _⟩ <;> rw [hq] at h <;>
      simp only [reduceCtorEq, Option.some.injEq, Prod.mk.injEq, Out.ok.injEq, and_false] at h
    obtain ⟨m, hm, hc, hp⟩ := key _ _ _ _ _ hq
    rw [show Cmd.productDataResp.toNat / 256 % 256 = 0x03 from by decide] at hc
    obtain ⟨-, h1, h2⟩ := h
    unfold ProductData.unmarshalBinary at h1 h2
    split_ifs at h1 h2 with hl
    · exact ⟨m, hm, honly m hm (Or.inr hc), hc, by rw [hp]; omega, by rw [hp]; exact h1.symm⟩

/-- A switch that sends its configuration after some unrelated message. -/
example : Switch.config dev5 (wireIO acks) 3
    ⟨[⟨9, 0, 0x0f, 0x001100, []⟩, ⟨5, 0, 0x1f, 0x012e00, [0, 0, 0, 0, 7, 8, 0, 0, 0, 0, 0, 0, 0, 0]⟩], []⟩ =
    some (⟨[], [⟨0, 5, 0x1a, 0x012e00, [1, 0]⟩]⟩, .ok (⟨7, 8⟩, none)) := by rfl

/-- C92 in full is false of the code: the configuration of device 7 is reported for device 5. -/
theorem config_source_refuted :
    ¬ ∀ (info : DeviceInfo) (inbox : List Message) (fuel : Nat) (w : Wire) (cfg : SwitchConfig),
      Switch.config info (wireIO acks) fuel ⟨inbox, []⟩ = some (w, .ok (cfg, none)) → ∃ m ∈ inbox, m.src = info.address := by
  intro h
  obtain ⟨m, hm, hs⟩ := h dev5 [⟨7, 0, 0x1f, 0x012e00, [0, 0, 0, 0, 7, 8, 0, 0, 0, 0, 0, 0, 0, 0]⟩] 3 _ _ (by rfl)
  simp only [List.mem_cons, List.not_mem_nil, or_false] at hm
  subst hm
  exact absurd hs (by decide)

/-! ### C93: thermostat information -/

/-- C93: data set 0 carries temperature (tenths of a degree Celsius, high byte last, converted if the flags say
Fahrenheit, and exact to 1/500 of a degree), humidity, offsets, mode, fan mode, backlight, hysteresis and flags; data set 1 carries the
others. Each set leaves the fields of the other one alone, except the revision, which both set. -/
theorem thermostat_info_decode (ti : ThermostatInfo)
    (x0 x1 b3 b4 b5 b6 b7 b8 b9 b10 b11 b12 b13 : Byte) (rest : Bytes) :
    (∃ temp : Rat,
      ti.unmarshalBinary ([x0, x1, 0, b3, b4, b5, b6, b7, b8, b9, b10, b11, b12, b13] ++ rest) =
        ({ ti with
            temp := temp,
            humidity := b4.toNat, tempOffset := b5.toNat, humidityOffset := b6.toNat, mode := b7, fanMode := b8.toNat,
            backlightSeconds := b9.toNat, hysteresisMinutes := b10.toNat, flags := b12, rev := b13.toNat }, none) ∧
      |temp - (let celsius : Rat := ((b13.toNat * 256 + b3.toNat : Nat) : Rat) / 10
        if b12.toNat / 8 % 2 = 1 then celsius else celsius * 9 / 5 + 32)| < 1 / 500) ∧
    ti.unmarshalBinary ([x0, x1, 1, b3, b4, b5, b6, b7, b8, b9, b10, b11, b12, b13] ++ rest) =
      ({ ti with
          humidityHigh := b3.toNat, humidityLow := b4.toNat, rev := b5.toNat, coolSetPoint := b6.toNat, heatSetPoint := b7.toNat,
          rfOffset := b8.toNat, energySetbackPoint := b9.toNat, externalTempOffset := b10.toNat,
          statusReportEnabled := decide (b11.toNat = 1), externalPower := decide (b12.toNat = 1),
          externalTemp := decide (b13.toNat = 2) }, none) := by
  have hl : ∀ d, ¬ ([x0, x1, d, b3, b4, b5, b6, b7, b8, b9, b10, b11, b12, b13] ++ rest).length < 14 := by intro d; simp
  have hb : ∀ (b : Byte) (n : Nat), n < 256 → (b == BitVec.ofNat 8 n) = decide (b.toNat = n) := by
    intro b n hn
    rw [Bool.eq_iff_iff, beq_iff_eq, decide_eq_true_iff, ← BitVec.toNat_inj, BitVec.toNat_ofNat, Nat.mod_eq_of_lt hn]
  constructor
  · have ht := (thermostat_flags_partial b12).2.2.2.1
    have hlt : b13.toNat * 256 + b3.toNat < 65536 := by
      have := b13.isLt
      have := b3.isLt
      omega
    have hcast : ((((b13.toNat : Int) * 256 + (b3.toNat : Int) : Int)) : Rat) = ((b13.toNat * 256 + b3.toNat : Nat) : Rat) := by push_cast; rfl
    unfold ThermostatInfo.unmarshalBinary
    rw [if_neg (hl 0)]
    simp only [List.cons_append, List.nil_append, List.getD_cons_succ, List.getD_cons_zero]
    rw [if_pos (show (0 : Byte) = 0x00#8 from rfl)]
    simp only [ht, hcast]
    by_cases h8 : b12.toNat / 8 % 2 = 1
    · rw [if_neg (by omega), if_pos h8]
      refine ⟨_, rfl, lt_of_le_of_lt (celsius_near _ hlt) (by norm_num)⟩
    · rw [if_pos (by omega), if_neg h8]
      exact ⟨_, rfl, fahrenheit_near _ hlt⟩
  · unfold ThermostatInfo.unmarshalBinary
    rw [if_neg (hl 1)]
    simp only [List.cons_append, List.nil_append, List.getD_cons_succ, List.getD_cons_zero]
    rw [if_neg (show ¬ (1 : Byte) = 0x00#8 by decide), if_pos (show (1 : Byte) = 0x01#8 from rfl)]
    rw [hb b11 1 (by omega), hb b12 1 (by omega), hb b13 2 (by omega)]

/-- The temperature of 22.0 degrees Celsius in Fahrenheit. -/
example : (ThermostatInfo.zero.unmarshalBinary [0, 0, 0, 0xdc, 40, 0, 0, 1, 0, 30, 2, 0, 0, 0]).1.temp = 9384755 / 131072 := by decide +kernel

/-- C93: fewer than 14 bytes or another data set number are rejected, and nothing is changed. -/
theorem thermostat_info_rejects (ti : ThermostatInfo) (data : Bytes) (h : data.length < 14 ∨ 1 < (data.getD 2 0).toNat) :
    ∃ e, ti.unmarshalBinary data = (ti, some e) := by
  unfold ThermostatInfo.unmarshalBinary
  by_cases hl : data.length < 14
  · rw [if_pos hl]
    exact ⟨_, rfl⟩
  · have h := h.resolve_left hl
    rw [if_neg hl]
    have hd : ∀ b : Byte, b.toNat ≤ 1 → ¬ data.getD 2 0 = b := by
      rintro b hb rfl
      omega
    rw [if_neg (hd _ (by decide)), if_neg (hd _ (by decide))]
    exact ⟨_, rfl⟩

/-! ### C94: raising the temperature -/

/-- C94 is false of the code: raising the temperature of the thermostat and raising that of a zone use different first
command bytes, and each one is what the other lowers it with. -/
theorem temperature_direction_refuted (info : DeviceInfo) (zone t : Int) :
    ¬ ∃ up, (∃ c p, Sends info up c p (fun _ io s => Thermostat.increaseTemp info io s t)) ∧
      (∃ c p, Sends info up c p (fun _ io s => Thermostat.increaseZoneTemp info io s zone t)) := by
  rintro ⟨up, ⟨c, p, h1⟩, ⟨c', p', h2⟩⟩
  obtain ⟨-, -, k1, -, k2, -⟩ := temperature_commands_partial info zone t 0
  have key : ∀ (c1 c2 d1 d2 : Nat) (p q : Bytes) (act : ∀ σ : Type, MsgIO σ → σ → σ × Out (Option Err)),
      Sends info c1 c2 p act → Sends info d1 d2 q act → c1 = d1 := by
    intro c1 c2 d1 d2 p q act g1 g2
    obtain ⟨m, e1, -, r1, -⟩ := g1 _ (wireIO acks) ⟨[], []⟩
    obtain ⟨n, e2, -, r2, -⟩ := g2 _ (wireIO acks) ⟨[], []⟩
    rw [e1] at e2
    have : ([m] : List Message) = [n] := congrArg (fun r => r.1.sent) e2
    rw [← r1, ← r2, List.singleton_inj.mp this]
  have e1 := key _ _ _ _ _ _ _ h1 k1
  have e2 := key _ _ _ _ _ _ _ h2 k2
  omega

/-! ### C95: setpoints of zones -/

/-- C95 is false of the code: the zone given to `SetCoolSetpoint` or `SetHeatSetpoint` is ignored. -/
theorem setpoint_zone_refuted {σ : Type} (info : DeviceInfo) (io : MsgIO σ) (s : σ) (zone zone' t : Int) :
    Thermostat.setCoolSetpoint info io s zone t = Thermostat.setCoolSetpoint info io s zone' t ∧
    Thermostat.setHeatSetpoint info io s zone t = Thermostat.setHeatSetpoint info io s zone' t := ⟨rfl, rfl⟩

/-- C95, what is proved: the zone commands carry the zone, so different zones below 256 get different commands. -/
theorem setpoint_zone_partial (info : DeviceInfo) (zone t d : Int) (h0 : 0 ≤ zone) (h : zone < 256) :
    ∃ (b : Nat) (p q : List (BitVec 8)), (b : Int) = zone ∧
      Sends info 0x6c b p (fun _ io s => Thermostat.setZoneCoolSetpoint info io s zone t d) ∧
      Sends info 0x6d b q (fun _ io s => Thermostat.setZoneHeatSetpoint info io s zone t d) := by
  obtain ⟨-, -, -, -, -, -, k1, k2⟩ := temperature_commands_partial info zone t d
  exact ⟨low8 zone, _, _, low8_of_lt zone h0 h, k1, k2⟩

end Insteon
