import Verif.Props.Show
import Verif.Props.Thermostat

/-
Property C188: the temperature shown is the temperature measured.
-/

namespace Insteon
open Spec

/-- The unit, as it is shown. -/
def Spec.unitText (celsius : Bool) : List (BitVec 8) := [0xc2#8, 0xb0#8] ++ ascii (if celsius then "C" else "F")

/-- The exact temperature in the unit, of one measured in tenths of a degree Celsius. -/
def Spec.exactTemperature (celsius : Bool) (tenths : Nat) : Rat := if celsius then (tenths : Rat) / 10 else (tenths : Rat) / 10 * 9 / 5 + 32

/-- `nearestTenths` is what it says: less than half a tenth away from the exact temperature. -/
theorem nearest_tenths (celsius : Bool) (tenths : Nat) :
    |((nearestTenths celsius tenths : Nat) : Rat) / 10 - exactTemperature celsius tenths| ≤ 1 / 25 := by
  unfold nearestTenths exactTemperature
  cases celsius
  · simp only [Bool.false_eq_true, if_false]
    obtain ⟨k, hk⟩ : ∃ k, (tenths * 18 + 3200 + 5) / 10 = k := ⟨_, rfl⟩
    rw [hk]
    have h1 : k * 10 ≤ tenths * 18 + 3204 := by omega
    have h2 : tenths * 18 + 3196 ≤ k * 10 := by omega
    have h1' : (k : Rat) * 10 ≤ tenths * 18 + 3204 := by exact_mod_cast h1
    have h2' : (tenths : Rat) * 18 + 3196 ≤ k * 10 := by exact_mod_cast h2
    rw [abs_le]
    constructor <;> linarith
  · simp

theorem tenths_lt (a b : Byte) : a.toNat * 256 + b.toNat < 65536 := by
  have := a.isLt
  have := b.isLt
  omega

theorem decoded_temp (ti : ThermostatInfo) (data : Bytes) (h : 14 ≤ data.length) (h2 : data.getD 2 0 = 0) :
    ∃ temp : Rat, (ti.unmarshalBinary data).1.temp = temp ∧ (ti.unmarshalBinary data).1.flags = data.getD 12 0 ∧
      |temp - exactTemperature (decide (bit 3 (data.getD 12 0))) ((data.getD 13 0).toNat * 256 + (data.getD 3 0).toNat)| < 1 / 500 := by
  obtain ⟨a0, a1, a2, a3, a4, a5, a6, a7, a8, a9, a10, a11, a12, a13, ar, rfl⟩ : ∃ a0 a1 a2 a3 a4 a5 a6 a7 a8 a9 a10 a11 a12 a13 : Byte,
      ∃ ar, data = [a0, a1, a2, a3, a4, a5, a6, a7, a8, a9, a10, a11, a12, a13] ++ ar := by
    rcases data with _ | ⟨a0, _ | ⟨a1, _ | ⟨a2, _ | ⟨a3, _ | ⟨a4, _ | ⟨a5, _ | ⟨a6, _ | ⟨a7, _ | ⟨a8, _ | ⟨a9, _ | ⟨a10, _ | ⟨a11, _ | ⟨a12, _ | ⟨a13, ar⟩⟩⟩⟩⟩⟩⟩⟩⟩⟩⟩⟩⟩⟩
    all_goals first
      | (simp at h; done)
      | exact ⟨_, _, _, _, _, _, _, _, _, _, _, _, _, _, _, rfl⟩
  obtain rfl : a2 = 0 := h2
  obtain ⟨temp, he, hnear⟩ := (thermostat_info_decode ti a0 a1 a3 a4 a5 a6 a7 a8 a9 a10 a11 a12 a13 ar).1
  refine ⟨temp, by rw [he], by rw [he]; rfl, ?_⟩
  simp only [List.cons_append, List.getD_cons_succ, List.getD_cons_zero]
  unfold exactTemperature
  simp only [decide_eq_true_eq]
  exact hnear

theorem shown_of_near (celsius : Bool) (n : Nat) (hn : n < 65536) (temp : Rat) (h : |temp - exactTemperature celsius n| < 1 / 500) :
    ∃ whole, fixed1 temp = whole ++ ascii "." ++ [BitVec.ofNat 8 (48 + nearestTenths celsius n % 10)] ∧
      IntegerText whole (nearestTenths celsius n / 10 : Nat) := by
  have h1 := nearest_tenths celsius n
  have hb : nearestTenths celsius n < 10 ^ 20 := by
    unfold nearestTenths
    split_ifs <;> omega
  generalize nearestTenths celsius n = t at *
  rw [fixed1_text temp t (by
    rw [abs_lt] at h
    rw [abs_le] at h1
    rw [abs_lt]
    constructor <;> linarith [h.1, h.2, h1.1, h1.2])]
  refine ⟨Json.intText (t / 10 : Nat), ?_, intText_spec _ (by omega)⟩
  have hd : ∀ d : Fin 10, Json.intText ((d.val : Nat) : Int) = [BitVec.ofNat 8 (48 + d.val)] := by decide
  rw [hd ⟨t % 10, Nat.mod_lt _ (by omega)⟩]
  rfl

/-- C188: whatever was decoded before, the first line shown after decoding data set 0 is the number of tenths of a degree nearest to the temperature
measured, in the unit of the thermostat's flags. The nearest one is less than half a tenth away, so it is unique. -/
theorem temperature_shown (ti : ThermostatInfo) (data : List (BitVec 8)) (h : 14 ≤ data.length) (h2 : data.getD 2 0 = 0) :
    let tenths := (data.getD 13 0).toNat * 256 + (data.getD 3 0).toNat
    let celsius := decide (bit 3 (data.getD 12 0))
    ∃ whole rest, thermostatInfoString (ti.unmarshalBinary data).1 =
        ascii "                Temp: " ++ whole ++ ascii "." ++ [BitVec.ofNat 8 (48 + nearestTenths celsius tenths % 10)] ++ ascii " "
          ++ unitText celsius ++ [0x0a#8] ++ rest ∧
      IntegerText whole (nearestTenths celsius tenths / 10 : Nat) ∧
      |((nearestTenths celsius tenths : Nat) : Rat) / 10 - exactTemperature celsius tenths| < 1 / 20 := by
  intro tenths celsius
  obtain ⟨temp, ht, hf, hnear⟩ := decoded_temp ti data h h2
  have hlt : tenths < 65536 := tenths_lt (data.getD 13 0) (data.getD 3 0)
  obtain ⟨whole, hw, hi⟩ := shown_of_near celsius tenths hlt temp hnear
  have hu : unitString (ThermostatFlags.tempFormat (data.getD 12 0)) = unitText celsius := by
    simp only [celsius]
    generalize data.getD 12 0 = b
    revert b
    decide +kernel
  refine ⟨whole, unlines ((thermostatInfoLines (ti.unmarshalBinary data).1).drop 1), ?_, hi, lt_of_le_of_lt (nearest_tenths _ _) (by norm_num)⟩
  unfold thermostatInfoString
  rw [show thermostatInfoLines (ti.unmarshalBinary data).1 = _ :: (thermostatInfoLines (ti.unmarshalBinary data).1).drop 1 from rfl, unlines, ht, hf, hu,
    hw, List.drop_succ_cons, List.drop_zero]
  simp only [List.append_assoc]
  rfl

theorem shown_inj (c : Bool) (x y : Nat) (hx : x < 65536) (hy : y < 65536) (ta tb : Rat) (na : |ta - exactTemperature c x| < 1 / 500)
    (nb : |tb - exactTemperature c y| < 1 / 500) (ht : fixed1 ta = fixed1 tb) : x = y := by
  obtain ⟨wa, ea, ia⟩ := shown_of_near c _ hx ta na
  obtain ⟨wb, eb, ib⟩ := shown_of_near c _ hy tb nb
  rw [ea, eb] at ht
  obtain ⟨h1, h2⟩ := List.append_inj' ht (by simp)
  have hw := List.append_cancel_right h1
  rw [hw] at ia
  have hq := integerText_fun ia ib
  have hd : ∀ p q : Fin 10, [BitVec.ofNat 8 (48 + p.val)] = [BitVec.ofNat 8 (48 + q.val)] → p.val = q.val := by decide
  have hm := hd ⟨nearestTenths c x % 10, Nat.mod_lt _ (by omega)⟩ ⟨nearestTenths c y % 10, Nat.mod_lt _ (by omega)⟩ h2
  dsimp only at hm
  have : nearestTenths c x = nearestTenths c y := by omega
  unfold nearestTenths at this
  split_ifs at this <;> omega

theorem unit_of_format (x y : Byte) (hu : ThermostatFlags.tempFormat x = ThermostatFlags.tempFormat y) :
    decide (bit 3 x) = decide (bit 3 y) := by
  have key : ∀ x : Byte, ThermostatFlags.tempFormat x = if bit 3 x then 1 else 0 := by decide +kernel
  rw [key, key] at hu
  by_cases p : bit 3 x <;> by_cases q : bit 3 y
  · rw [decide_eq_true p, decide_eq_true q]
  · rw [if_pos p, if_neg q] at hu
    exact absurd hu (by decide)
  · rw [if_neg p, if_pos q] at hu
    exact absurd hu (by decide)
  · rw [decide_eq_false p, decide_eq_false q]

/-- C188: two thermostats whose informations are shown alike measured the same temperature, to the tenth of a degree Celsius. -/
theorem temperature_distinct (a b : ThermostatInfo) (da db : List (BitVec 8)) (ha : 14 ≤ da.length) (hb : 14 ≤ db.length)
    (ha2 : da.getD 2 0 = 0) (hb2 : db.getD 2 0 = 0) (fa : IntsFit (a.unmarshalBinary da).1) (fb : IntsFit (b.unmarshalBinary db).1)
    (h : thermostatInfoString (a.unmarshalBinary da).1 = thermostatInfoString (b.unmarshalBinary db).1) :
    (da.getD 13 0).toNat * 256 + (da.getD 3 0).toNat = (db.getD 13 0).toNat * 256 + (db.getD 3 0).toNat := by
  obtain ⟨-, hu, ht⟩ := thermostat_info_shown _ _ fa fb h
  obtain ⟨ta, hta, hfa, na⟩ := decoded_temp a da ha ha2
  obtain ⟨tb, htb, hfb, nb⟩ := decoded_temp b db hb hb2
  rw [hfa, hfb] at hu
  have hc := unit_of_format _ _ hu
  rw [← hc] at nb
  exact shown_inj _ ((da.getD 13 0).toNat * 256 + (da.getD 3 0).toNat) ((db.getD 13 0).toNat * 256 + (db.getD 3 0).toNat)
    (tenths_lt (da.getD 13 0) (da.getD 3 0)) (tenths_lt (db.getD 13 0) (db.getD 3 0)) ta tb na nb (by rw [← hta, ← htb]; exact ht)

/-- 22.0 degrees Celsius and 71.6 degrees Fahrenheit: the hypotheses are met. -/
example : (thermostatInfoLines (ThermostatInfo.zero.unmarshalBinary [0, 0, 0, 0xdc, 40, 0, 0, 1, 0, 30, 2, 0, 8, 0]).1).take 1 =
      [ascii "                Temp: 22.0 " ++ [0xc2#8, 0xb0#8] ++ ascii "C"] ∧
    (thermostatInfoLines (ThermostatInfo.zero.unmarshalBinary [0, 0, 0, 0xdc, 40, 0, 0, 1, 0, 30, 2, 0, 0, 0]).1).take 1 =
      [ascii "                Temp: 71.6 " ++ [0xc2#8, 0xb0#8] ++ ascii "F"] ∧
    nearestTenths true 220 = 220 ∧ nearestTenths false 220 = 716 := by
  decide +kernel

end Insteon
