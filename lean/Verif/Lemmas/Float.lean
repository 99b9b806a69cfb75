import Mathlib.Tactic.Linarith
import Mathlib.Tactic.NormNum
import Mathlib.Tactic.FieldSimp
import Mathlib.Tactic.Positivity
import Mathlib.Algebra.Order.Floor.Ring
import Mathlib.Data.Rat.Floor
import Verif.Model.Float

/-
How far float32 results are from exact ones.
-/

namespace Insteon

theorem roundEven_near (q : ℚ) : |(roundEven q : ℚ) - q| ≤ 1 / 2 := by
  have h1 : ((⌊q⌋ : ℤ) : ℚ) ≤ q := Int.floor_le q
  have h2 : q < (⌊q⌋ : ℤ) + 1 := Int.lt_floor_add_one q
  unfold roundEven
  change |(((if q - (⌊q⌋ : ℤ) < 1 / 2 then ⌊q⌋ else if 1 / 2 < q - (⌊q⌋ : ℤ) then ⌊q⌋ + 1 else if ⌊q⌋ % 2 = 0 then ⌊q⌋ else ⌊q⌋ + 1 : ℤ)) : ℚ) - q| ≤ 1 / 2
  rw [abs_le]
  split_ifs <;> push_cast <;> constructor <;> linarith

theorem roundEven_unique (q : ℚ) (n : ℤ) (h : |(n : ℚ) - q| < 1 / 2) : roundEven q = n := by
  have h1 := roundEven_near q
  have h2 : |((roundEven q - n : ℤ) : ℚ)| < 1 := by
    push_cast
    have : (roundEven q : ℚ) - n = ((roundEven q : ℚ) - q) - ((n : ℚ) - q) := by ring
    rw [this]
    calc |((roundEven q : ℚ) - q) - ((n : ℚ) - q)| ≤ |(roundEven q : ℚ) - q| + |(n : ℚ) - q| := abs_sub _ _
      _ < 1 := by linarith
  have h3 : |roundEven q - n| < 1 := by exact_mod_cast h2
  have := Int.abs_lt_one_iff.mp h3
  omega

/-- Multiplying by powers to compare: the exponent is at most the logarithm. -/
theorem exponent_le (q : ℚ) (hq : 0 < q) : (2 : ℚ) ^ exponent q ≤ q := by
  have hn : 0 < q.num := Rat.num_pos.mpr hq
  have hn0 : q.num.natAbs ≠ 0 := by omega
  have hqe : q = (q.num.natAbs : ℚ) / q.den := by
    conv_lhs => rw [← Rat.num_div_den q]
    congr 1
    rw [← Int.cast_natCast, Int.natAbs_of_nonneg hn.le]
  have hd : (0 : ℚ) < q.den := by exact_mod_cast q.den_pos
  have l1 : (2 : ℚ) ^ (q.num.natAbs.log2) ≤ q.num.natAbs := by exact_mod_cast Nat.log2_self_le hn0
  have l2 : (q.den : ℚ) < 2 ^ (q.den.log2 + 1) := by exact_mod_cast Nat.lt_log2_self
  unfold exponent
  dsimp only
  generalize q.num.natAbs = a at *
  generalize q.den = d at *
  generalize he : (a.log2 : ℤ) - d.log2 = e
  split_ifs with h
  · have : (2 : ℚ) ^ (e - 1) = 2 ^ a.log2 / 2 ^ (d.log2 + 1) := by
      rw [← he, ← zpow_natCast, ← zpow_natCast, ← zpow_sub₀ (by norm_num)]
      congr 1
      push_cast
      ring
    rw [this, hqe]
    gcongr
  · push Not at h
    have h' : (d : ℚ) * 2 ^ e.toNat ≤ a * 2 ^ (-e).toNat := by exact_mod_cast h
    have hz : (2 : ℚ) ^ e = 2 ^ e.toNat / 2 ^ (-e).toNat := by
      rw [← zpow_natCast, ← zpow_natCast, ← zpow_sub₀ (by norm_num)]
      congr 1
      omega
    rw [hz, hqe, div_le_div_iff₀ (by positivity) hd]
    linarith

/-- A float32 below `2 ^ k` is off by at most half a unit of its last place. -/
theorem f32_near (q : ℚ) (k : ℕ) (hk : k ≤ 24) (h0 : 0 ≤ q) (h : q < 2 ^ k) : |f32 q - q| * 2 ^ (25 - k) ≤ 1 := by
  unfold f32
  split_ifs with hz
  · subst hz; simp
  have hq : 0 < q := lt_of_le_of_ne h0 (Ne.symm hz)
  dsimp only
  have he : exponent q < k := by
    have h1 := lt_of_le_of_lt (exponent_le q hq) h
    rw [← zpow_natCast] at h1
    exact (zpow_lt_zpow_iff_right₀ (by norm_num)).mp h1
  have hdown : (exponent q - 23).toNat = 0 := by omega
  obtain ⟨m, hm⟩ : ∃ m, (23 - exponent q).toNat = (24 - k) + m := ⟨(23 - exponent q).toNat - (24 - k), by omega⟩
  rw [hdown, hm]
  simp only [pow_zero, Nat.cast_one, div_one, mul_one]
  set up : ℚ := ((2 ^ (24 - k + m) : ℕ) : ℚ) with hup
  have hpos : 0 < up := by rw [hup]; positivity
  have hn := roundEven_near (q * up)
  have e1 : (roundEven (q * up) : ℚ) / up - q = ((roundEven (q * up) : ℚ) - q * up) / up := by field_simp
  rw [e1, abs_div, abs_of_pos hpos, div_mul_eq_mul_div, div_le_one hpos]
  have e2 : (2 : ℚ) ^ (25 - k) ≤ 2 * up := by
    rw [hup, show 25 - k = (24 - k) + 1 by omega, pow_succ]
    push_cast
    rw [pow_add]
    have : (1 : ℚ) ≤ 2 ^ m := one_le_pow₀ (by norm_num)
    have h24 : (0 : ℚ) < 2 ^ (24 - k) := by positivity
    nlinarith
  calc |(roundEven (q * up) : ℚ) - q * up| * 2 ^ (25 - k) ≤ 1 / 2 * (2 * up) := by gcongr
    _ = up := by ring

theorem f32_abs (q : ℚ) (k : ℕ) (hk : k ≤ 24) (h0 : 0 ≤ q) (h : q < 2 ^ k) : |f32 q - q| ≤ 1 / 2 ^ (25 - k) := by
  rw [le_div_iff₀ (by positivity)]
  exact f32_near q k hk h0 h

/-- Small integers are exact. -/
theorem f32_nat (n : ℕ) (h : n < 2 ^ 24) : f32 n = n := by
  by_contra hne
  unfold f32 at hne
  split_ifs at hne with hz
  · exact hne hz.symm
  · have hq : 0 < (n : ℚ) := lt_of_le_of_ne (by positivity) (Ne.symm hz)
    have he : exponent (n : ℚ) < 24 := by
      have h1 := lt_of_le_of_lt (exponent_le n hq) (show (n : ℚ) < 2 ^ 24 by exact_mod_cast h)
      rw [← zpow_natCast] at h1
      exact (zpow_lt_zpow_iff_right₀ (by norm_num)).mp h1
    dsimp only at hne
    rw [show (exponent (n : ℚ) - 23).toNat = 0 by omega] at hne
    simp only [pow_zero, Nat.cast_one, div_one, mul_one] at hne
    apply hne
    set up := 2 ^ (23 - exponent (n : ℚ)).toNat
    have hup : (0 : ℚ) < (up : ℕ) := by exact_mod_cast (by positivity : 0 < up)
    rw [roundEven_unique ((n : ℚ) * (up : ℕ)) ((n * up : ℕ) : ℤ) (by push_cast; simp)]
    push_cast
    field_simp

theorem f32_nonneg (q : ℚ) (h : 0 ≤ q) : 0 ≤ f32 q := by
  unfold f32
  split_ifs
  · rfl
  · dsimp only
    have : ∀ x : ℚ, 0 ≤ x → 0 ≤ roundEven x := by
      intro x hx
      have hf : 0 ≤ x.floor := Int.floor_nonneg.mpr hx
      unfold roundEven
      dsimp only
      split_ifs <;> omega
    have h2 : (0 : ℚ) ≤ (roundEven (q * ((2 ^ (23 - exponent q).toNat : ℕ) : ℚ) / ((2 ^ (exponent q - 23).toNat : ℕ) : ℚ)) : ℤ) := by
      exact_mod_cast this _ (by positivity)
    positivity

theorem celsius_near (n : ℕ) (h : n < 65536) : |f32 (f32 n / 10) - (n : ℚ) / 10| ≤ 1 / 2 ^ 12 := by
  have hn : (n : ℚ) < 65536 := by exact_mod_cast h
  rw [f32_nat n (by omega)]
  exact f32_abs _ 13 (by omega) (by positivity) (by norm_num; linarith)

theorem fahrenheit_near (n : ℕ) (h : n < 65536) :
    |f32 (f32 (f32 (f32 (f32 n / 10) * 9) / 5) + 32) - ((n : ℚ) / 10 * 9 / 5 + 32)| < 1 / 500 := by
  have hn : (n : ℚ) < 65536 := by exact_mod_cast h
  have hn0 : (0 : ℚ) ≤ n := by positivity
  have h1 := celsius_near n h
  have p1 : 0 ≤ f32 (f32 n / 10) := f32_nonneg _ (div_nonneg (f32_nonneg _ hn0) (by norm_num))
  generalize f32 (f32 n / 10) = t1 at *
  rw [abs_le] at h1
  norm_num at h1
  have h2 := f32_abs (t1 * 9) 16 (by omega) (by positivity) (by norm_num; linarith)
  have p2 : 0 ≤ f32 (t1 * 9) := f32_nonneg _ (by positivity)
  generalize f32 (t1 * 9) = t2 at *
  rw [abs_le] at h2
  norm_num at h2
  have h3 := f32_abs (t2 / 5) 14 (by omega) (by positivity) (by norm_num; linarith)
  have p3 : 0 ≤ f32 (t2 / 5) := f32_nonneg _ (by positivity)
  generalize f32 (t2 / 5) = t3 at *
  rw [abs_le] at h3
  norm_num at h3
  have h4 := f32_abs (t3 + 32) 14 (by omega) (by positivity) (by norm_num; linarith)
  rw [abs_le] at h4
  norm_num at h4
  rw [abs_lt]
  constructor <;> linarith

/-- Printing with one digit after the point. -/
theorem fixed1_text (q : ℚ) (t : ℕ) (h : |q * 10 - t| < 1 / 2) :
    fixed1 q = Json.intText (t / 10 : ℕ) ++ lit "." ++ Json.intText (t % 10 : ℕ) := by
  unfold fixed1
  rw [roundEven_unique (q * 10) t (by rw [abs_sub_comm]; exact_mod_cast h)]
  rfl

end Insteon
