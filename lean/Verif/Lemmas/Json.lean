import Verif.Model.Json
import Verif.Spec.LinkText
import Mathlib.Tactic.IntervalCases
import Mathlib.Tactic.SplitIfs

/-
Numbers in decimal.
-/

namespace Insteon.Json

theorem decDigit_toNat (n : Nat) (h : n < 10) : (decDigit n).toNat = 48 + n := by
  interval_cases n <;> rfl

/-- Value of digits read from the left. -/
def digitsValue (ds : List Nat) : Nat := ds.foldl (fun a d => 10 * a + d) 0

theorem digitsValue_snoc (ds : List Nat) (d : Nat) : digitsValue (ds ++ [d]) = 10 * digitsValue ds + d := by
  simp [digitsValue]

/-- The digits of a number: few enough, without leading zero. -/
theorem natText_digits (fuel n : Nat) (h : n < 10 ^ fuel) (hf : 0 < fuel) :
    ∃ ds, natText fuel n = ds.map decDigit ∧ (∀ d ∈ ds, d < 10) ∧ ds ≠ [] ∧ digitsValue ds = n ∧
      (1 < ds.length → ds.head? ≠ some 0) ∧ (n ≠ 0 → ds.head? ≠ some 0) := by
  induction fuel generalizing n with
  | zero => omega
  | succ fuel ih =>
    unfold natText
    split_ifs with h10
    · exact ⟨[n], rfl, by simpa using h10, by simp, by simp [digitsValue], by simp, by simp⟩
    · have hf' : 0 < fuel := by
        rcases Nat.eq_zero_or_pos fuel with rfl | h
        · simp at h; omega
        · exact h
      obtain ⟨ds, h1, h2, h3, h4, -, h6⟩ := ih (n / 10) (by rw [pow_succ] at h; omega) hf'
      refine ⟨ds ++ [n % 10], by simp [h1], ?_, by simp, ?_, ?_, ?_⟩
      · intro d hd
        simp only [List.mem_append, List.mem_singleton] at hd
        rcases hd with hd | rfl
        · exact h2 d hd
        · omega
      · rw [digitsValue_snoc, h4]; omega
      · intro _
        rw [show (ds ++ [n % 10]).head? = ds.head? by cases ds <;> simp_all]
        exact h6 (by omega)
      · intro _
        rw [show (ds ++ [n % 10]).head? = ds.head? by cases ds <;> simp_all]
        exact h6 (by omega)

end Insteon.Json

namespace Insteon
open Spec

theorem natText_spec (n : Nat) (h : n < 10 ^ 20) : Digits (Json.natText 20 n) ∧ decimalValue (Json.natText 20 n) = n := by
  obtain ⟨ds, h1, h2, h3, h4, -⟩ := Json.natText_digits 20 n h (by omega)
  rw [h1]
  refine ⟨⟨by simpa using h3, ?_⟩, ?_⟩
  · intro c hc
    obtain ⟨d, hd, rfl⟩ := List.mem_map.mp hc
    have := h2 d hd
    rw [Json.decDigit_toNat d this]
    omega
  · rw [← h4]
    have : ∀ (ds : List Nat) (acc : Nat), (∀ d ∈ ds, d < 10) →
        (ds.map decDigit).foldl (fun n c => 10 * n + (c.toNat - 48)) acc = ds.foldl (fun a d => 10 * a + d) acc := by
      intro ds
      induction ds with
      | nil => intros; rfl
      | cons d ds ih =>
        intro acc hd
        have h10 := hd d (by simp)
        simp only [List.map_cons, List.foldl_cons, Json.decDigit_toNat d h10]
        rw [show 48 + d - 48 = d by omega]
        exact ih _ fun x hx => hd x (by simp [hx])
    exact this ds 0 h2

/-- Integers are printed in decimal. -/
theorem intText_spec (i : Int) (h : i.natAbs < 10 ^ 20) : IntegerText (Json.intText i) i := by
  unfold Json.intText
  split_ifs with h0
  · obtain ⟨h1, h2⟩ := natText_spec (-i).toNat (by omega)
    right; right
    exact ⟨Json.natText 20 (-i).toNat, rfl, h1, by rw [h2]; omega⟩
  · obtain ⟨h1, h2⟩ := natText_spec i.toNat (by omega)
    left
    exact ⟨h1, by rw [h2]; omega⟩

end Insteon
