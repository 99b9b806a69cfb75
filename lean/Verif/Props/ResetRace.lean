import Mathlib.Data.List.Induction
import Verif.Props.Plm
import Verif.Spec.ResetRace

/-
C159: the timeout after resets of the modem by several goroutines.
-/

namespace Insteon
open Insteon.Spec

namespace ResetSt

theorem run_snoc (s : ResetSt) (es : List Nat) (e : Nat) : s.run (es ++ [e]) = (s.run es).step e := by simp [run]

/-- C159: at all times the timeout is the one of the modem or twenty seconds, whatever the goroutines do. -/
theorem reset_timeout_range (t₀ : Int) (es : List Nat) :
    ((init t₀).run es).timeout = t₀ ∨ ((init t₀).run es).timeout = twentySeconds := by
  have h : (((init t₀).run es).timeout = t₀ ∨ ((init t₀).run es).timeout = twentySeconds) ∧
      ∀ i t, ((init t₀).run es).phase i = .read t ∨ ((init t₀).run es).phase i = .under t → t = t₀ ∨ t = twentySeconds := by
    induction es using List.reverseRecOn with
    | nil => exact ⟨.inl rfl, fun i t h => by rcases h with h | h <;> cases h⟩
    | append_singleton es e ih =>
      rw [run_snoc]
      obtain ⟨h1, h2⟩ := ih
      generalize (init t₀).run es = s at h1 h2
      unfold step
      rcases he : s.phase e with _ | k | k
      · refine ⟨h1, fun i t h => ?_⟩
        by_cases hi : i = e
        · subst hi
          simp only [Function.update_self] at h
          rcases h with h | h <;> cases h
          exact h1
        · simp only [Function.update_of_ne hi] at h
          exact h2 i t h
      · refine ⟨.inr rfl, fun i t h => ?_⟩
        by_cases hi : i = e
        · subst hi
          simp only [Function.update_self] at h
          rcases h with h | h <;> cases h
          exact h2 i _ (.inl he)
        · simp only [Function.update_of_ne hi] at h
          exact h2 i t h
      · refine ⟨h2 e k (.inr he), fun i t h => ?_⟩
        by_cases hi : i = e
        · subst hi
          simp only [Function.update_self] at h
          rcases h with h | h <;> cases h
        · simp only [Function.update_of_ne hi] at h
          exact h2 i t h
  exact h.1

/-- C159: resets one after the other leave the timeout as it was, and it is twenty seconds exactly while the command of one of them is under way.
What is missing is that this holds for resets at the same time: that is false (`reset_timeout_refuted`). -/
theorem reset_timeout_partial (t₀ : Int) (es : List Nat) (h : OneAtATime t₀ es) :
    (NoReset ((init t₀).run es) → ((init t₀).run es).timeout = t₀) ∧
      ∀ i t, ((init t₀).run es).phase i = .under t → ((init t₀).run es).timeout = twentySeconds := by
  have key : (NoReset ((init t₀).run es) ∧ ((init t₀).run es).timeout = t₀) ∨
      ∃ i, (∀ j, j ≠ i → ((init t₀).run es).phase j = .out) ∧
        ((((init t₀).run es).phase i = .read t₀ ∧ ((init t₀).run es).timeout = t₀) ∨
          (((init t₀).run es).phase i = .under t₀ ∧ ((init t₀).run es).timeout = twentySeconds)) := by
    induction es using List.reverseRecOn with
    | nil => exact .inl ⟨fun i => rfl, rfl⟩
    | append_singleton es e ih =>
      have ih := ih fun es' hp i j => h es' (hp.trans (List.prefix_append _ _)) i j
      have hl := h (es ++ [e]) (List.prefix_refl _)
      rw [run_snoc] at hl ⊢
      generalize (init t₀).run es = s at ih hl
      rcases ih with ⟨hq, ht⟩ | ⟨i, hi, hc⟩
      · refine .inr ⟨e, fun j hj => ?_, .inl ?_⟩
        · simp only [step, hq e, Function.update_of_ne hj]; exact hq j
        · simp only [step, hq e, Function.update_self, ht, and_self]
      · by_cases hei : e = i
        · subst hei
          rcases hc with ⟨hp, ht⟩ | ⟨hp, ht⟩
          · refine .inr ⟨e, fun j hj => ?_, .inr ?_⟩
            · simp only [step, hp, Function.update_of_ne hj]; exact hi j hj
            · simp only [step, hp, Function.update_self, true_and]; rfl
          · refine .inl ⟨fun j => ?_, by simp only [step, hp]⟩
            by_cases hj : j = e
            · subst hj; simp only [step, hp, Function.update_self]
            · simp only [step, hp, Function.update_of_ne hj]; exact hi j hj
        · exfalso
          refine hei (hl e i ?_ ?_)
          · simp only [step, hi e hei, Function.update_self]; simp
          · simp only [step, hi e hei, Function.update_of_ne (Ne.symm hei)]
            rcases hc with ⟨hp, _⟩ | ⟨hp, _⟩ <;> rw [hp] <;> simp
  rcases key with ⟨hq, ht⟩ | ⟨i, hi, hc⟩
  · exact ⟨fun _ => ht, fun i t hp => by rw [hq i] at hp; cases hp⟩
  · refine ⟨fun hq => ?_, fun j t hp => ?_⟩
    · rcases hc with ⟨hp, _⟩ | ⟨hp, _⟩ <;> rw [hq i] at hp <;> cases hp
    · by_cases hj : j = i
      · subst hj
        rcases hc with ⟨hp', _⟩ | ⟨_, ht⟩
        · rw [hp'] at hp; cases hp
        · exact ht
      · rw [hi j hj] at hp; cases hp

/-- Two resets by different goroutines one after the other. -/
theorem one_then_other : OneAtATime 3000000000 [0, 0, 0, 1, 1, 1] := by
  intro es' hp i j hi hj
  have hlen : es' = [0, 0, 0, 1, 1, 1].take es'.length := List.prefix_iff_eq_take.mp hp
  have hle : es'.length ≤ 6 := hp.length_le
  rw [hlen] at hi hj
  generalize es'.length = n at hi hj hle
  have hn : n = 0 ∨ n = 1 ∨ n = 2 ∨ n = 3 ∨ n = 4 ∨ n = 5 ∨ n = 6 := by omega
  rcases hn with rfl | rfl | rfl | rfl | rfl | rfl | rfl <;>
    simp [run, step, init, Function.update_apply] at hi hj <;> omega

example : NoReset ((init 3000000000).run [0, 0, 0, 1, 1, 1]) ∧ ((init 3000000000).run [0, 0, 0, 1, 1]).timeout = twentySeconds ∧
    ((init 3000000000).run [0, 0, 0, 1, 1, 1]).timeout = 3000000000 := by
  refine ⟨fun i => ?_, rfl, rfl⟩
  simp [run, step, init]

/-- C159: two resets at the same time may leave the timeout at twenty seconds for good: when both are over, and nothing else has set it, calls wait
that long. -/
theorem reset_timeout_refuted : ∃ (t₀ : Int) (es : List Nat), NoReset ((init t₀).run es) ∧ ((init t₀).run es).timeout ≠ t₀ ∧
    ((init t₀).run es).timeout = twentySeconds := by
  refine ⟨3000000000, [0, 0, 1, 1, 0, 1], fun i => ?_, by decide, rfl⟩
  by_cases h1 : i = 1
  · subst h1; rfl
  · by_cases h0 : i = 0
    · subst h0; rfl
    · simp [run, step, init, h0, h1]

end ResetSt

end Insteon
