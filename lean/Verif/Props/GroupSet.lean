import Verif.Props.Link

/-
C174: a group given as a command line flag.
-/

namespace Insteon
open Spec

theorem takeDec_spec (s : Bytes) : s = (takeDec s).1 ++ (takeDec s).2 ∧ (∀ c ∈ (takeDec s).1, 48 ≤ c.toNat ∧ c.toNat ≤ 57) ∧
    ∀ c ∈ (takeDec s).2.head?, ¬ (48 ≤ c.toNat ∧ c.toNat ≤ 57) := by
  induction s with
  | nil => simp [takeDec]
  | cons b s ih =>
    rw [takeDec]
    by_cases h : 48 ≤ b.toNat ∧ b.toNat ≤ 57
    · rw [if_pos h]
      refine ⟨by rw [List.cons_append, ← ih.1], ?_, ih.2.2⟩
      intro c hc
      rcases List.mem_cons.mp hc with rfl | hc
      · exact h
      · exact ih.2.1 c hc
    · rw [if_neg h]
      refine ⟨rfl, by simp, ?_⟩
      intro c hc
      simp only [List.head?_cons, Option.mem_def, Option.some.injEq] at hc
      exact hc ▸ h

theorem takeDec_of (ds rest : Bytes) (hd : ∀ c ∈ ds, 48 ≤ c.toNat ∧ c.toNat ≤ 57) (hr : ∀ c ∈ rest.head?, ¬ (48 ≤ c.toNat ∧ c.toNat ≤ 57)) :
    takeDec (ds ++ rest) = (ds, rest) := by
  induction ds with
  | nil =>
    rcases rest with _ | ⟨c, r⟩
    · rfl
    · rw [List.nil_append, takeDec, if_neg (hr c (by simp))]
  | cons b ds ih =>
    rw [List.cons_append, takeDec, if_pos (hd b (by simp)), ih (fun c hc => hd c (by simp [hc]))]

theorem digit_solid : ∀ c : Byte, 48 ≤ c.toNat ∧ c.toNat ≤ 57 → solid c = true := by decide +kernel

theorem decNumber_decByte : ∀ g : Byte, decNumber 0 (decByte g) = some g.toNat := by decide +kernel

theorem decByte_digits_value (g : Byte) : Digits (decByte g) ∧ g.toNat = decimalValue (decByte g) := by
  obtain ⟨h1, h2⟩ := (decNumber_iff _ _ _).mp (decNumber_decByte g)
  exact ⟨⟨(decByte_spec g).2.1, h1⟩, h2⟩

/-- C174, what holds: exactly which texts are accepted and as what: blanks, a decimal number up to 255, and then anything that is not a
digit. What is missing is that nothing may follow. -/
theorem group_set_partial (g v : Group) (s : Bytes) : g.set s = (v, none) ↔ ∃ rest, NumberThen s v.toNat rest := by
  have hv := v.isLt
  constructor
  · intro h
    unfold Group.set at h
    rcases hs : skipSpace s with _ | t <;> rw [hs] at h
    · simp at h
    · obtain ⟨w, rfl, hw, -⟩ := (skipSpace_spec s t).1 hs
      obtain ⟨h1, h2, h3⟩ := takeDec_spec t
      dsimp only at h
      rcases hn : decNumber 0 (takeDec t).1 with _ | n <;> rw [hn] at h
      · simp at h
      · dsimp only at h
        split_ifs at h with h4 h5
        · simp at h
        · simp at h
        · simp only [Prod.mk.injEq, and_true] at h
          obtain ⟨-, hn⟩ := (decNumber_iff _ _ _).mp hn
          refine ⟨(takeDec t).2, w, (takeDec t).1, by rw [List.append_assoc, ← h1], hw, ⟨h4, h2⟩, ?_, h3⟩
          rw [← h, BitVec.toNat_ofNat, decimalValue, ← hn]
          omega
  · rintro ⟨rest, w, ds, rfl, hw, ⟨hne, hd⟩, hval, hr⟩
    have hsk : skipSpace (w ++ ds ++ rest) = some (ds ++ rest) := by
      refine (skipSpace_spec _ _).2 ⟨w, by simp, hw, ?_⟩
      rcases ds with _ | ⟨c, ds⟩
      · exact absurd rfl hne
      · exact spaceLen_solid (digit_solid c (hd c (by simp))) _
    have hn : decNumber 0 ds = some v.toNat := (decNumber_iff _ _ _).mpr ⟨hd, hval⟩
    unfold Group.set
    rw [hsk]
    dsimp only
    rw [takeDec_of ds rest hd hr]
    dsimp only
    rw [hn]
    dsimp only
    rw [if_neg hne, if_neg (by omega)]
    simp

/-- C174: text that is not accepted changes nothing. -/
theorem group_set_error (g : Group) (s : Bytes) (h : (g.set s).2 ≠ none) : (g.set s).1 = g := by
  revert h
  unfold Group.set
  rcases skipSpace s with _ | t
  · intro _; rfl
  · dsimp only
    rcases decNumber 0 (takeDec t).1 with _ | n
    · intro _; rfl
    · dsimp only
      by_cases h1 : (takeDec t).1 = []
      · rw [if_pos h1]; intro _; rfl
      · rw [if_neg h1]
        by_cases h2 : 255 < n
        · rw [if_pos h2]; intro _; rfl
        · rw [if_neg h2]; intro h; exact absurd rfl h

/-- C174: the text of a group is read back as the group. -/
theorem group_set_roundtrip (g recv : Group) : recv.set g.string = (g, none) := by
  refine (group_set_partial recv g (decByte g)).mpr ?_
  obtain ⟨h1, h2⟩ := decByte_digits_value g
  exact ⟨[], [], decByte g, by rw [List.nil_append, List.append_nil], blank_nil, h1, h2, by intro c hc; cases hc⟩

/-- Expected and false: only the text of a number is accepted. -/
theorem group_set_refuted : ¬ ∀ (g : Group) (s : Bytes), (g.set s).2 = none → ∃ v : Nat, v ≤ 255 ∧ IntegerText s v := by
  intro h
  obtain ⟨v, -, hv⟩ := h 0 (ascii "12abc") (by decide)
  have h1 := ((atoi_iff (ascii "12abc") v).mpr ⟨hv, by omega, ?_⟩)
  · have h2 : atoi (ascii "12abc") = none := by decide
    rw [h2] at h1; cases h1
  · rcases hv with ⟨h, -⟩ | ⟨d, h, -⟩ | ⟨d, h, -⟩
    · have := h.2 0x61#8 (by decide)
      exact absurd this (by decide)
    · have := congrArg List.head? h
      simp [ascii] at this
    · have := congrArg List.head? h
      simp [ascii] at this

/-- Expected and false: a flag accepts every text of a group that a link file accepts. -/
theorem group_set_file_refuted : ¬ ∀ (g : Group) (s : Bytes), (g.unmarshalText s).2 = none → (g.set s).2 = none := by
  intro h
  exact absurd (h 0 (ascii "+7") (by decide)) (by decide)

example : Group.set 9 (ascii " 007 ") = (7, none) ∧ (Group.set 9 (ascii "256")).2 ≠ none ∧ (Group.set 9 (ascii "-1")).2 ≠ none := by decide

end Insteon
