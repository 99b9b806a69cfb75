import Mathlib.Tactic.IntervalCases
import Mathlib.Tactic.SplitIfs
import Verif.Model.Text
import Verif.Spec.Text

/-
Lemmas about UTF-8 text and white space.
-/

namespace Insteon
open Spec

/-! ### Characters -/

theorem byte_eq_ofNat {b : Byte} {n : Nat} (h : b.toNat = n) : b = BitVec.ofNat 8 n := by
  rw [← h]; simp

/-- A character that can be decoded is the UTF-8 form of its number. -/
theorem decodeRune_utf8 (s : Bytes) (h : (decodeRune s).1 ≠ 0xfffd) :
    s = utf8 (decodeRune s).1 ++ s.drop (decodeRune s).2 ∧ (decodeRune s).2 = (utf8 (decodeRune s).1).length := by
  rcases s with _ | ⟨b, s⟩
  · exact absurd rfl h
  · have hb := b.isLt
    unfold decodeRune at h ⊢
    by_cases h1 : b.toNat < 0x80
    · simp only [if_pos h1]
      unfold utf8
      simp [h1]
    · by_cases h2 : b.toNat < 0xc2
      · simp [h1, h2] at h
      · by_cases h3 : b.toNat < 0xe0
        · simp only [if_neg h1, if_neg h2, if_pos h3] at h ⊢
          rcases s with _ | ⟨c, s⟩
          · exact absurd rfl h
          · by_cases hc : isCont c = true
            · simp only [if_pos hc]
              simp only [isCont, Bool.and_eq_true, decide_eq_true_eq] at hc
              have e1 : ¬ (b.toNat - 0xc0) * 64 + (c.toNat - 0x80) < 0x80 := by omega
              have e2 : (b.toNat - 0xc0) * 64 + (c.toNat - 0x80) < 0x800 := by omega
              unfold utf8
              rw [if_neg e1, if_pos e2]
              refine ⟨?_, rfl⟩
              rw [← byte_eq_ofNat (b := b) (by omega), ← byte_eq_ofNat (b := c) (by omega)]
              rfl
            · exact absurd rfl (by simp only [if_neg hc] at h; exact h)
        · by_cases h4 : b.toNat < 0xf0
          · simp only [if_neg h1, if_neg h2, if_neg h3, if_pos h4] at h ⊢
            rcases s with _ | ⟨c, _ | ⟨d, s⟩⟩
            · exact absurd rfl h
            · exact absurd rfl h
            · dsimp only at h ⊢
              split_ifs at h ⊢ with hc
              · simp only [isCont, Bool.and_eq_true, Bool.or_eq_true, decide_eq_true_eq, bne_iff_ne] at hc
                have e1 : ¬ (b.toNat - 0xe0) * 4096 + (c.toNat - 0x80) * 64 + (d.toNat - 0x80) < 0x80 := by omega
                have e2 : ¬ (b.toNat - 0xe0) * 4096 + (c.toNat - 0x80) * 64 + (d.toNat - 0x80) < 0x800 := by omega
                have e3 : (b.toNat - 0xe0) * 4096 + (c.toNat - 0x80) * 64 + (d.toNat - 0x80) < 0x10000 := by omega
                unfold utf8
                rw [if_neg e1, if_neg e2, if_pos e3]
                refine ⟨?_, rfl⟩
                rw [← byte_eq_ofNat (b := b) (by omega), ← byte_eq_ofNat (b := c) (by omega), ← byte_eq_ofNat (b := d) (by omega)]
                rfl
              · exact absurd rfl h
          · by_cases h5 : b.toNat < 0xf5
            · simp only [if_neg h1, if_neg h2, if_neg h3, if_neg h4, if_pos h5] at h ⊢
              rcases s with _ | ⟨c, _ | ⟨d, _ | ⟨e, s⟩⟩⟩
              · exact absurd rfl h
              · exact absurd rfl h
              · exact absurd rfl h
              · dsimp only at h ⊢
                split_ifs at h ⊢ with hc
                · simp only [isCont, Bool.and_eq_true, Bool.or_eq_true, decide_eq_true_eq, bne_iff_ne] at hc
                  have e1 : ¬ (b.toNat - 0xf0) * 262144 + (c.toNat - 0x80) * 4096 + (d.toNat - 0x80) * 64 + (e.toNat - 0x80) < 0x80 := by omega
                  have e2 : ¬ (b.toNat - 0xf0) * 262144 + (c.toNat - 0x80) * 4096 + (d.toNat - 0x80) * 64 + (e.toNat - 0x80) < 0x800 := by omega
                  have e3 : ¬ (b.toNat - 0xf0) * 262144 + (c.toNat - 0x80) * 4096 + (d.toNat - 0x80) * 64 + (e.toNat - 0x80) < 0x10000 := by omega
                  unfold utf8
                  rw [if_neg e1, if_neg e2, if_neg e3]
                  refine ⟨?_, rfl⟩
                  rw [← byte_eq_ofNat (b := b) (by omega), ← byte_eq_ofNat (b := c) (by omega), ← byte_eq_ofNat (b := d) (by omega),
                    ← byte_eq_ofNat (b := e) (by omega)]
                  rfl
                · exact absurd rfl h
            · simp [h1, h2, h3, h4, h5] at h

theorem isSpaceRune_iff (r : Nat) : isSpaceRune r = true ↔ r ∈ whiteSpace := by
  unfold isSpaceRune whiteSpace
  simp only [Bool.or_eq_true, Bool.and_eq_true, decide_eq_true_eq, beq_iff_eq, List.mem_cons, List.not_mem_nil, or_false]
  omega

theorem white_ne_bad {c : Nat} (h : c ∈ whiteSpace) : c ≠ 0xfffd := by
  rintro rfl; revert h; decide

theorem decodeRune_white {c : Nat} (h : c ∈ whiteSpace) (t : Bytes) : decodeRune (utf8 c ++ t) = (c, (utf8 c).length) := by
  simp only [whiteSpace, List.mem_cons, List.not_mem_nil, or_false] at h
  rcases h with rfl | rfl | rfl | rfl | rfl | rfl | rfl | rfl | rfl | rfl | rfl | rfl | rfl | rfl | rfl | rfl | rfl | rfl | rfl | rfl | rfl | rfl | rfl | rfl | rfl <;> rfl

theorem decodeLastRune_white {c : Nat} (h : c ∈ whiteSpace) (t : Bytes) :
    decodeLastRune ((utf8 c).reverse ++ t) = (c, (utf8 c).length) := by
  simp only [whiteSpace, List.mem_cons, List.not_mem_nil, or_false] at h
  rcases h with rfl | rfl | rfl | rfl | rfl | rfl | rfl | rfl | rfl | rfl | rfl | rfl | rfl | rfl | rfl | rfl | rfl | rfl | rfl | rfl | rfl | rfl | rfl | rfl | rfl <;> rfl

theorem utf8_length_pos (c : Nat) : 0 < (utf8 c).length := by
  unfold utf8; split_ifs <;> simp

theorem utf8_ne_nil (c : Nat) : utf8 c ≠ [] := fun h => by
  have := utf8_length_pos c; rw [h] at this; simp at this

/-- The first byte of a white space character is the first of some character, the others are not. -/
theorem white_bytes {c : Nat} (h : c ∈ whiteSpace) : ∃ b t, utf8 c = b :: t ∧ isCont b = false ∧ ∀ x ∈ t, isCont x = true := by
  have key : ∀ c ∈ whiteSpace, isCont ((utf8 c).headD 0) = false ∧ ∀ x ∈ (utf8 c).tail, isCont x = true := by decide
  rcases hu : utf8 c with _ | ⟨b, t⟩
  · exact absurd hu (utf8_ne_nil c)
  · have := key c h
    rw [hu] at this
    exact ⟨b, t, rfl, this⟩

theorem decodeRune_pos (b : Byte) (s : Bytes) : 0 < (decodeRune (b :: s)).2 := by
  unfold decodeRune
  dsimp only
  split_ifs <;> (try split) <;> (try split_ifs) <;> simp

/-- Putting the characters of a text together again. -/
theorem charsOf_flatten (n : Nat) (s : Bytes) (h : s.length ≤ n) : (charsOf n s).flatten = s := by
  induction n generalizing s with
  | zero =>
    have : s = [] := List.length_eq_zero_iff.mp (by omega)
    subst this; rfl
  | succ n ih =>
    rcases s with _ | ⟨b, s⟩
    · rfl
    · have hp := decodeRune_pos b s
      rw [charsOf, List.flatten_cons, ih _ (by rw [List.length_drop]; omega), List.take_append_drop]

/-! ### White space at the start of a text -/

theorem spaceLen_white {c : Nat} (h : c ∈ whiteSpace) (t : Bytes) : spaceLen (utf8 c ++ t) = (utf8 c).length := by
  unfold spaceLen
  rw [decodeRune_white h, if_pos ((isSpaceRune_iff c).mpr h)]

theorem spaceLen_ne_zero {s : Bytes} (h : spaceLen s ≠ 0) : ∃ c ∈ whiteSpace, ∃ t, s = utf8 c ++ t := by
  unfold spaceLen at h
  split_ifs at h with hs
  · rw [isSpaceRune_iff] at hs
    exact ⟨_, hs, _, (decodeRune_utf8 s (white_ne_bad hs)).1⟩
  · exact absurd rfl h

theorem spaceLen_eq_zero {s : Bytes} : spaceLen s = 0 ↔ ∀ c ∈ whiteSpace, ∀ t, s ≠ utf8 c ++ t := by
  constructor
  · rintro h c hc t rfl
    rw [spaceLen_white hc] at h
    have := utf8_length_pos c
    omega
  · intro h
    by_contra hn
    obtain ⟨c, hc, t, ht⟩ := spaceLen_ne_zero hn
    exact h c hc t ht

theorem spaceLen_nil : spaceLen [] = 0 := rfl

/-- Does not continue a character. -/
def Fresh (t : Bytes) : Prop := ∀ b s, t = b :: s → isCont b = false

theorem fresh_nil : Fresh [] := fun _ _ h => by cases h

theorem fresh_white {c : Nat} (h : c ∈ whiteSpace) (t : Bytes) : Fresh (utf8 c ++ t) := by
  obtain ⟨b, u, hu, hb, -⟩ := white_bytes h
  intro b' s hs
  rw [hu] at hs
  cases hs
  exact hb

/-- What follows does not change whether a text starts with white space. -/
theorem spaceLen_append {s t : Bytes} (hs : s ≠ []) (ht : Fresh t) : spaceLen (s ++ t) = spaceLen s := by
  by_cases h : spaceLen s = 0
  · rw [h, spaceLen_eq_zero]
    rw [spaceLen_eq_zero] at h
    intro c hc u hu
    obtain ⟨b, v, hv, hb, hcont⟩ := white_bytes hc
    rcases List.append_eq_append_iff.mp hu with ⟨a, ha, hb'⟩ | ⟨a, ha, hb'⟩
    · rcases t with _ | ⟨x, t⟩
      · rcases a with _ | ⟨y, a⟩
        · exact h c hc [] (by rw [ha]; simp)
        · simp at hb'
      · rcases a with _ | ⟨y, a⟩
        · exact h c hc [] (by rw [ha]; simp)
        · simp only [List.cons_append, List.cons.injEq] at hb'
          have hx := ht x t rfl
          rw [hv] at ha
          rcases s with _ | ⟨s0, s⟩
          · exact hs rfl
          · simp only [List.cons_append, List.cons.injEq] at ha
            have := hcont y (by rw [ha.2]; simp)
            rw [← hb'.1, hx] at this
            cases this
    · exact h c hc a ha
  · obtain ⟨c, hc, u, rfl⟩ := spaceLen_ne_zero h
    rw [List.append_assoc, spaceLen_white hc, spaceLen_white hc]

/-- White space at the end of a text. -/
theorem lastSpaceLen_white {c : Nat} (h : c ∈ whiteSpace) (t : Bytes) : lastSpaceLen ((utf8 c).reverse ++ t) = (utf8 c).length := by
  unfold lastSpaceLen
  rw [decodeLastRune_white h, if_pos ((isSpaceRune_iff c).mpr h)]

theorem lastSpaceLen_ne_zero {s : Bytes} (h : lastSpaceLen s ≠ 0) : ∃ c ∈ whiteSpace, ∃ t, s = (utf8 c).reverse ++ t := by
  unfold lastSpaceLen at h
  split_ifs at h with hs
  · rcases s with _ | ⟨b, s⟩
    · exact absurd rfl h
    · unfold decodeLastRune at hs
      dsimp only at hs
      by_cases h1 : b.toNat < 0x80
      · rw [if_pos h1, isSpaceRune_iff] at hs
        refine ⟨b.toNat, hs, s, ?_⟩
        unfold utf8
        simp [h1]
      · rw [if_neg h1] at hs
        rcases hf : (s.take 3).findIdx? (fun c => !isCont c) with _ | i <;> rw [hf] at hs
        · dsimp only at hs; exact absurd hs (by decide)
        · dsimp only at hs
          split_ifs at hs with h2
          · rw [isSpaceRune_iff] at hs
            obtain ⟨e1, e2⟩ := decodeRune_utf8 _ (white_ne_bad hs)
            refine ⟨_, hs, (b :: s).drop (i + 2), ?_⟩
            have hlen : (((b :: s).take (i + 2)).reverse).length ≤ i + 2 := by simp
            rw [h2, List.drop_eq_nil_of_le hlen, List.append_nil] at e1
            rw [← e1, List.reverse_reverse, List.take_append_drop]
          · exact absurd hs (by decide)
  · exact absurd rfl h

/-! ### Skipping -/

theorem dropSpace_count (len : Bytes → Nat) (u t : Bytes) : dropSpace len u.length (u ++ t) = dropSpace len 0 t := by
  induction u with
  | nil => rfl
  | cons b u ih => simpa [dropSpace] using ih

theorem dropSpace_step (len : Bytes → Nat) (u t : Bytes) (hu : u ≠ []) (h : len (u ++ t) = u.length) :
    dropSpace len 0 (u ++ t) = dropSpace len 0 t := by
  rcases u with _ | ⟨b, u⟩
  · exact absurd rfl hu
  · rw [List.cons_append] at h ⊢
    rw [dropSpace, h, if_neg (by simp)]
    simpa using dropSpace_count len u t

theorem dropSpace_stop (len : Bytes → Nat) (s : Bytes) (h : len s = 0) : dropSpace len 0 s = s := by
  rcases s with _ | ⟨b, s⟩
  · rfl
  · rw [dropSpace, if_pos h]

theorem skipSpaceAux_count (u t : Bytes) : skipSpaceAux u.length (u ++ t) = skipSpaceAux 0 t := by
  induction u with
  | nil => rfl
  | cons b u ih => simpa [skipSpaceAux] using ih

theorem skipSpace_white {c : Nat} (h : c ∈ whiteSpace) (hn : c ≠ 0x0a) (t : Bytes) : skipSpace (utf8 c ++ t) = skipSpace t := by
  have hl := spaceLen_white h t
  have hne : ∀ c ∈ whiteSpace, c ≠ 0x0a → (utf8 c).headD 0 ≠ 0x0a#8 := by decide
  have hne := hne c h hn
  unfold skipSpace
  rcases hu : utf8 c with _ | ⟨b, u⟩
  · exact absurd hu (utf8_ne_nil c)
  · rw [hu] at hl hne
    rw [List.headD_cons] at hne
    rw [List.cons_append] at hl ⊢
    rw [skipSpaceAux, if_neg hne, hl, if_neg (by simp)]
    simpa using skipSpaceAux_count u t

theorem skipSpace_stop {s : Bytes} (h : spaceLen s = 0) : skipSpace s = some s := by
  unfold skipSpace
  rcases s with _ | ⟨b, s⟩
  · rfl
  · have hn : b ≠ 0x0a#8 := by
      rintro rfl
      have := spaceLen_eq_zero.mp h 0x0a (by decide) s
      exact this rfl
    rw [skipSpaceAux, if_neg hn, if_pos h]

theorem skipSpace_newline (t : Bytes) : skipSpace (utf8 0x0a ++ t) = none := rfl

/-- A byte of its own that is not white space. -/
def solid (b : Byte) : Bool := decide (b.toNat < 0x80) && !isSpaceRune b.toNat

theorem spaceLen_solid {b : Byte} (h : solid b = true) (s : Bytes) : spaceLen (b :: s) = 0 := by
  simp only [solid, Bool.and_eq_true, decide_eq_true_eq, Bool.not_eq_true'] at h
  simp [spaceLen, decodeRune, h.1, h.2]

theorem lastSpaceLen_solid {b : Byte} (h : solid b = true) (s : Bytes) : lastSpaceLen (b :: s) = 0 := by
  simp only [solid, Bool.and_eq_true, decide_eq_true_eq, Bool.not_eq_true'] at h
  simp [lastSpaceLen, decodeLastRune, h.1, h.2]

theorem solid_ne_newline {b : Byte} (h : solid b = true) : b ≠ 0x0a#8 := by
  rintro rfl; revert h; decide

theorem white_nil : White [] := ⟨[], by simp, rfl⟩
theorem blank_nil : Blank [] := ⟨[], by simp, rfl⟩

theorem blank_cons {c : Nat} (h : c ∈ whiteSpace) (hn : c ≠ 0x0a) {w : Bytes} (hw : Blank w) : Blank (utf8 c ++ w) := by
  obtain ⟨cs, h1, rfl⟩ := hw
  refine ⟨c :: cs, fun x hx => ?_, by simp⟩
  rcases List.mem_cons.mp hx with rfl | hx
  · exact ⟨h, hn⟩
  · exact h1 x hx

theorem white_cons {c : Nat} (h : c ∈ whiteSpace) {w : Bytes} (hw : White w) : White (utf8 c ++ w) := by
  obtain ⟨cs, h1, rfl⟩ := hw
  refine ⟨c :: cs, fun x hx => ?_, by simp⟩
  rcases List.mem_cons.mp hx with rfl | hx
  · exact h
  · exact h1 x hx

theorem white_append {v w : Bytes} (hv : White v) (hw : White w) : White (v ++ w) := by
  obtain ⟨cs, h1, rfl⟩ := hv
  obtain ⟨ds, h2, rfl⟩ := hw
  refine ⟨cs ++ ds, fun x hx => ?_, by simp⟩
  rcases List.mem_append.mp hx with hx | hx
  · exact h1 x hx
  · exact h2 x hx

theorem blank_white {w : Bytes} (h : Blank w) : White w := by
  obtain ⟨cs, h1, rfl⟩ := h
  exact ⟨cs, fun x hx => (h1 x hx).1, rfl⟩

theorem white_fresh {w : Bytes} (h : White w) (t : Bytes) (ht : Fresh t) : Fresh (w ++ t) := by
  obtain ⟨cs, h1, rfl⟩ := h
  rcases cs with _ | ⟨c, cs⟩
  · simpa using ht
  · rw [List.flatMap_cons, List.append_assoc]
    exact fresh_white (h1 c (by simp)) _

/-- What blank skipping does. -/
theorem skipSpace_spec (s t : Bytes) : skipSpace s = some t ↔ ∃ w, s = w ++ t ∧ Blank w ∧ spaceLen t = 0 := by
  constructor
  · intro h
    induction hn : s.length using Nat.strong_induction_on generalizing s with
    | _ n ih =>
      subst hn
      by_cases h0 : spaceLen s = 0
      · rw [skipSpace_stop h0] at h
        cases h
        exact ⟨[], rfl, blank_nil, h0⟩
      · obtain ⟨c, hc, u, rfl⟩ := spaceLen_ne_zero h0
        by_cases hn : c = 0x0a
        · subst hn; rw [skipSpace_newline] at h; cases h
        · rw [skipSpace_white hc hn] at h
          have hl := utf8_length_pos c
          obtain ⟨w, rfl, hw, ht⟩ := ih u.length (by rw [List.length_append]; omega) u h rfl
          exact ⟨utf8 c ++ w, by simp, blank_cons hc hn hw, ht⟩
  · rintro ⟨w, rfl, ⟨cs, hcs, rfl⟩, ht⟩
    induction cs with
    | nil => exact skipSpace_stop ht
    | cons c cs ih =>
      rw [List.flatMap_cons, List.append_assoc, skipSpace_white (hcs c (by simp)).1 (hcs c (by simp)).2]
      exact ih fun x hx => hcs x (by simp [hx])

/-! ### Trimming -/

theorem dropSpace_white {w : Bytes} (h : White w) (t : Bytes) : dropSpace spaceLen 0 (w ++ t) = dropSpace spaceLen 0 t := by
  obtain ⟨cs, hcs, rfl⟩ := h
  induction cs with
  | nil => rfl
  | cons c cs ih =>
    rw [List.flatMap_cons, List.append_assoc, dropSpace_step spaceLen _ _ (utf8_ne_nil c) (spaceLen_white (hcs c (by simp)) _)]
    exact ih fun x hx => hcs x (by simp [hx])

theorem dropSpace_lastWhite {w : Bytes} (h : White w) (t : Bytes) :
    dropSpace lastSpaceLen 0 (w.reverse ++ t) = dropSpace lastSpaceLen 0 t := by
  obtain ⟨cs, hcs, rfl⟩ := h
  induction cs generalizing t with
  | nil => rfl
  | cons c cs ih =>
    rw [List.flatMap_cons, List.reverse_append, List.append_assoc, ih _ (fun x hx => hcs x (by simp [hx]))]
    have := dropSpace_step lastSpaceLen (utf8 c).reverse t (by simpa using utf8_ne_nil c)
      (by rw [lastSpaceLen_white (hcs c (by simp))]; simp)
    exact this

theorem dropSpace_spec (s : Bytes) : ∃ w, White w ∧ s = w ++ dropSpace spaceLen 0 s ∧ spaceLen (dropSpace spaceLen 0 s) = 0 := by
  induction hn : s.length using Nat.strong_induction_on generalizing s with
  | _ n ih =>
    subst hn
    by_cases h0 : spaceLen s = 0
    · rw [dropSpace_stop _ _ h0]
      exact ⟨[], white_nil, rfl, h0⟩
    · obtain ⟨c, hc, u, rfl⟩ := spaceLen_ne_zero h0
      have hl := utf8_length_pos c
      obtain ⟨w, hw, h1, h2⟩ := ih u.length (by rw [List.length_append]; omega) u rfl
      rw [dropSpace_step spaceLen _ _ (utf8_ne_nil c) (spaceLen_white hc _)]
      exact ⟨utf8 c ++ w, white_cons hc hw, by rw [List.append_assoc, ← h1], h2⟩

theorem dropLastSpace_spec (s : Bytes) : ∃ w, White w ∧ s = w.reverse ++ dropSpace lastSpaceLen 0 s ∧ lastSpaceLen (dropSpace lastSpaceLen 0 s) = 0 := by
  induction hn : s.length using Nat.strong_induction_on generalizing s with
  | _ n ih =>
    subst hn
    by_cases h0 : lastSpaceLen s = 0
    · rw [dropSpace_stop _ _ h0]
      exact ⟨[], white_nil, rfl, h0⟩
    · obtain ⟨c, hc, u, rfl⟩ := lastSpaceLen_ne_zero h0
      have hl := utf8_length_pos c
      obtain ⟨w, hw, h1, h2⟩ := ih u.length (by rw [List.length_append, List.length_reverse]; omega) u rfl
      rw [dropSpace_step lastSpaceLen (utf8 c).reverse u (by simpa using utf8_ne_nil c) (by rw [lastSpaceLen_white hc]; simp)]
      refine ⟨w ++ utf8 c, white_append hw (by simpa using white_cons hc white_nil), ?_, h2⟩
      rw [List.reverse_append, List.append_assoc, ← h1]

/-- Trimming takes white space off both ends. -/
theorem trimSpace_spec (s : Bytes) : ∃ v w, White v ∧ White w ∧ s = v ++ trimSpace s ++ w := by
  obtain ⟨v, hv, h1, -⟩ := dropSpace_spec s
  obtain ⟨w, hw, h2, -⟩ := dropLastSpace_spec (dropSpace spaceLen 0 s).reverse
  refine ⟨v, w, hv, hw, ?_⟩
  unfold trimSpace
  have h3 := congrArg List.reverse h2
  rw [List.reverse_reverse, List.reverse_append, List.reverse_reverse] at h3
  rw [List.append_assoc, ← h3]
  exact h1

theorem trimSpace_indent {w : Bytes} (h : White w) (s : Bytes) : trimSpace (w ++ s) = trimSpace s := by
  unfold trimSpace; rw [dropSpace_white h]

theorem trimSpace_white {w : Bytes} (h : White w) : trimSpace w = [] := by
  have := trimSpace_indent h []
  rw [List.append_nil] at this
  rw [this]; rfl

/-- The first character stays if it is not white space. -/
theorem trimSpace_head {w : Bytes} (hw : White w) {b : Byte} (hb : solid b = true) (s : Bytes) : (trimSpace (w ++ b :: s)).head? = some b := by
  rw [trimSpace_indent hw]
  unfold trimSpace
  rw [dropSpace_stop _ _ (spaceLen_solid hb s)]
  obtain ⟨v, hv, h1, h2⟩ := dropLastSpace_spec (b :: s).reverse
  have h3 := congrArg List.reverse h1
  rw [List.reverse_reverse, List.reverse_append, List.reverse_reverse] at h3
  rcases hd : (dropSpace lastSpaceLen 0 (b :: s).reverse).reverse with _ | ⟨x, d⟩
  · exfalso
    rw [hd, List.nil_append] at h3
    obtain ⟨cs, hcs, rfl⟩ := hv
    rcases cs with _ | ⟨c, cs⟩
    · cases h3
    · have h4 := spaceLen_solid hb s
      rw [h3, List.flatMap_cons, spaceLen_white (hcs c (by simp))] at h4
      have := utf8_length_pos c
      omega
  · rw [hd] at h3
    cases h3
    rfl

theorem trimSpace_self {b c : Byte} (s : Bytes) (hb : solid b = true) (hc : solid c = true) : trimSpace (b :: s ++ [c]) = b :: s ++ [c] := by
  unfold trimSpace
  rw [List.cons_append, dropSpace_stop _ _ (spaceLen_solid hb _)]
  have : (b :: (s ++ [c])).reverse = c :: (b :: s).reverse := by simp
  rw [this, dropSpace_stop _ _ (lastSpaceLen_solid hc _)]
  simp

/-! ### Fields -/

theorem fieldsAux_count (u acc t : Bytes) : fieldsAux u.length acc (u ++ t) = fieldsAux 0 acc t := by
  induction u with
  | nil => rfl
  | cons b u ih => simpa [fieldsAux] using ih

theorem fieldsAux_char {c : Nat} (h : c ∈ whiteSpace) (acc t : Bytes) :
    fieldsAux 0 acc (utf8 c ++ t) = if acc = [] then fieldsAux 0 [] t else acc.reverse :: fieldsAux 0 [] t := by
  have hl := spaceLen_white h t
  rcases hu : utf8 c with _ | ⟨b, u⟩
  · exact absurd hu (utf8_ne_nil c)
  · rw [hu, List.cons_append] at hl
    rw [List.cons_append, fieldsAux, hl, if_neg (by simp)]
    have := fieldsAux_count u [] t
    simp only [List.length_cons, Nat.add_sub_cancel, this]

theorem fields_white {w : Bytes} (h : White w) (t : Bytes) : fields (w ++ t) = fields t := by
  obtain ⟨cs, hcs, rfl⟩ := h
  unfold fields
  induction cs with
  | nil => rfl
  | cons c cs ih =>
    rw [List.flatMap_cons, List.append_assoc, fieldsAux_char (hcs c (by simp)), if_pos rfl]
    exact ih fun x hx => hcs x (by simp [hx])

/-- Text without white space in it, followed by something that starts a new character, is read as part of a field. -/
theorem fieldsAux_token (f acc t : Bytes) (hf : ∀ c ∈ whiteSpace, ¬ utf8 c <:+: f) (ht : Fresh t) :
    fieldsAux 0 acc (f ++ t) = fieldsAux 0 (f.reverse ++ acc) t := by
  induction f generalizing acc with
  | nil => rfl
  | cons b f ih =>
    have h0 : spaceLen (b :: f ++ t) = 0 := by
      rw [spaceLen_append (by simp) ht, spaceLen_eq_zero]
      intro c hc u hu
      exact hf c hc ⟨[], u, by simp [hu]⟩
    rw [List.cons_append] at h0 ⊢
    rw [fieldsAux, if_pos h0, ih _ (fun c hc hi => hf c hc (hi.trans (List.suffix_cons b f).isInfix))]
    simp

/-- White space at the end does not matter. -/
theorem fields_white_end {w : Bytes} (h : White w) (t : Bytes) : fields (t ++ w) = fields t := by
  have hw := white_fresh h [] fresh_nil
  rw [List.append_nil] at hw
  have nil : ∀ acc, fieldsAux 0 acc w = fieldsAux 0 acc [] := by
    intro acc
    obtain ⟨cs, hcs, rfl⟩ := h
    rcases cs with _ | ⟨c, cs⟩
    · rfl
    · rw [List.flatMap_cons, fieldsAux_char (hcs c (by simp))]
      have := fields_white (w := cs.flatMap utf8) ⟨cs, fun x hx => hcs x (by simp [hx]), rfl⟩ []
      unfold fields at this
      rw [List.append_nil] at this
      rw [this]
      by_cases ha : acc = []
      · rw [if_pos ha, ha]
      · rw [if_neg ha]
        simp [fieldsAux, ha]
  have key : ∀ n (t : Bytes), t.length ≤ n → ∀ acc, fieldsAux 0 acc (t ++ w) = fieldsAux 0 acc t := by
    intro n
    induction n with
    | zero =>
      intro t ht acc
      have : t = [] := List.length_eq_zero_iff.mp (by omega)
      subst this
      exact nil acc
    | succ n ih =>
      intro t ht acc
      rcases t with _ | ⟨b, t⟩
      · exact nil acc
      · by_cases h0 : spaceLen (b :: t) = 0
        · have h1 : spaceLen (b :: t ++ w) = 0 := by rw [spaceLen_append (by simp) hw, h0]
          rw [List.cons_append] at h1 ⊢
          rw [fieldsAux, if_pos h1, fieldsAux, if_pos h0]
          exact ih t (by simp only [List.length_cons] at ht; omega) _
        · obtain ⟨c, hc, u, hu⟩ := spaceLen_ne_zero h0
          rw [hu, List.append_assoc, fieldsAux_char hc, fieldsAux_char hc]
          have hl := utf8_length_pos c
          have := congrArg List.length hu
          rw [List.length_append] at this
          rw [ih u (by omega)]
  exact key t.length t (Nat.le_refl _) []

theorem fields_trimSpace (s : Bytes) : fields (trimSpace s) = fields s := by
  obtain ⟨v, w, hv, hw, h⟩ := trimSpace_spec s
  conv_rhs => rw [h, fields_white_end hw, fields_white hv]

/-! ### ASCII text -/

theorem solid_no_white {f : Bytes} (h : ∀ x ∈ f, solid x = true) : ∀ c ∈ whiteSpace, ¬ utf8 c <:+: f := by
  have key : ∀ c ∈ whiteSpace, solid ((utf8 c).headD 0) = false := by decide
  intro c hc hi
  have hk := key c hc
  rcases hu : utf8 c with _ | ⟨b, u⟩
  · exact utf8_ne_nil c hu
  · rw [hu] at hk hi
    have := h b (hi.subset (by simp))
    rw [List.headD_cons, this] at hk
    cases hk

theorem white_replicate (n : Nat) : White (List.replicate n (ch ' ')) := by
  refine ⟨List.replicate n 0x20, fun c hc => ?_, ?_⟩
  · rw [(List.mem_replicate.mp hc).2]; decide
  · induction n with
    | zero => rfl
    | succ n ih => rw [List.replicate_succ, List.replicate_succ, List.flatMap_cons, ← ih]; rfl

theorem fields_token_spaces (tok : Bytes) (n : Nat) (s : Bytes) (hne : tok ≠ []) (ht : ∀ x ∈ tok, solid x = true) (hn : n ≠ 0) :
    fields (tok ++ (List.replicate n (ch ' ') ++ s)) = tok :: fields s := by
  obtain ⟨n, rfl⟩ : ∃ m, n = m + 1 := ⟨n - 1, by omega⟩
  have e : List.replicate (n + 1) (ch ' ') ++ s = utf8 0x20 ++ (List.replicate n (ch ' ') ++ s) := rfl
  have h1 := fieldsAux_token tok [] (List.replicate (n + 1) (ch ' ') ++ s) (solid_no_white ht) (by rw [e]; exact fresh_white (by decide) _)
  have h2 := fields_white (white_replicate n) s
  unfold fields at h2 ⊢
  rw [h1, e, List.append_nil, fieldsAux_char (by decide), if_neg (by simpa using hne), h2, List.reverse_reverse]

theorem fields_token_end (tok : Bytes) (hne : tok ≠ []) (ht : ∀ x ∈ tok, solid x = true) : fields tok = [tok] := by
  have := fieldsAux_token tok [] [] (solid_no_white ht) fresh_nil
  unfold fields
  rw [List.append_nil] at this
  rw [this]
  simp [fieldsAux, hne]

end Insteon
