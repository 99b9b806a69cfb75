import Verif.Lemmas.JsonString
import Verif.Lemmas.Json

/-
The JSON reader is exactly the grammar.
-/

namespace Insteon.Json
open Spec

/-! ### White space -/

theorem isWs_iff (b : Byte) : isWs b = true ↔ b ∈ [0x20#8, 0x09#8, 0x0a#8, 0x0d#8] := by
  simp [isWs, or_assoc]

theorem skipWs_split (s : Bytes) : ∃ w, JsonSpace w ∧ s = w ++ skipWs s := by
  induction s with
  | nil => exact ⟨[], by simp [JsonSpace], rfl⟩
  | cons b s ih =>
    rw [skipWs]
    by_cases h : isWs b = true
    · rw [if_pos h]
      obtain ⟨w, hw, he⟩ := ih
      refine ⟨b :: w, ?_, by rw [List.cons_append, ← he]⟩
      intro x hx
      rcases List.mem_cons.mp hx with rfl | hx
      · exact (isWs_iff _).mp h
      · exact hw x hx
    · rw [if_neg h]
      exact ⟨[], by simp [JsonSpace], rfl⟩

theorem skipWs_space {w : Bytes} (h : JsonSpace w) (s : Bytes) : skipWs (w ++ s) = skipWs s := by
  induction w with
  | nil => rfl
  | cons b w ih =>
    rw [List.cons_append, skipWs, if_pos ((isWs_iff b).mpr (h b (by simp))), ih fun x hx => h x (by simp [hx])]

theorem skipWs_hit {b : Byte} (h : isWs b = false) (s : Bytes) : skipWs (b :: s) = b :: s := by
  rw [skipWs, if_neg (by simp [h])]

theorem skipWs_nil (s : Bytes) : skipWs s = [] ↔ JsonSpace s := by
  constructor
  · intro h
    obtain ⟨w, hw, he⟩ := skipWs_split s
    rw [h, List.append_nil] at he
    rw [he]; exact hw
  · intro h
    have := skipWs_space h []
    rw [List.append_nil] at this
    exact this

theorem expect_iff {c : Byte} (hc : isWs c = false) (s r : Bytes) : expect c s = some r ↔ ∃ w, JsonSpace w ∧ s = w ++ c :: r := by
  constructor
  · intro h
    obtain ⟨w, hw, he⟩ := skipWs_split s
    unfold expect at h
    rcases hs : skipWs s with _ | ⟨b, t⟩ <;> rw [hs] at h he
    · cases h
    · dsimp only at h
      split_ifs at h with hb
      simp only [Option.some.injEq] at h
      rw [hb, h] at he
      exact ⟨w, hw, he⟩
  · rintro ⟨w, hw, rfl⟩
    unfold expect
    rw [skipWs_space hw, skipWs_hit hc]
    simp

theorem expect_other {c b : Byte} {w : Bytes} (hw : JsonSpace w) (hb : isWs b = false) (hne : b ≠ c) (r : Bytes) : expect c (w ++ b :: r) = none := by
  unfold expect
  rw [skipWs_space hw, skipWs_hit hb]
  simp [hne]

theorem expect_at {c b : Byte} {w : Bytes} (hb : b = c) (hc : isWs c = false) (hw : JsonSpace w) (r : Bytes) : expect c (w ++ b :: r) = some r :=
  (expect_iff hc _ _).mpr ⟨w, hw, by rw [hb]⟩

theorem expect_quote {w : Bytes} (hw : JsonSpace w) (r : Bytes) : expect (ch '"') (w ++ 0x22#8 :: r) = some r := expect_at rfl (by decide) hw r
theorem expect_colon {w : Bytes} (hw : JsonSpace w) (r : Bytes) : expect (ch ':') (w ++ 0x3a#8 :: r) = some r := expect_at rfl (by decide) hw r
theorem expect_comma {w : Bytes} (hw : JsonSpace w) (r : Bytes) : expect (ch ',') (w ++ 0x2c#8 :: r) = some r := expect_at rfl (by decide) hw r
theorem expect_brace {w : Bytes} (hw : JsonSpace w) (r : Bytes) : expect (ch '}') (w ++ 0x7d#8 :: r) = some r := expect_at rfl (by decide) hw r
theorem expect_bracket {w : Bytes} (hw : JsonSpace w) (r : Bytes) : expect (ch ']') (w ++ 0x5d#8 :: r) = some r := expect_at rfl (by decide) hw r

/-! ### Numbers -/

/-- A decimal digit. -/
def IsDigit (b : Byte) : Prop := 48 ≤ b.toNat ∧ b.toNat ≤ 57

/-- What may follow a number directly. -/
def Stop (s : Bytes) : Prop := ∀ b ∈ s.head?, ¬ IsDigit b ∧ b ≠ ch '.' ∧ b ≠ ch 'e' ∧ b ≠ ch 'E'

theorem stop_cons {b : Byte} (s : Bytes) (h : ¬ IsDigit b ∧ b ≠ ch '.' ∧ b ≠ ch 'e' ∧ b ≠ ch 'E') : Stop (b :: s) := by
  intro c hc
  simp only [List.head?_cons, Option.mem_def, Option.some.injEq] at hc
  exact hc ▸ h

theorem stop_space {w : Bytes} (hw : JsonSpace w) (s : Bytes) (hs : Stop s) : Stop (w ++ s) := by
  rcases w with _ | ⟨b, w⟩
  · exact hs
  · refine stop_cons _ ?_
    have := hw b (by simp)
    have key : ∀ b ∈ [0x20#8, 0x09#8, 0x0a#8, 0x0d#8], ¬ (48 ≤ b.toNat ∧ b.toNat ≤ 57) ∧ b ≠ ch '.' ∧ b ≠ ch 'e' ∧ b ≠ ch 'E' := by decide
    exact key b this

theorem readInteger_iff (s i r : Bytes) : readInteger s = some (i, r) ↔ s = i ++ r ∧ PlainDigits i ∧ ∀ b ∈ r.head?, ¬ IsDigit b := by
  obtain ⟨h1, h2, h3⟩ := takeDec_spec s
  constructor
  · intro h
    unfold readInteger at h
    dsimp only at h
    split_ifs at h with hc
    rw [not_or, not_and] at hc
    simp only [Option.some.injEq] at h
    rw [h] at h1 h2 h3 hc
    refine ⟨h1, ⟨⟨hc.1, h2⟩, ?_⟩, h3⟩
    intro h0
    have hl : ¬ 1 < i.length := fun hl => hc.2 hl h0
    rcases i with _ | ⟨b, _ | ⟨c, i⟩⟩
    · cases h0
    · simpa using h0
    · simp at hl
  · rintro ⟨rfl, ⟨⟨hne, hd⟩, h0⟩, hr⟩
    unfold readInteger
    rw [takeDec_of i r hd hr]
    dsimp only
    rw [if_neg]
    rintro (h | ⟨hl, h⟩)
    · exact hne h
    · rw [h0 h] at hl; simp at hl

/-- The part of a number after the point, with the point. -/
def FractionText (f : Bytes) : Prop := f = [] ∨ ∃ d, Digits d ∧ f = ascii "." ++ d

/-- An exponent. -/
def ExponentText (e : Bytes) : Prop :=
  e = [] ∨ ∃ c g d, (c = ascii "e" ∨ c = ascii "E") ∧ (g = [] ∨ g = ascii "+" ∨ g = ascii "-") ∧ Digits d ∧ e = c ++ g ++ d

theorem readFraction_sound (s f r : Bytes) (h : readFraction s = some (f, r)) : s = f ++ r ∧ FractionText f := by
  unfold readFraction at h
  rcases s with _ | ⟨b, t⟩
  · simp only [Option.some.injEq, Prod.mk.injEq] at h
    obtain ⟨rfl, rfl⟩ := h
    exact ⟨rfl, Or.inl rfl⟩
  · dsimp only at h
    split_ifs at h with h1 h2
    · simp only [Option.some.injEq, Prod.mk.injEq] at h
      obtain ⟨rfl, rfl⟩ := h
      obtain ⟨e1, e2, -⟩ := takeDec_spec t
      exact ⟨by rw [List.cons_append, ← e1], Or.inr ⟨_, ⟨h2, e2⟩, by rw [h1]; rfl⟩⟩
    · simp only [Option.some.injEq, Prod.mk.injEq] at h
      obtain ⟨rfl, rfl⟩ := h
      exact ⟨rfl, Or.inl rfl⟩

theorem readFraction_complete (f r : Bytes) (hf : FractionText f) (h1 : ∀ b ∈ r.head?, ¬ IsDigit b ∧ b ≠ ch '.') : readFraction (f ++ r) = some (f, r) := by
  rcases hf with rfl | ⟨d, ⟨hne, hd⟩, rfl⟩
  · unfold readFraction
    rcases r with _ | ⟨b, t⟩
    · rfl
    · rw [List.nil_append]
      dsimp only
      rw [if_neg (h1 b (by simp)).2]
  · have : ascii "." ++ d ++ r = ch '.' :: (d ++ r) := by rfl
    rw [this]
    unfold readFraction
    dsimp only
    rw [if_pos rfl, takeDec_of d r hd fun b hb => (h1 b hb).1, if_neg hne]
    rfl

theorem readSign_spec (s : Bytes) : s = (readSign s).1 ++ (readSign s).2 ∧
    ((readSign s).1 = [] ∨ (readSign s).1 = ascii "+" ∨ (readSign s).1 = ascii "-") := by
  unfold readSign
  rcases s with _ | ⟨b, t⟩
  · exact ⟨rfl, Or.inl rfl⟩
  · dsimp only
    split_ifs with h
    · refine ⟨rfl, Or.inr ?_⟩
      rcases h with rfl | rfl
      · exact Or.inl rfl
      · exact Or.inr rfl
    · exact ⟨rfl, Or.inl rfl⟩

theorem readExponent_sound (s e r : Bytes) (h : readExponent s = some (e, r)) : s = e ++ r ∧ ExponentText e := by
  unfold readExponent at h
  rcases s with _ | ⟨b, t⟩
  · simp only [Option.some.injEq, Prod.mk.injEq] at h
    obtain ⟨rfl, rfl⟩ := h
    exact ⟨rfl, Or.inl rfl⟩
  · dsimp only at h
    split_ifs at h with h1 h2
    · simp only [Option.some.injEq, Prod.mk.injEq] at h
      obtain ⟨rfl, rfl⟩ := h
      obtain ⟨e1, e2, -⟩ := takeDec_spec (readSign t).2
      obtain ⟨g1, g2⟩ := readSign_spec t
      refine ⟨?_, Or.inr ⟨[b], (readSign t).1, (takeDec (readSign t).2).1, ?_, g2, ⟨h2, e2⟩, by simp⟩⟩
      · rw [List.cons_append, List.cons_append, List.append_assoc, ← e1, ← g1]
      · rcases h1 with rfl | rfl
        · exact Or.inl rfl
        · exact Or.inr rfl
    · simp only [Option.some.injEq, Prod.mk.injEq] at h
      obtain ⟨rfl, rfl⟩ := h
      exact ⟨rfl, Or.inl rfl⟩

theorem readSign_digits (d r : Bytes) (hd : Digits d) : readSign (d ++ r) = ([], d ++ r) := by
  obtain ⟨hne, hd⟩ := hd
  rcases d with _ | ⟨b, d⟩
  · exact absurd rfl hne
  · have := hd b (by simp)
    unfold readSign
    rw [List.cons_append]
    dsimp only
    rw [if_neg]
    rintro (rfl | rfl)
    · exact absurd this (by decide)
    · exact absurd this (by decide)

theorem readExponent_complete (e r : Bytes) (he : ExponentText e) (hr : Stop r) : readExponent (e ++ r) = some (e, r) := by
  rcases he with rfl | ⟨c, g, d, hc, hg, hd, rfl⟩
  · unfold readExponent
    rcases r with _ | ⟨b, t⟩
    · rfl
    · rw [List.nil_append]
      dsimp only
      have := hr b (by simp)
      rw [if_neg (by rintro (h | h); exacts [this.2.2.1 h, this.2.2.2 h])]
  · obtain ⟨c, rfl, hc'⟩ : ∃ b, c = [b] ∧ (b = ch 'e' ∨ b = ch 'E') := by
      rcases hc with rfl | rfl
      · exact ⟨_, rfl, Or.inl rfl⟩
      · exact ⟨_, rfl, Or.inr rfl⟩
    have hsign : readSign (g ++ (d ++ r)) = (g, d ++ r) := by
      rcases hg with rfl | rfl | rfl
      · exact readSign_digits d r hd
      · rfl
      · rfl
    have : [c] ++ g ++ d ++ r = c :: (g ++ (d ++ r)) := by simp
    rw [this]
    unfold readExponent
    dsimp only
    rw [if_pos hc', hsign]
    dsimp only
    rw [takeDec_of d r hd.2 fun b hb => (hr b hb).1, if_neg hd.1]
    simp

theorem readUnsigned_sound (s t r : Bytes) (h : readUnsigned s = some (t, r)) :
    ∃ i f e, t = i ++ f ++ e ∧ s = t ++ r ∧ PlainDigits i ∧ FractionText f ∧ ExponentText e := by
  unfold readUnsigned at h
  rcases h1 : readInteger s with _ | ⟨i, s1⟩ <;> rw [h1] at h
  · cases h
  dsimp only at h
  rcases h2 : readFraction s1 with _ | ⟨f, s2⟩ <;> rw [h2] at h
  · cases h
  dsimp only at h
  rcases h3 : readExponent s2 with _ | ⟨e, s3⟩ <;> rw [h3] at h
  · cases h
  simp only [Option.some.injEq, Prod.mk.injEq] at h
  obtain ⟨rfl, rfl⟩ := h
  obtain ⟨rfl, hi, -⟩ := (readInteger_iff _ _ _).mp h1
  obtain ⟨rfl, hf⟩ := readFraction_sound _ _ _ h2
  obtain ⟨rfl, he⟩ := readExponent_sound _ _ _ h3
  exact ⟨i, f, e, rfl, by simp, hi, hf, he⟩

theorem exponent_head {e : Bytes} (he : ExponentText e) (r : Bytes) (hr : Stop r) : ∀ b ∈ (e ++ r).head?, ¬ IsDigit b ∧ b ≠ ch '.' := by
  intro b hb
  rcases he with rfl | ⟨c, g, d, hc, -, -, rfl⟩
  · have := hr b hb
    exact ⟨this.1, this.2.1⟩
  · have hb : b = ch 'e' ∨ b = ch 'E' := by
      rcases hc with rfl | rfl
      · left
        have : some (ch 'e') = some b := hb
        exact (Option.some.inj this).symm
      · right
        have : some (ch 'E') = some b := hb
        exact (Option.some.inj this).symm
    rcases hb with rfl | rfl
    · exact ⟨by unfold IsDigit; decide, by decide⟩
    · exact ⟨by unfold IsDigit; decide, by decide⟩

theorem readUnsigned_complete (i f e r : Bytes) (hi : PlainDigits i) (hf : FractionText f) (he : ExponentText e) (hr : Stop r) :
    readUnsigned (i ++ f ++ e ++ r) = some (i ++ f ++ e, r) := by
  have h3 := readExponent_complete e r he hr
  have h2 := readFraction_complete f (e ++ r) hf (exponent_head he r hr)
  have h1 : readInteger (i ++ (f ++ (e ++ r))) = some (i, f ++ (e ++ r)) := by
    refine (readInteger_iff _ _ _).mpr ⟨rfl, hi, ?_⟩
    intro b hb
    rcases hf with rfl | ⟨d, -, rfl⟩
    · exact (exponent_head he r hr b hb).1
    · have : some (ch '.') = some b := hb
      rw [← Option.some.inj this]; unfold IsDigit; decide
  unfold readUnsigned
  rw [List.append_assoc, List.append_assoc, h1]
  dsimp only
  rw [h2]
  dsimp only
  rw [h3]

theorem readNumber_sound (s t r : Bytes) (h : readNumber s = some (t, r)) : s = t ++ r ∧ NumberText t := by
  unfold readNumber at h
  rcases s with _ | ⟨b, s⟩
  · cases h
  dsimp only at h
  split_ifs at h with hb
  · simp only [Option.map_eq_some_iff] at h
    obtain ⟨⟨t', r'⟩, h, he⟩ := h
    simp only [Prod.mk.injEq] at he
    obtain ⟨rfl, rfl⟩ := he
    obtain ⟨i, f, e, rfl, rfl, hi, hf, he⟩ := readUnsigned_sound _ _ _ h
    exact ⟨by rw [List.cons_append], ascii "-", i, f, e, by rw [hb]; simp [ascii, ch], Or.inr rfl, hi, hf, he⟩
  · obtain ⟨i, f, e, rfl, h, hi, hf, he⟩ := readUnsigned_sound _ _ _ h
    exact ⟨h, [], i, f, e, by simp, Or.inl rfl, hi, hf, he⟩

theorem digit_head {i : Bytes} (hi : PlainDigits i) : ∃ b t, i = b :: t ∧ IsDigit b := by
  obtain ⟨⟨hne, hd⟩, -⟩ := hi
  rcases i with _ | ⟨b, t⟩
  · exact absurd rfl hne
  · exact ⟨b, t, rfl, hd b (by simp)⟩

theorem readNumber_complete (t r : Bytes) (h : NumberText t) (hr : Stop r) : readNumber (t ++ r) = some (t, r) := by
  obtain ⟨sign, i, f, e, rfl, hs, hi, hf, he⟩ := h
  have key := readUnsigned_complete i f e r hi hf he hr
  rcases hs with rfl | rfl
  · obtain ⟨b, i', rfl, hb⟩ := digit_head hi
    have hne : b ≠ ch '-' := by rintro rfl; revert hb; unfold IsDigit; decide
    simp only [List.nil_append, List.cons_append] at key ⊢
    unfold readNumber
    dsimp only
    rw [if_neg hne]
    exact key
  · have : ascii "-" ++ i ++ f ++ e ++ r = ch '-' :: (i ++ f ++ e ++ r) := by simp [ascii, ch]
    rw [this]
    unfold readNumber
    dsimp only
    rw [if_pos rfl, key]
    simp [ascii, ch]

/-- The first character of a number. -/
theorem number_head {t : Bytes} (h : NumberText t) : ∃ b s, t = b :: s ∧ (b = ch '-' ∨ IsDigit b) := by
  obtain ⟨sign, i, f, e, rfl, hs, hi, hf, he⟩ := h
  obtain ⟨b, i', rfl, hb⟩ := digit_head hi
  rcases hs with rfl | rfl
  · exact ⟨b, i' ++ f ++ e, by simp, Or.inr hb⟩
  · exact ⟨ch '-', (b :: i') ++ f ++ e, by simp [ascii, ch], Or.inl rfl⟩

/-! ### Values -/

theorem readWord_iff (w s r : Bytes) : readWord w s = some r ↔ s = w ++ r := by
  unfold readWord
  constructor
  · intro h
    split_ifs at h with hw
    simp only [Option.some.injEq] at h
    rw [← h]
    conv_lhs => rw [← List.take_append_drop w.length s]
    rw [hw]
  · rintro rfl
    simp

/-- What a value starts with. -/
theorem value_head {n : Nat} {t : Bytes} {v : Value} (h : ValueText n t v) :
    ∃ b s, t = b :: s ∧ isWs b = false ∧ b ≠ ch ']' ∧ (b ≠ ch '-' → ¬ IsDigit b → ∀ x, v ≠ .num x) := by
  cases h with
  | null => exact ⟨_, _, rfl, by decide, by decide, fun _ _ x h => by cases h⟩
  | yes => exact ⟨_, _, rfl, by decide, by decide, fun _ _ x h => by cases h⟩
  | no => exact ⟨_, _, rfl, by decide, by decide, fun _ _ x h => by cases h⟩
  | num _ h =>
    obtain ⟨b, s, rfl, hb⟩ := number_head h
    refine ⟨b, s, rfl, ?_, ?_, fun h1 h2 => (hb.elim h1 h2).elim⟩
    · rcases hb with rfl | hb
      · decide
      · clear h; revert b; unfold IsDigit; decide +kernel
    · rintro rfl
      rcases hb with hb | hb
      · exact absurd hb (by decide)
      · revert hb; unfold IsDigit; decide
  | str => exact ⟨_, _, rfl, by decide, by decide, fun _ _ x h => by cases h⟩
  | emptyObj => exact ⟨_, _, rfl, by decide, by decide, fun _ _ x h => by cases h⟩
  | obj => exact ⟨_, _, rfl, by decide, by decide, fun _ _ x h => by cases h⟩
  | emptyArr => exact ⟨_, _, rfl, by decide, by decide, fun _ _ x h => by cases h⟩
  | arr => exact ⟨_, _, rfl, by decide, by decide, fun _ _ x h => by cases h⟩

theorem members_length : ∀ {n : Nat} {s : Bytes} {ms : List (Bytes × Value)}, MembersText n s ms → ms.length ≤ s.length
  | _, _, _, .one .. => by simp; omega
  | _, _, _, .more (hs := hs) .. => by
    have := members_length hs
    simp only [List.length_cons, List.length_append]
    omega

theorem elements_length : ∀ {n : Nat} {s : Bytes} {vs : List Value}, ElementsText n s vs → vs.length ≤ s.length
  | _, _, _, .one (hv := hv) .. => by
    obtain ⟨b, t, rfl, -⟩ := value_head hv
    simp; omega
  | _, _, _, .more (hs := hs) .. => by
    have := elements_length hs
    simp only [List.length_cons, List.length_append]
    omega

theorem members_head {n : Nat} {s : Bytes} {ms : List (Bytes × Value)} (h : MembersText n s ms) :
    ∃ w t, JsonSpace w ∧ s = w ++ ch '"' :: t := by
  cases h with
  | one _ h1 => exact ⟨_, _, h1, rfl⟩
  | more _ h1 => exact ⟨_, _, h1, rfl⟩

theorem elements_head {n : Nat} {s : Bytes} {vs : List Value} (h : ElementsText n s vs) :
    ∃ w b t, JsonSpace w ∧ s = w ++ b :: t ∧ isWs b = false ∧ b ≠ ch ']' := by
  cases h with
  | one _ h1 hv =>
    obtain ⟨b, t, rfl, hb, hb', -⟩ := value_head hv
    exact ⟨_, b, _, h1, rfl, hb, hb'⟩
  | more _ h1 hv =>
    obtain ⟨b, t, rfl, hb, hb', -⟩ := value_head hv
    exact ⟨_, b, _, h1, rfl, hb, hb'⟩

theorem comma_stop (s : Bytes) : Stop (0x2c#8 :: s) := stop_cons _ ⟨by unfold IsDigit; decide, by decide, by decide, by decide⟩
theorem brace_stop (s : Bytes) : Stop (0x7d#8 :: s) := stop_cons _ ⟨by unfold IsDigit; decide, by decide, by decide, by decide⟩
theorem bracket_stop (s : Bytes) : Stop (0x5d#8 :: s) := stop_cons _ ⟨by unfold IsDigit; decide, by decide, by decide, by decide⟩

/-- A value after white space is found. -/
theorem skip_value {n : Nat} {t : Bytes} {v : Value} (h : ValueText n t v) {w : Bytes} (hw : JsonSpace w) (r : Bytes) :
    skipWs (w ++ (t ++ r)) = t ++ r := by
  obtain ⟨b, s, rfl, hb, -⟩ := value_head h
  rw [skipWs_space hw, List.cons_append, skipWs_hit hb]

theorem readScalar_complete_num {s : Bytes} (h : NumberText s) (r : Bytes) (hr : Stop r) : readScalar (s ++ r) = some (.num s, r) := by
  have key := readNumber_complete s r h hr
  obtain ⟨b, t, rfl, hb⟩ := number_head h
  have hne : b ≠ ch '"' ∧ b ≠ ch 'n' ∧ b ≠ ch 't' ∧ b ≠ ch 'f' := by
    rcases hb with rfl | hb
    · decide
    · clear key h; revert b; unfold IsDigit; decide +kernel
  rw [List.cons_append] at key ⊢
  unfold readScalar
  dsimp only
  rw [if_neg hne.1, if_neg hne.2.1, if_neg hne.2.2.1, if_neg hne.2.2.2, key]
  rfl

theorem readValue_scalar (n : Nat) (b : Byte) (t : Bytes) (h1 : b ≠ ch '{') (h2 : b ≠ ch '[') : readValue n (b :: t) = readScalar (b :: t) := by
  rw [readValue.eq_def]
  dsimp only
  rw [if_neg h1, if_neg h2]

theorem readValue_obj (n : Nat) (t : Bytes) : readValue (n + 1) (ch '{' :: t) = (readObject (readValue n) t).map fun r => (.obj r.1, r.2) := by
  rw [readValue.eq_def]
  rfl

theorem readValue_arr (n : Nat) (t : Bytes) : readValue (n + 1) (ch '[' :: t) = (readArray (readValue n) t).map fun r => (.arr r.1, r.2) := by
  rw [readValue.eq_def]
  rfl

mutual
theorem value_complete {n : Nat} {t : Bytes} {v : Value} (h : ValueText n t v) (r : Bytes) (hr : (∃ x, v = .num x) → Stop r) :
    readValue n (t ++ r) = some (v, r) := by
  cases h with
  | null =>
    rw [show ascii "null" ++ r = ch 'n' :: (ascii "ull" ++ r) from rfl, readValue_scalar _ _ _ (by decide) (by decide)]
    rfl
  | yes =>
    rw [show ascii "true" ++ r = ch 't' :: (ascii "rue" ++ r) from rfl, readValue_scalar _ _ _ (by decide) (by decide)]
    rfl
  | no =>
    rw [show ascii "false" ++ r = ch 'f' :: (ascii "alse" ++ r) from rfl, readValue_scalar _ _ _ (by decide) (by decide)]
    rfl
  | num _ h =>
    have key := readScalar_complete_num h r (hr ⟨_, rfl⟩)
    obtain ⟨b, s, rfl, hb⟩ := number_head h
    have hne : b ≠ ch '{' ∧ b ≠ ch '[' := by
      rcases hb with rfl | hb
      · decide
      · clear key h hr; revert b; unfold IsDigit; decide +kernel
    rw [List.cons_append, readValue_scalar _ _ _ hne.1 hne.2]
    exact key
  | @str _ s v h =>
    rw [List.cons_append, readValue_scalar _ _ _ (by decide) (by decide)]
    unfold readScalar
    dsimp only
    rw [if_pos (by rfl), (readString_iff _ v r).mpr ⟨s, by simp, h⟩]
    rfl
  | emptyObj _ h =>
    rw [List.cons_append, show (0x7b#8 : Byte) = ch '{' from rfl, readValue_obj, readObject,
      (expect_iff (by decide) _ r).mpr ⟨_, h, by simp; rfl⟩]
    rfl
  | @obj n s ms h =>
    obtain ⟨w, t, hw, ht⟩ := members_head h
    have hl := members_length h
    have he : expect (ch '}') (s ++ [0x7d#8] ++ r) = none := by
      rw [ht, List.append_assoc, List.append_assoc, List.cons_append]
      exact expect_other hw (by decide) (by decide) _
    rw [List.cons_append, show (0x7b#8 : Byte) = ch '{' from rfl, readValue_obj, readObject, he]
    dsimp only
    have e : s ++ [0x7d#8] ++ r = s ++ 0x7d#8 :: r := by simp
    rw [e, members_complete h _ (by rw [List.length_append]; omega) r]
    rfl
  | emptyArr _ h =>
    rw [List.cons_append, show (0x5b#8 : Byte) = ch '[' from rfl, readValue_arr, readArray,
      (expect_iff (by decide) _ r).mpr ⟨_, h, by simp; rfl⟩]
    rfl
  | @arr n s vs h =>
    obtain ⟨w, b, t, hw, ht, hb, hb'⟩ := elements_head h
    have hl := elements_length h
    have he : expect (ch ']') (s ++ [0x5d#8] ++ r) = none := by
      rw [ht, List.append_assoc, List.append_assoc, List.cons_append]
      exact expect_other hw hb hb' _
    rw [List.cons_append, show (0x5b#8 : Byte) = ch '[' from rfl, readValue_arr, readArray, he]
    dsimp only
    have e : s ++ [0x5d#8] ++ r = s ++ 0x5d#8 :: r := by simp
    rw [e, elements_complete h _ (by rw [List.length_append]; omega) r]
    rfl

theorem members_complete {n : Nat} {s : Bytes} {ms : List (Bytes × Value)} (h : MembersText n s ms) (fuel : Nat) (hf : ms.length ≤ fuel) (r : Bytes) :
    readMembers (readValue n) fuel (s ++ 0x7d#8 :: r) = some (ms, r) := by
  cases h with
  | @one _ w1 k w2 w3 t w4 key v h1 hk h2 h3 hv h4 =>
    rcases fuel with _ | fuel
    · simp at hf
    have hc := value_complete hv (w4 ++ 0x7d#8 :: r) (fun _ => stop_space h4 _ (brace_stop r))
    simp only [List.append_assoc, List.cons_append]
    rw [readMembers, expect_quote h1]
    dsimp only
    rw [(readString_iff _ key _).mpr ⟨k, rfl, hk⟩]
    dsimp only
    rw [expect_colon h2]
    dsimp only
    rw [skip_value hv h3, hc]
    dsimp only
    rw [expect_other h4 (by decide) (by decide)]
    dsimp only
    rw [expect_brace h4]
  | @more _ w1 k w2 w3 t w4 key v s ms h1 hk h2 h3 hv h4 hs =>
    rcases fuel with _ | fuel
    · simp at hf
    have hc := value_complete hv (w4 ++ 0x2c#8 :: (s ++ 0x7d#8 :: r)) (fun _ => stop_space h4 _ (comma_stop _))
    have hm := members_complete hs fuel (by simp at hf; omega) r
    simp only [List.append_assoc, List.cons_append]
    rw [readMembers, expect_quote h1]
    dsimp only
    rw [(readString_iff _ key _).mpr ⟨k, rfl, hk⟩]
    dsimp only
    rw [expect_colon h2]
    dsimp only
    rw [skip_value hv h3, hc]
    dsimp only
    rw [expect_comma h4]
    dsimp only
    rw [hm]

theorem elements_complete {n : Nat} {s : Bytes} {vs : List Value} (h : ElementsText n s vs) (fuel : Nat) (hf : vs.length ≤ fuel) (r : Bytes) :
    readElements (readValue n) fuel (s ++ 0x5d#8 :: r) = some (vs, r) := by
  cases h with
  | @one _ w1 t w2 v h1 hv h2 =>
    rcases fuel with _ | fuel
    · simp at hf
    have hc := value_complete hv (w2 ++ 0x5d#8 :: r) (fun _ => stop_space h2 _ (bracket_stop r))
    simp only [List.append_assoc]
    rw [readElements, skip_value hv h1, hc]
    dsimp only
    rw [expect_other h2 (by decide) (by decide)]
    dsimp only
    rw [expect_bracket h2]
  | @more _ w1 t w2 v s vs h1 hv h2 hs =>
    rcases fuel with _ | fuel
    · simp at hf
    have hc := value_complete hv (w2 ++ 0x2c#8 :: (s ++ 0x5d#8 :: r)) (fun _ => stop_space h2 _ (comma_stop _))
    have hm := elements_complete hs fuel (by simp at hf; omega) r
    simp only [List.append_assoc, List.cons_append]
    rw [readElements, skip_value hv h1, hc]
    dsimp only
    rw [expect_comma h2]
    dsimp only
    rw [hm]
end

/-! ### Nothing else is read -/

theorem readScalar_sound (n : Nat) (s r : Bytes) (v : Value) (h : readScalar s = some (v, r)) : ∃ t, s = t ++ r ∧ ValueText n t v := by
  unfold readScalar at h
  rcases s with _ | ⟨b, s⟩
  · cases h
  dsimp only at h
  split_ifs at h with h1 h2 h3 h4 <;> simp only [Option.map_eq_some_iff] at h
  · obtain ⟨⟨x, r'⟩, h, he⟩ := h
    simp only [Prod.mk.injEq] at he
    obtain ⟨rfl, rfl⟩ := he
    obtain ⟨t, rfl, ht⟩ := (readString_iff _ _ _).mp h
    exact ⟨_, by rw [h1]; simp; rfl, .str n ht⟩
  · obtain ⟨r', h, he⟩ := h
    simp only [Prod.mk.injEq] at he
    obtain ⟨rfl, rfl⟩ := he
    exact ⟨_, (readWord_iff _ _ _).mp h, .null n⟩
  · obtain ⟨r', h, he⟩ := h
    simp only [Prod.mk.injEq] at he
    obtain ⟨rfl, rfl⟩ := he
    exact ⟨_, (readWord_iff _ _ _).mp h, .yes n⟩
  · obtain ⟨r', h, he⟩ := h
    simp only [Prod.mk.injEq] at he
    obtain ⟨rfl, rfl⟩ := he
    exact ⟨_, (readWord_iff _ _ _).mp h, .no n⟩
  · obtain ⟨⟨x, r'⟩, h, he⟩ := h
    simp only [Prod.mk.injEq] at he
    obtain ⟨rfl, rfl⟩ := he
    obtain ⟨e, ht⟩ := readNumber_sound _ _ _ h
    exact ⟨x, e, .num n ht⟩

/-- The reader keeps to the grammar. -/
def Sound (n : Nat) : Prop := ∀ (s r : Bytes) (v : Value), readValue n s = some (v, r) → ∃ t, s = t ++ r ∧ ValueText n t v

theorem members_sound {n : Nat} (hs : Sound n) (fuel : Nat) (s r : Bytes) (ms : List (Bytes × Value))
    (h : readMembers (readValue n) fuel s = some (ms, r)) : ∃ t, s = t ++ 0x7d#8 :: r ∧ MembersText n t ms := by
  induction fuel generalizing s ms with
  | zero => cases h
  | succ fuel ih =>
    rw [readMembers] at h
    rcases e1 : expect (ch '"') s with _ | s1 <;> rw [e1] at h
    · cases h
    dsimp only at h
    rcases e2 : readString s1 with _ | ⟨k, s2⟩ <;> rw [e2] at h
    · cases h
    dsimp only at h
    rcases e3 : expect (ch ':') s2 with _ | s3 <;> rw [e3] at h
    · cases h
    dsimp only at h
    rcases e4 : readValue n (skipWs s3) with _ | ⟨v, s4⟩ <;> rw [e4] at h
    · cases h
    dsimp only at h
    obtain ⟨w1, hw1, rfl⟩ := (expect_iff (by decide) _ _).mp e1
    obtain ⟨k', rfl, hk⟩ := (readString_iff _ _ _).mp e2
    obtain ⟨w2, hw2, rfl⟩ := (expect_iff (by decide) _ _).mp e3
    obtain ⟨w3, hw3, e5⟩ := skipWs_split s3
    obtain ⟨t, e6, hv⟩ := hs _ _ _ e4
    rw [e6] at e5
    subst e5
    rcases e7 : expect (ch ',') s4 with _ | s5 <;> rw [e7] at h <;> dsimp only at h
    · rcases e8 : expect (ch '}') s4 with _ | s5 <;> rw [e8] at h
      · cases h
      simp only [Option.some.injEq, Prod.mk.injEq] at h
      obtain ⟨rfl, rfl⟩ := h
      obtain ⟨w4, hw4, rfl⟩ := (expect_iff (by decide) _ _).mp e8
      exact ⟨_, by simp; decide, .one n hw1 hk hw2 hw3 hv hw4⟩
    · rcases e8 : readMembers (readValue n) fuel s5 with _ | ⟨ms', s6⟩ <;> rw [e8] at h
      · cases h
      simp only [Option.some.injEq, Prod.mk.injEq] at h
      obtain ⟨rfl, rfl⟩ := h
      obtain ⟨w4, hw4, rfl⟩ := (expect_iff (by decide) _ _).mp e7
      obtain ⟨t', rfl, hm⟩ := ih _ _ e8
      exact ⟨_, by simp; decide, .more n hw1 hk hw2 hw3 hv hw4 hm⟩

theorem elements_sound {n : Nat} (hs : Sound n) (fuel : Nat) (s r : Bytes) (vs : List Value)
    (h : readElements (readValue n) fuel s = some (vs, r)) : ∃ t, s = t ++ 0x5d#8 :: r ∧ ElementsText n t vs := by
  induction fuel generalizing s vs with
  | zero => cases h
  | succ fuel ih =>
    rw [readElements] at h
    rcases e4 : readValue n (skipWs s) with _ | ⟨v, s4⟩ <;> rw [e4] at h
    · cases h
    dsimp only at h
    obtain ⟨w3, hw3, e5⟩ := skipWs_split s
    obtain ⟨t, e6, hv⟩ := hs _ _ _ e4
    rw [e6] at e5
    subst e5
    rcases e7 : expect (ch ',') s4 with _ | s5 <;> rw [e7] at h <;> dsimp only at h
    · rcases e8 : expect (ch ']') s4 with _ | s5 <;> rw [e8] at h
      · cases h
      simp only [Option.some.injEq, Prod.mk.injEq] at h
      obtain ⟨rfl, rfl⟩ := h
      obtain ⟨w4, hw4, rfl⟩ := (expect_iff (by decide) _ _).mp e8
      exact ⟨_, by simp; decide, .one n hw3 hv hw4⟩
    · rcases e8 : readElements (readValue n) fuel s5 with _ | ⟨vs', s6⟩ <;> rw [e8] at h
      · cases h
      simp only [Option.some.injEq, Prod.mk.injEq] at h
      obtain ⟨rfl, rfl⟩ := h
      obtain ⟨w4, hw4, rfl⟩ := (expect_iff (by decide) _ _).mp e7
      obtain ⟨t', rfl, hm⟩ := ih _ _ e8
      exact ⟨_, by simp; decide, .more n hw3 hv hw4 hm⟩

theorem value_sound (n : Nat) : Sound n := by
  induction n with
  | zero =>
    intro s r v h
    rcases s with _ | ⟨b, t⟩
    · cases h
    by_cases h1 : b = ch '{'
    · subst h1; cases h
    by_cases h2 : b = ch '['
    · subst h2; cases h
    rw [readValue_scalar _ _ _ h1 h2] at h
    exact readScalar_sound 0 _ _ _ h
  | succ n ih =>
    intro s r v h
    rcases s with _ | ⟨b, t⟩
    · cases h
    by_cases h1 : b = ch '{'
    · subst h1
      rw [readValue_obj] at h
      simp only [Option.map_eq_some_iff] at h
      obtain ⟨⟨ms, r'⟩, h, he⟩ := h
      simp only [Prod.mk.injEq] at he
      obtain ⟨rfl, rfl⟩ := he
      unfold readObject at h
      rcases e : expect (ch '}') t with _ | s' <;> rw [e] at h <;> dsimp only at h
      · obtain ⟨x, rfl, hx⟩ := members_sound ih _ _ _ _ h
        exact ⟨_, by simp; decide, .obj n hx⟩
      · simp only [Option.some.injEq, Prod.mk.injEq] at h
        obtain ⟨rfl, rfl⟩ := h
        obtain ⟨w, hw, rfl⟩ := (expect_iff (by decide) _ _).mp e
        exact ⟨_, by simp; decide, .emptyObj n hw⟩
    by_cases h2 : b = ch '['
    · subst h2
      rw [readValue_arr] at h
      simp only [Option.map_eq_some_iff] at h
      obtain ⟨⟨vs, r'⟩, h, he⟩ := h
      simp only [Prod.mk.injEq] at he
      obtain ⟨rfl, rfl⟩ := he
      unfold readArray at h
      rcases e : expect (ch ']') t with _ | s' <;> rw [e] at h <;> dsimp only at h
      · obtain ⟨x, rfl, hx⟩ := elements_sound ih _ _ _ _ h
        exact ⟨_, by simp; decide, .arr n hx⟩
      · simp only [Option.some.injEq, Prod.mk.injEq] at h
        obtain ⟨rfl, rfl⟩ := h
        obtain ⟨w, hw, rfl⟩ := (expect_iff (by decide) _ _).mp e
        exact ⟨_, by simp; decide, .emptyArr n hw⟩
    rw [readValue_scalar _ _ _ h1 h2] at h
    exact readScalar_sound (n + 1) _ _ _ h

theorem readDoc_iff (s : Bytes) (v : Value) : readDoc s = some v ↔ JsonText s v := by
  unfold readDoc
  constructor
  · intro h
    obtain ⟨w1, hw1, e1⟩ := skipWs_split s
    rcases e : readValue 10000 (skipWs s) with _ | ⟨x, r⟩ <;> rw [e] at h
    · cases h
    dsimp only at h
    split_ifs at h with hr
    simp only [Option.some.injEq] at h
    subst h
    obtain ⟨t, e2, ht⟩ := value_sound _ _ _ _ e
    exact ⟨w1, t, r, by rw [← e2, ← e1], hw1, ht, (skipWs_nil r).mp hr⟩
  · rintro ⟨w1, t, w2, rfl, hw1, ht, hw2⟩
    rw [skip_value ht hw1, value_complete ht w2 (fun _ => ?_)]
    · dsimp only
      rw [if_pos ((skipWs_nil w2).mpr hw2)]
    · have := stop_space hw2 [] (by intro b hb; cases hb)
      rw [List.append_nil] at this
      exact this

/-- A text of which the beginning is a document other than a number is not a document with more behind it. -/
theorem readDoc_prefix {p q : Bytes} {v : Value} (hv : JsonText (p ++ q) v) (hn : ∀ b ∈ (p ++ q).head?, isWs b = false ∧ b ≠ ch '-' ∧ ¬ IsDigit b)
    (hq : ¬ JsonSpace q) : readDoc p = none := by
  rcases hp : readDoc p with _ | x
  · rfl
  exfalso
  obtain ⟨w1, t, w2, rfl, hw1, ht, hw2⟩ := (readDoc_iff _ _).mp hp
  obtain ⟨b, t', rfl, hb, -, hnum⟩ := value_head ht
  have hw : w1 = [] := by
    rcases w1 with _ | ⟨c, w1⟩
    · rfl
    · have h1 := (hn c (by simp)).1
      have h2 := (isWs_iff c).mpr (hw1 c (by simp))
      rw [h1] at h2; cases h2
  subst hw
  have h3 := hn b (by simp)
  have hx := hnum h3.2.1 h3.2.2
  have hc := value_complete ht (w2 ++ q) (fun ⟨x, h⟩ => absurd h (hx x))
  have hd := (readDoc_iff _ _).mpr hv
  unfold readDoc at hd
  rw [show [] ++ (b :: t' ++ w2) ++ q = b :: t' ++ (w2 ++ q) by simp, List.cons_append, skipWs_hit hb, ← List.cons_append, hc] at hd
  dsimp only at hd
  split_ifs at hd with hs
  rw [skipWs_space hw2] at hs
  exact hq ((skipWs_nil q).mp hs)

/-! ### What is written is JSON -/

/-- Characters that are written as they are between quotes. -/
def Plain (s : Bytes) : Prop := ∀ b ∈ s, b ≠ ch '"' ∧ b ≠ ch '\\' ∧ 0x20 ≤ b.toNat ∧ b.toNat < 0x80

theorem plain_string {s : Bytes} (h : Plain s) : StringText s s := by
  induction s with
  | nil => exact .nil
  | cons b s ih =>
    obtain ⟨h1, h2, h3, h4⟩ := h b (by simp)
    have := StringText.char b.toNat (Or.inl (by omega)) ⟨h3, fun h0 => h1 (BitVec.eq_of_toNat_eq h0), fun h0 => h2 (BitVec.eq_of_toNat_eq h0)⟩
      (ih fun x hx => h x (by simp [hx]))
    rw [utf8_ascii b h4] at this
    exact this

theorem natText_plain (n : Nat) (h : n < 10 ^ 20) : PlainDigits (natText 20 n) := by
  refine ⟨(natText_spec n h).1, ?_⟩
  obtain ⟨ds, h1, h2, h3, h4, h5, -⟩ := natText_digits 20 n h (by omega)
  rw [h1]
  intro h0
  rcases ds with _ | ⟨d, _ | ⟨e, ds⟩⟩
  · exact absurd rfl h3
  · simpa using h0
  · exfalso
    refine h5 (by simp) ?_
    simp only [List.map_cons, List.head?_cons, Option.some.injEq] at h0
    have e1 := congrArg BitVec.toNat h0
    rw [decDigit_toNat d (h2 d (by simp))] at e1
    have : d = 0 := by
      have : (0x30#8 : BitVec 8).toNat = 48 := rfl
      omega
    rw [this]; rfl

theorem intText_number (i : Int) (h : i.natAbs < 10 ^ 20) : NumberText (intText i) := by
  unfold intText
  split_ifs with h0
  · exact ⟨ascii "-", natText 20 (-i).toNat, [], [], by simp [ascii, ch], Or.inr rfl, natText_plain _ (by omega), Or.inl rfl, Or.inl rfl⟩
  · exact ⟨[], natText 20 i.toNat, [], [], by simp, Or.inl rfl, natText_plain _ (by omega), Or.inl rfl, Or.inl rfl⟩

/-- What a field that is written means. -/
def Scalar.value : Scalar → Value
  | .str s => .str s
  | .num i => .num (intText i)

/-- What a document that is written means. -/
def docValue (d : Doc) : List (Bytes × Value) := d.map fun e => (e.1, .obj (e.2.map fun f => (f.1, f.2.value)))

/-- Fields that can be written. -/
def PlainScalar : Scalar → Prop
  | .str s => Plain s
  | .num i => i.natAbs < 10 ^ 20

/-- Documents all of whose strings and numbers can be written. -/
def PlainDoc (d : Doc) : Prop := ∀ e ∈ d, Plain e.1 ∧ ∀ f ∈ e.2, Plain f.1 ∧ PlainScalar f.2

theorem scalar_text (n : Nat) (v : Scalar) (h : PlainScalar v) : ValueText n (scalarText v) v.value := by
  cases v with
  | str s => exact .str n (plain_string h)
  | num i => exact .num n (intText_number i h)

theorem members_text {α : Type} (n : Nat) (text : α → Bytes) (val : α → Value) (ms : List (Bytes × α)) (hne : ms ≠ [])
    (h : ∀ m ∈ ms, Plain m.1 ∧ ValueText n (text m.2) (val m.2)) :
    MembersText n (membersText text ms) (ms.map fun m => (m.1, val m.2)) := by
  have sp : JsonSpace [] := by intro b hb; cases hb
  induction ms with
  | nil => exact absurd rfl hne
  | cons m ms ih =>
    obtain ⟨k, v⟩ := m
    obtain ⟨hk, hv⟩ := h (k, v) (by simp)
    rcases ms with _ | ⟨m', ms⟩
    · have := MembersText.one n sp (plain_string hk) sp sp hv sp
      simp only [List.nil_append, List.append_nil] at this
      have e : membersText text [(k, v)] = 0x22#8 :: (k ++ 0x22#8 :: 0x3a#8 :: text v) := by
        simp [membersText, strText]; decide
      rw [e]
      exact this
    · have := MembersText.more n sp (plain_string hk) sp sp hv sp (ih (by simp) fun x hx => h x (by simp [List.mem_cons.mp hx]))
      simp only [List.nil_append] at this
      have e : membersText text ((k, v) :: m' :: ms) = 0x22#8 :: (k ++ 0x22#8 :: 0x3a#8 :: (text v ++ 0x2c#8 :: membersText text (m' :: ms))) := by
        simp [membersText, strText]; decide
      rw [e]
      exact this

theorem object_text {α : Type} (n : Nat) (text : α → Bytes) (val : α → Value) (ms : List (Bytes × α))
    (h : ∀ m ∈ ms, Plain m.1 ∧ ValueText n (text m.2) (val m.2)) :
    ValueText (n + 1) (objectText text ms) (.obj (ms.map fun m => (m.1, val m.2))) := by
  by_cases hne : ms = []
  · subst hne
    exact ValueText.emptyObj n (w := []) (by intro b hb; cases hb)
  · exact .obj n (members_text n text val ms hne h)

theorem doc_text (n : Nat) (d : Doc) (h : PlainDoc d) : ValueText (n + 2) (docText d) (.obj (docValue d)) := by
  unfold docText docValue
  refine object_text (n + 1) (objectText scalarText) (fun fs => .obj (fs.map fun f => (f.1, f.2.value))) d fun m hm => ⟨(h m hm).1, ?_⟩
  exact object_text n scalarText Scalar.value m.2 fun f hf => ⟨((h m hm).2 f hf).1, scalar_text n f.2 ((h m hm).2 f hf).2⟩

theorem space_nil : JsonSpace [] := by intro b hb; cases hb

theorem docText_json (d : Doc) (h : PlainDoc d) : JsonText (docText d) (.obj (docValue d)) :=
  ⟨[], docText d, [], by simp, space_nil, doc_text 9998 d h, space_nil⟩

/-- What was written is read back. -/
theorem readDoc_docText (d : Doc) (h : PlainDoc d) : readDoc (docText d) = some (.obj (docValue d)) := (readDoc_iff _ _).mpr (docText_json d h)

/-- The end of a text that does not end with white space is not white space. -/
theorem not_space_end {p q m : Bytes} {b : Byte} (h : p ++ q = m ++ [b]) (hq : q ≠ []) (hb : isWs b = false) : ¬ JsonSpace q := by
  intro hs
  have h1 := congrArg List.getLast? h
  rw [List.getLast?_append, List.getLast?_concat, List.getLast?_eq_some_getLast hq, Option.some_or] at h1
  have h2 := (isWs_iff b).mpr (hs b (Option.some.inj h1 ▸ List.getLast_mem hq))
  rw [hb] at h2; cases h2

/-- A text cut short is not a document. -/
theorem docText_prefix (d : Doc) (h : PlainDoc d) (p q : Bytes) (hp : p ++ q = docText d) (hq : q ≠ []) : readDoc p = none := by
  refine readDoc_prefix (hp ▸ docText_json d h) ?_ (not_space_end (b := ch '}') hp hq (by decide))
  rw [hp]
  intro b hb
  have : some (ch '{') = some b := hb
  rw [← Option.some.inj this]
  exact ⟨by decide, by decide, by unfold IsDigit; decide⟩

theorem null_json : JsonText (lit "null") .null :=
  ⟨[], lit "null", [], by simp, space_nil, .null _, space_nil⟩

theorem null_prefix (p q : Bytes) (hp : p ++ q = lit "null") (hq : q ≠ []) : readDoc p = none := by
  refine readDoc_prefix (hp ▸ null_json) ?_ (not_space_end (b := ch 'l') (m := lit "nul") hp hq (by decide))
  rw [hp]
  intro b hb
  have : some (ch 'n') = some b := hb
  rw [← Option.some.inj this]
  exact ⟨by decide, by decide, by unfold IsDigit; decide⟩

end Insteon.Json
