import Verif.Spec.Json
import Verif.Lemmas.Rune
import Verif.Lemmas.Scan
import Verif.Props.GroupSet

/-
JSON strings: characters, escapes and what they mean.
-/

namespace Insteon.Json
open Spec

/-! ### Characters -/

theorem encodeRune_utf8 (c : Nat) : encodeRune c = utf8 c := rfl

theorem ofNat8_toNat (n : Nat) (h : n < 256) : (BitVec.ofNat 8 n).toNat = n := by
  rw [BitVec.toNat_ofNat]; omega

theorem decodeRune_scalar (c : Nat) (h : ScalarValue c) (t : Bytes) : decodeRune (utf8 c ++ t) = (c, (utf8 c).length) := by
  unfold ScalarValue at h
  unfold utf8
  split_ifs with h1 h2 h3
  · have e : (BitVec.ofNat 8 c).toNat = c := ofNat8_toNat c (by omega)
    simp only [List.cons_append, List.nil_append, decodeRune, e]
    rw [if_pos h1]; rfl
  · have e := ofNat8_toNat (0xc0 + c / 64) (by omega)
    have e' := ofNat8_toNat (0x80 + c % 64) (by omega)
    simp only [List.cons_append, List.nil_append, decodeRune, e, e']
    rw [if_neg (by omega), if_neg (by omega), if_pos (by omega), if_pos (by unfold isCont; rw [e']; simp; omega)]
    simp only [List.length_cons, List.length_nil, Prod.mk.injEq, Nat.add_sub_cancel_left]
    clear e e'
    exact ⟨by omega, trivial⟩
  · have e := ofNat8_toNat (0xe0 + c / 4096) (by omega)
    have e' := ofNat8_toNat (0x80 + c / 64 % 64) (by omega)
    have e'' := ofNat8_toNat (0x80 + c % 64) (by omega)
    simp only [List.cons_append, List.nil_append, decodeRune, e, e', e'']
    rw [if_neg (by omega), if_neg (by omega), if_neg (by omega), if_pos (by omega), if_pos]
    · simp only [List.length_cons, List.length_nil, Prod.mk.injEq, Nat.add_sub_cancel_left]
      clear e e' e''
      exact ⟨by omega, trivial⟩
    · simp only [isCont, e', e'', Bool.and_eq_true, Bool.or_eq_true, decide_eq_true_eq, bne_iff_ne]
      omega
  · have e := ofNat8_toNat (0xf0 + c / 262144) (by omega)
    have e' := ofNat8_toNat (0x80 + c / 4096 % 64) (by omega)
    have e'' := ofNat8_toNat (0x80 + c / 64 % 64) (by omega)
    have e''' := ofNat8_toNat (0x80 + c % 64) (by omega)
    simp only [List.cons_append, List.nil_append, decodeRune, e, e', e'', e''']
    rw [if_neg (by omega), if_neg (by omega), if_neg (by omega), if_neg (by omega), if_pos (by omega), if_pos]
    · simp only [List.length_cons, List.length_nil, Prod.mk.injEq, Nat.add_sub_cancel_left]
      clear e e' e'' e'''
      exact ⟨by omega, trivial⟩
    · simp only [isCont, e', e'', e''', Bool.and_eq_true, Bool.or_eq_true, decide_eq_true_eq, bne_iff_ne]
      omega

/-- Decoding finds a character, or there is none. -/
theorem decodeRune_cases (b : Byte) (s : Bytes) : decodeRune (b :: s) = (0xfffd, 1) ∨
    ∃ c t, ScalarValue c ∧ b :: s = utf8 c ++ t := by
  have hb := b.isLt
  unfold decodeRune
  by_cases h1 : b.toNat < 0x80
  · exact Or.inr ⟨b.toNat, s, Or.inl (by omega), by unfold utf8; simp [h1]⟩
  by_cases h2 : b.toNat < 0xc2
  · left; simp [h1, h2]
  by_cases h3 : b.toNat < 0xe0
  · simp only [if_neg h1, if_neg h2, if_pos h3]
    rcases s with _ | ⟨c, s⟩
    · left; rfl
    by_cases hc : isCont c = true
    · simp only [isCont, Bool.and_eq_true, decide_eq_true_eq] at hc
      refine Or.inr ⟨(b.toNat - 0xc0) * 64 + (c.toNat - 0x80), s, Or.inl (by omega), ?_⟩
      unfold utf8
      rw [if_neg (by omega), if_pos (by omega), ← byte_eq_ofNat (b := b) (by omega), ← byte_eq_ofNat (b := c) (by omega)]
      rfl
    · left; simp only [if_neg hc]
  by_cases h4 : b.toNat < 0xf0
  · simp only [if_neg h1, if_neg h2, if_neg h3, if_pos h4]
    rcases s with _ | ⟨c, _ | ⟨d, s⟩⟩
    · left; rfl
    · left; rfl
    dsimp only
    split_ifs with hc
    · right
      simp only [isCont, Bool.and_eq_true, Bool.or_eq_true, decide_eq_true_eq, bne_iff_ne] at hc
      refine ⟨(b.toNat - 0xe0) * 4096 + (c.toNat - 0x80) * 64 + (d.toNat - 0x80), s, by unfold ScalarValue; omega, ?_⟩
      unfold utf8
      rw [if_neg (by omega), if_neg (by omega), if_pos (by omega), ← byte_eq_ofNat (b := b) (by omega), ← byte_eq_ofNat (b := c) (by omega),
        ← byte_eq_ofNat (b := d) (by omega)]
      rfl
    · left; rfl
  by_cases h5 : b.toNat < 0xf5
  · simp only [if_neg h1, if_neg h2, if_neg h3, if_neg h4, if_pos h5]
    rcases s with _ | ⟨c, _ | ⟨d, _ | ⟨e, s⟩⟩⟩
    · left; rfl
    · left; rfl
    · left; rfl
    dsimp only
    split_ifs with hc
    · right
      simp only [isCont, Bool.and_eq_true, Bool.or_eq_true, decide_eq_true_eq, bne_iff_ne] at hc
      refine ⟨(b.toNat - 0xf0) * 262144 + (c.toNat - 0x80) * 4096 + (d.toNat - 0x80) * 64 + (e.toNat - 0x80), s,
        by unfold ScalarValue; omega, ?_⟩
      unfold utf8
      rw [if_neg (by omega), if_neg (by omega), if_neg (by omega), ← byte_eq_ofNat (b := b) (by omega), ← byte_eq_ofNat (b := c) (by omega),
        ← byte_eq_ofNat (b := d) (by omega), ← byte_eq_ofNat (b := e) (by omega)]
      rfl
    · left; rfl
  · left; simp [h1, h2, h3, h4, h5]

/-- The bytes of a character that is not ASCII have the top bit. -/
theorem utf8_high (c : Nat) (h : 0x80 ≤ c) (hc : c ≤ 0x10ffff) : ∀ b ∈ utf8 c, 0x80 ≤ b.toNat := by
  unfold utf8
  split_ifs with h1 h2 h3
  · omega
  all_goals
    intro b hb
    simp only [List.mem_cons, List.not_mem_nil, or_false] at hb
  · rcases hb with rfl | rfl <;> rw [ofNat8_toNat _ (by omega)] <;> omega
  · rcases hb with rfl | rfl | rfl <;> rw [ofNat8_toNat _ (by omega)] <;> omega
  · rcases hb with rfl | rfl | rfl | rfl <;> rw [ofNat8_toNat _ (by omega)] <;> omega

theorem utf8_ascii (b : Byte) (h : b.toNat < 0x80) : utf8 b.toNat = [b] := by
  unfold utf8; simp [h]

theorem scalar_le {c : Nat} (h : ScalarValue c) : c ≤ 0x10ffff := by
  unfold ScalarValue at h; omega

/-! ### The bytes between quotes -/

/-- Bytes that may stand between quotes as they are. -/
def Ordinary (b : Byte) : Prop := b ≠ ch '"' ∧ b ≠ ch '\\' ∧ 0x20 ≤ b.toNat

/-- What may stand between quotes. -/
inductive RawOk : Bytes → Prop
  | nil : RawOk []
  | byte {s} (b : Byte) (h : Ordinary b) (ht : RawOk s) : RawOk (b :: s)
  | esc {s} (c : Byte) (h : isEsc c = true) (ht : RawOk s) : RawOk (ch '\\' :: c :: s)
  | uni {s} (a b c d : Byte) (u : Nat) (h : hex4 [a, b, c, d] = some u) (ht : RawOk s) : RawOk (ch '\\' :: ch 'u' :: a :: b :: c :: d :: s)

theorem hex4_some {t : Bytes} {u : Nat} (h : hex4 t = some u) : ∃ a b c d s, t = a :: b :: c :: d :: s ∧ hex4 [a, b, c, d] = some u := by
  rcases t with _ | ⟨a, _ | ⟨b, _ | ⟨c, _ | ⟨d, s⟩⟩⟩⟩
  · simp [hex4] at h
  · simp [hex4] at h
  · simp [hex4] at h
  · simp [hex4] at h
  · exact ⟨a, b, c, d, s, rfl, h⟩

theorem hex4_append (a b c d : Byte) (s : Bytes) : hex4 (a :: b :: c :: d :: s) = hex4 [a, b, c, d] := rfl

theorem esc_ne_u {c : Byte} (h : isEsc c = true) : c ≠ ch 'u' := by rintro rfl; revert h; decide

theorem scanString_nil (n : Nat) : scanString n [] = none := by
  cases n <;> rfl

theorem scan_quote (s : Bytes) : scanString 0 (ch '"' :: s) = some ([], s) := by
  rw [scanString.eq_def]
  dsimp only
  rw [if_pos rfl]

theorem scan_byte {b : Byte} (h : Ordinary b) (s : Bytes) : scanString 0 (b :: s) = (scanString 0 s).map fun r => (b :: r.1, r.2) := by
  obtain ⟨h1, h2, h3⟩ := h
  rw [scanString.eq_def]
  dsimp only
  rw [if_neg h1, if_neg h2, if_neg (by omega)]

theorem scan_step (n : Nat) (b : Byte) (s : Bytes) : scanString (n + 1) (b :: s) = (scanString n s).map fun r => (b :: r.1, r.2) := by
  rw [scanString.eq_def]

theorem scan_esc {c : Byte} (h : isEsc c = true) (s : Bytes) :
    scanString 0 (ch '\\' :: c :: s) = (scanString 0 s).map fun r => (ch '\\' :: c :: r.1, r.2) := by
  rw [scanString.eq_def]
  dsimp only
  rw [if_neg (by decide), if_pos rfl, if_pos h, scan_step, Option.map_map]
  rfl

theorem scan_uni {a b c d : Byte} {u : Nat} (h : hex4 [a, b, c, d] = some u) (s : Bytes) :
    scanString 0 (ch '\\' :: ch 'u' :: a :: b :: c :: d :: s) =
      (scanString 0 s).map fun r => (ch '\\' :: ch 'u' :: a :: b :: c :: d :: r.1, r.2) := by
  rw [scanString.eq_def]
  dsimp only
  rw [if_neg (by decide), if_pos rfl, if_neg (by decide), if_pos rfl, hex4_append, h, Option.isSome_some, if_pos rfl]
  rw [scan_step, scan_step, scan_step, scan_step, scan_step]
  simp only [Option.map_map]
  rfl

theorem scan_raw {s : Bytes} (h : RawOk s) (r : Bytes) : scanString 0 (s ++ ch '"' :: r) = some (s, r) := by
  induction h with
  | nil => exact scan_quote r
  | byte b h _ ih =>
    rw [List.cons_append, scan_byte h, ih]
    rfl
  | esc c h _ ih =>
    rw [List.cons_append, List.cons_append, scan_esc h, ih]
    rfl
  | uni a b c d u h _ ih =>
    simp only [List.cons_append]
    rw [scan_uni h, ih]
    rfl

theorem scan_sound (n : Nat) (s raw r : Bytes) (hn : s.length ≤ n) (h : scanString 0 s = some (raw, r)) :
    s = raw ++ ch '"' :: r ∧ RawOk raw := by
  induction n generalizing s raw with
  | zero =>
    rw [List.length_eq_zero_iff.mp (by omega : s.length = 0)] at h
    cases h
  | succ n ih =>
    rcases s with _ | ⟨b, s⟩
    · cases h
    rw [scanString.eq_def] at h
    dsimp only at h
    rw [List.length_cons] at hn
    by_cases h1 : b = ch '"'
    · rw [if_pos h1] at h
      simp only [Option.some.injEq, Prod.mk.injEq] at h
      obtain ⟨rfl, rfl⟩ := h
      exact ⟨by rw [h1]; rfl, .nil⟩
    rw [if_neg h1] at h
    by_cases h2 : b = ch '\\'
    · rw [if_pos h2] at h
      rcases s with _ | ⟨c, t⟩
      · cases h
      dsimp only at h
      by_cases h3 : isEsc c = true
      · rw [if_pos h3] at h
        simp only [scanString, Option.map_map, Option.map_eq_some_iff, Function.comp] at h
        obtain ⟨⟨raw', r'⟩, h, he⟩ := h
        simp only [Prod.mk.injEq] at he
        obtain ⟨rfl, rfl⟩ := he
        obtain ⟨e, hr⟩ := ih t raw' (by simp at hn; omega) h
        exact ⟨by rw [e]; rfl, by rw [h2]; exact .esc c h3 hr⟩
      rw [if_neg h3] at h
      by_cases h4 : c = ch 'u'
      · rw [if_pos h4] at h
        rcases hx : hex4 t with _ | u <;> rw [hx] at h
        · simp at h
        obtain ⟨a, b', c', d, t', rfl, hu⟩ := hex4_some hx
        simp only [Option.isSome_some, if_true, scanString, Option.map_map, Option.map_eq_some_iff, Function.comp] at h
        obtain ⟨⟨raw', r'⟩, h, he⟩ := h
        simp only [Prod.mk.injEq] at he
        obtain ⟨rfl, rfl⟩ := he
        obtain ⟨e, hr⟩ := ih t' raw' (by simp at hn; omega) h
        exact ⟨by rw [e]; rfl, by rw [h2, h4]; exact .uni a b' c' d u hu hr⟩
      · rw [if_neg h4] at h; cases h
    rw [if_neg h2] at h
    by_cases h5 : b.toNat < 0x20
    · rw [if_pos h5] at h; cases h
    rw [if_neg h5] at h
    simp only [Option.map_eq_some_iff] at h
    obtain ⟨⟨raw', r'⟩, h, he⟩ := h
    simp only [Prod.mk.injEq] at he
    obtain ⟨rfl, rfl⟩ := he
    obtain ⟨e, hr⟩ := ih s raw' (by omega) h
    exact ⟨by rw [e]; rfl, .byte b ⟨h1, h2, by omega⟩ hr⟩

/-! ### Their meaning -/

theorem unquote_skip (x s : Bytes) : unquote x.length (x ++ s) = unquote 0 s := by
  induction x with
  | nil => rfl
  | cons b x ih => rw [List.length_cons, List.cons_append, unquote, ih]

theorem hex4_def (a b c d : Byte) : hex4 [a, b, c, d] =
    match hexVal a, hexVal b, hexVal c, hexVal d with
    | some a, some b, some c, some d => some (4096 * a + 256 * b + 16 * c + d)
    | _, _, _, _ => none := rfl

theorem hex4_iff (a b c d : Byte) (u : Nat) : hex4 [a, b, c, d] = some u ↔ UnicodeEscape [0x5c#8, 0x75#8, a, b, c, d] u := by
  rw [hex4_def]
  unfold UnicodeEscape
  constructor
  · intro h
    rcases ha : hexVal a with _ | w <;> rw [ha] at h
    · simp at h
    rcases hb : hexVal b with _ | x <;> rw [hb] at h
    · simp at h
    rcases hc : hexVal c with _ | y <;> rw [hc] at h
    · simp at h
    rcases hd : hexVal d with _ | z <;> rw [hd] at h
    · simp at h
    simp only [Option.some.injEq] at h
    exact ⟨a, b, c, d, w, x, y, z, rfl, (isHexDigit_iff a w).mpr ha, (isHexDigit_iff b x).mpr hb, (isHexDigit_iff c y).mpr hc, (isHexDigit_iff d z).mpr hd, h.symm⟩
  · rintro ⟨a', b', c', d', w, x, y, z, he, h1, h2, h3, h4, rfl⟩
    simp only [List.cons.injEq, true_and, and_true] at he
    obtain ⟨rfl, rfl, rfl, rfl⟩ := he
    rw [(isHexDigit_iff _ _).mp h1, (isHexDigit_iff _ _).mp h2, (isHexDigit_iff _ _).mp h3, (isHexDigit_iff _ _).mp h4]

theorem escape_form {e : Bytes} {u : Nat} (h : UnicodeEscape e u) : ∃ a b c d, e = [ch '\\', ch 'u', a, b, c, d] ∧ hex4 [a, b, c, d] = some u := by
  obtain ⟨a, b, c, d, w, x, y, z, rfl, hr⟩ := h
  exact ⟨a, b, c, d, rfl, (hex4_iff _ _ _ _ _).mpr ⟨a, b, c, d, w, x, y, z, rfl, hr⟩⟩

theorem hex4_lt {a b c d : Byte} {u : Nat} (h : hex4 [a, b, c, d] = some u) : u < 0x10000 := by
  rw [hex4_def] at h
  rcases ha : hexVal a with _ | w <;> rw [ha] at h
  · simp at h
  rcases hb : hexVal b with _ | x <;> rw [hb] at h
  · simp at h
  rcases hc : hexVal c with _ | y <;> rw [hc] at h
  · simp at h
  rcases hd : hexVal d with _ | z <;> rw [hd] at h
  · simp at h
  simp only [Option.some.injEq] at h
  have := hexVal_lt ha; have := hexVal_lt hb; have := hexVal_lt hc; have := hexVal_lt hd
  omega

theorem lowHalf_iff (s : Bytes) (l : Nat) : lowHalf s = some l ↔ ∃ f t, UnicodeEscape f l ∧ LowHalf l ∧ s = f ++ t := by
  constructor
  · intro h
    rcases s with _ | ⟨a, _ | ⟨b, s⟩⟩
    · cases h
    · cases h
    rw [lowHalf] at h
    by_cases h1 : a = ch '\\' ∧ b = ch 'u'
    · rw [if_pos h1] at h
      rcases hx : hex4 s with _ | u <;> rw [hx] at h
      · cases h
      dsimp only at h
      split_ifs at h with h2
      simp only [Option.some.injEq] at h
      subst h
      obtain ⟨w, x, y, z, t, rfl, hu⟩ := hex4_some hx
      refine ⟨[a, b, w, x, y, z], t, ?_, ⟨h2.1, by omega⟩, rfl⟩
      rw [h1.1, h1.2]
      exact (hex4_iff _ _ _ _ _).mp hu
    · rw [if_neg h1] at h; cases h
  · rintro ⟨f, t, hf, hl, rfl⟩
    obtain ⟨a, b, c, d, rfl, hu⟩ := escape_form hf
    simp only [List.cons_append, List.nil_append]
    unfold lowHalf
    dsimp only
    rw [if_pos ⟨rfl, rfl⟩, hex4_append, hu]
    dsimp only
    unfold LowHalf at hl
    rw [if_pos ⟨hl.1, by omega⟩]

theorem short_iff (l : Byte) : ∀ m : Byte, (l, m) ∈ shortEscapes → isEsc l = true ∧ m = escByte l := by
  have key : ∀ p ∈ shortEscapes, isEsc p.1 = true ∧ p.2 = escByte p.1 := by decide
  exact fun m h => key (l, m) h

theorem esc_short : ∀ l : Byte, isEsc l = true → (l, escByte l) ∈ shortEscapes := by decide +kernel

theorem unquote_byte {b : Byte} (h1 : b ≠ ch '\\') (h2 : b.toNat < 0x80) (s : Bytes) : unquote 0 (b :: s) = b :: unquote 0 s := by
  rw [unquote.eq_def]
  dsimp only
  rw [if_neg h1, if_pos h2]

theorem unquote_high {b : Byte} (h1 : b ≠ ch '\\') (h2 : ¬ b.toNat < 0x80) (s : Bytes) :
    unquote 0 (b :: s) = encodeRune (decodeRune (b :: s)).1 ++ unquote ((decodeRune (b :: s)).2 - 1) s := by
  rw [unquote.eq_def]
  dsimp only
  rw [if_neg h1, if_neg h2]

/-- `unquote` at an escape with a number. -/
theorem unquote_uni (a b c d : Byte) (u : Nat) (s : Bytes) (h : hex4 [a, b, c, d] = some u) :
    unquote 0 (ch '\\' :: ch 'u' :: a :: b :: c :: d :: s) =
      if 0xd800 ≤ u ∧ u ≤ 0xdfff then
        match lowHalf s with
        | some l => if u ≤ 0xdbff then encodeRune (0x10000 + (u - 0xd800) * 0x400 + (l - 0xdc00)) ++ unquote 6 s else encodeRune 0xfffd ++ unquote 0 s
        | none => encodeRune 0xfffd ++ unquote 0 s
      else encodeRune u ++ unquote 0 s := by
  rw [unquote.eq_def]
  dsimp only
  rw [if_pos rfl, if_pos rfl, hex4_append, h]
  simp only [Option.getD_some, List.drop_succ_cons, List.drop_zero, unquote]
  rfl

theorem string_unquote {s v : Bytes} (h : StringText s v) : RawOk s ∧ unquote 0 s = v := by
  induction h with
  | nil => exact ⟨.nil, rfl⟩
  | @char s v c hc hr ht ih =>
    by_cases h8 : c < 0x80
    · have e : utf8 c = [BitVec.ofNat 8 c] := by unfold utf8; rw [if_pos h8]
      have hn := ofNat8_toNat c (by omega)
      have n1 : BitVec.ofNat 8 c ≠ ch '"' := by
        intro h0; have := congrArg BitVec.toNat h0; rw [hn] at this; exact hr.2.1 this
      have n2 : BitVec.ofNat 8 c ≠ ch '\\' := by
        intro h0; have := congrArg BitVec.toNat h0; rw [hn] at this; exact hr.2.2 this
      rw [e]
      refine ⟨.byte _ ⟨n1, n2, by rw [hn]; exact hr.1⟩ ih.1, ?_⟩
      simp only [List.cons_append, List.nil_append]
      rw [unquote_byte n2 (by rw [hn]; exact h8), ih.2]
    · have hi := utf8_high c (by omega) (scalar_le hc)
      have hord : ∀ x : Bytes, (∀ b ∈ x, 0x80 ≤ b.toNat) → RawOk (x ++ s) := by
        intro x hx
        induction x with
        | nil => exact ih.1
        | cons b x ihx =>
          have hb := hx b (by simp)
          refine .byte b ⟨?_, ?_, by omega⟩ (ihx fun y hy => hx y (by simp [hy]))
          · rintro rfl; exact absurd hb (by decide)
          · rintro rfl; exact absurd hb (by decide)
      refine ⟨hord _ hi, ?_⟩
      rcases hu : utf8 c with _ | ⟨b, x⟩
      · exact absurd hu (utf8_ne_nil c)
      have hb := hi b (by rw [hu]; simp)
      have hd := decodeRune_scalar c hc s
      rw [hu, List.cons_append] at hd
      rw [List.cons_append, unquote_high (by rintro rfl; exact absurd hb (by decide)) (by omega), hd]
      simp only [List.length_cons, Nat.add_sub_cancel]
      rw [unquote_skip, encodeRune_utf8, hu, ih.2]
  | @wrong s v b hb ht ih =>
    have h8 : 0x80 ≤ b.toNat := by
      by_contra h0
      exact hb b.toNat s (Or.inl (by omega)) (by rw [utf8_ascii b (by omega)]; rfl)
    have hd : decodeRune (b :: s) = (0xfffd, 1) := by
      rcases decodeRune_cases b s with h | ⟨c, t, hc, he⟩
      · exact h
      · exact absurd he (hb c t hc)
    have n2 : b ≠ ch '\\' := by rintro rfl; exact absurd h8 (by decide)
    refine ⟨.byte b ⟨by rintro rfl; exact absurd h8 (by decide), n2, by omega⟩ ih.1, ?_⟩
    rw [unquote_high n2 (by omega), hd]
    simp only [Nat.sub_self]
    rw [ih.2, encodeRune_utf8]
  | @short s v l m hl ht ih =>
    obtain ⟨h1, rfl⟩ := short_iff l m hl
    refine ⟨.esc l h1 ih.1, ?_⟩
    rw [unquote.eq_def]
    dsimp only
    rw [if_pos (by decide), if_neg (esc_ne_u h1), unquote, ih.2]
  | @unicode s v e u he hu ht ih =>
    obtain ⟨a, b, c, d, rfl, h4⟩ := escape_form he
    refine ⟨.uni a b c d u h4 ih.1, ?_⟩
    simp only [List.cons_append, List.nil_append]
    rw [unquote_uni _ _ _ _ _ _ h4, if_neg (by unfold ScalarValue at hu; omega), ih.2, encodeRune_utf8]
  | @pair s v e f hi lo he hf hh hl ht ih =>
    have hlow : lowHalf (f ++ s) = some lo := (lowHalf_iff _ _).mpr ⟨f, s, hf, hl, rfl⟩
    obtain ⟨a, b, c, d, rfl, h4⟩ := escape_form he
    obtain ⟨a', b', c', d', rfl, h4'⟩ := escape_form hf
    refine ⟨.uni a b c d hi h4 (.uni a' b' c' d' lo h4' ih.1), ?_⟩
    unfold HighHalf at hh
    unfold LowHalf at hl
    rw [List.cons_append, List.cons_append, List.cons_append, List.cons_append, List.cons_append, List.cons_append, List.nil_append,
      unquote_uni _ _ _ _ _ _ h4, if_pos (by omega), hlow]
    dsimp only
    rw [if_pos (by omega), encodeRune_utf8, ← ih.2]
    rfl
  | @half s v e u he hu hn ht ih =>
    obtain ⟨a, b, c, d, rfl, h4⟩ := escape_form he
    refine ⟨.uni a b c d u h4 ih.1, ?_⟩
    unfold HighHalf LowHalf at hu
    simp only [List.cons_append, List.nil_append]
    rw [unquote_uni _ _ _ _ _ _ h4, if_pos (by omega)]
    rcases hlow : lowHalf s with _ | l
    · dsimp only
      rw [ih.2, encodeRune_utf8]
    · dsimp only
      rw [if_neg, ih.2, encodeRune_utf8]
      intro hle
      obtain ⟨f, t, hf, hl, he'⟩ := (lowHalf_iff _ _).mp hlow
      exact hn ⟨by omega, by omega⟩ f t l hf hl he'

theorem rawOk_high (x s : Bytes) (hx : ∀ b ∈ x, 0x80 ≤ b.toNat) (h : RawOk (x ++ s)) : RawOk s := by
  induction x with
  | nil => exact h
  | cons b x ih =>
    have hb := hx b (by simp)
    refine ih (fun y hy => hx y (by simp [hy])) ?_
    generalize hg : b :: x ++ s = g at h
    rw [List.cons_append] at hg
    cases h with
    | nil => cases hg
    | byte b' _ ht => simp only [List.cons.injEq] at hg; rw [hg.2]; exact ht
    | esc c _ _ => simp only [List.cons.injEq] at hg; rw [hg.1] at hb; exact absurd hb (by decide)
    | uni => simp only [List.cons.injEq] at hg; rw [hg.1] at hb; exact absurd hb (by decide)

theorem rawOk_uni (a b c d : Byte) (s : Bytes) (h : RawOk (ch '\\' :: ch 'u' :: a :: b :: c :: d :: s)) : RawOk s := by
  generalize hg : ch '\\' :: ch 'u' :: a :: b :: c :: d :: s = g at h
  cases h with
  | nil => cases hg
  | byte b' ho _ => simp only [List.cons.injEq] at hg; exact absurd hg.1.symm ho.2.1
  | esc c' he _ => simp only [List.cons.injEq] at hg; exact absurd hg.2.1.symm (esc_ne_u he)
  | uni _ _ _ _ _ _ ht => simp only [List.cons.injEq] at hg; rw [hg.2.2.2.2.2.2]; exact ht

theorem unquote_string (n : Nat) (s : Bytes) (hn : s.length ≤ n) (h : RawOk s) : StringText s (unquote 0 s) := by
  induction n generalizing s with
  | zero =>
    rw [List.length_eq_zero_iff.mp (by omega : s.length = 0)]
    exact .nil
  | succ n ih =>
    cases h with
    | nil => exact .nil
    | @byte s b ho ht =>
      obtain ⟨h1, h2, h3⟩ := ho
      rw [List.length_cons] at hn
      by_cases h8 : b.toNat < 0x80
      · have := StringText.char b.toNat (Or.inl (by omega)) ⟨h3, ?_, ?_⟩ (ih s (by omega) ht)
        · rw [utf8_ascii b h8] at this
          rw [unquote_byte h2 h8]
          exact this
        · intro h0; exact h1 (BitVec.eq_of_toNat_eq h0)
        · intro h0; exact h2 (BitVec.eq_of_toNat_eq h0)
      · rw [unquote_high h2 h8]
        by_cases hex : ∃ c t, ScalarValue c ∧ b :: s = utf8 c ++ t
        · obtain ⟨c, t, hc, he⟩ := hex
          have hd := decodeRune_scalar c hc t
          rw [← he] at hd
          rw [hd]
          have hc8 : 0x80 ≤ c := by
            by_contra h0
            have : utf8 c = [BitVec.ofNat 8 c] := by unfold utf8; rw [if_pos (by omega)]
            rw [this] at he
            simp only [List.cons_append, List.cons.injEq] at he
            rw [he.1, ofNat8_toNat _ (by omega)] at h8
            omega
          rcases hu : utf8 c with _ | ⟨b', x⟩
          · exact absurd hu (utf8_ne_nil c)
          rw [hu] at he
          simp only [List.cons_append, List.cons.injEq] at he
          obtain ⟨rfl, rfl⟩ := he
          have hi := utf8_high c hc8 (scalar_le hc)
          rw [hu] at hi
          have ht' : RawOk t := rawOk_high x t (fun y hy => hi y (by simp [hy])) ht
          simp only [List.length_cons, Nat.add_sub_cancel]
          rw [unquote_skip, encodeRune_utf8]
          have := StringText.char c hc ⟨by omega, by omega, by omega⟩ (ih t (by rw [List.length_append] at hn; omega) ht')
          rw [hu] at this ⊢
          exact this
        · have hd : decodeRune (b :: s) = (0xfffd, 1) := (decodeRune_cases b s).resolve_right hex
          rw [hd, encodeRune_utf8]
          exact .wrong b (fun c t hc he => hex ⟨c, t, hc, he⟩) (ih s (by omega) ht)
    | @esc s c hc ht =>
      simp only [List.length_cons] at hn
      rw [unquote.eq_def]
      dsimp only
      rw [if_pos rfl, if_neg (esc_ne_u hc), unquote]
      exact .short c (escByte c) (esc_short c hc) (ih s (by omega) ht)
    | @uni s a b c d u hu ht =>
      simp only [List.length_cons] at hn
      have he : UnicodeEscape [ch '\\', ch 'u', a, b, c, d] u := (hex4_iff _ _ _ _ _).mp hu
      have hlt := hex4_lt hu
      rw [unquote_uni _ _ _ _ _ _ hu]
      have hs := ih s (by omega) ht
      by_cases hsur : 0xd800 ≤ u ∧ u ≤ 0xdfff
      · rw [if_pos hsur]
        rcases hlow : lowHalf s with _ | l
        · refine StringText.half _ u he (by unfold HighHalf LowHalf; omega) ?_ hs
          intro _ f t lo hf hl hst
          rw [(lowHalf_iff s lo).mpr ⟨f, t, hf, hl, hst⟩] at hlow
          cases hlow
        · dsimp only
          by_cases hle : u ≤ 0xdbff
          · rw [if_pos hle]
            obtain ⟨f, t, hf, hl, rfl⟩ := (lowHalf_iff _ _).mp hlow
            obtain ⟨a', b', c', d', rfl, -⟩ := escape_form hf
            have ht' : RawOk t := rawOk_uni _ _ _ _ _ ht
            simp only [List.length_append, List.length_cons, List.length_nil] at hn
            exact StringText.pair _ _ u l he hf ⟨by omega, by omega⟩ hl (ih t (by omega) ht')
          · rw [if_neg hle]
            exact StringText.half _ u he (by unfold HighHalf LowHalf; omega) (by unfold HighHalf; omega) hs
      · rw [if_neg hsur]
        exact StringText.unicode _ u he (by unfold ScalarValue; omega) hs

/-- Reading a string is exactly what the grammar says. -/
theorem readString_iff (s v r : Bytes) : readString s = some (v, r) ↔ ∃ t, s = t ++ 0x22#8 :: r ∧ StringText t v := by
  unfold readString
  constructor
  · intro h
    simp only [Option.map_eq_some_iff] at h
    obtain ⟨⟨raw, r'⟩, h, he⟩ := h
    simp only [Prod.mk.injEq] at he
    obtain ⟨rfl, rfl⟩ := he
    obtain ⟨e, hr⟩ := scan_sound s.length s raw r' (Nat.le_refl _) h
    exact ⟨raw, e, unquote_string _ _ (Nat.le_refl _) hr⟩
  · rintro ⟨t, rfl, ht⟩
    obtain ⟨h1, h2⟩ := string_unquote ht
    have := scan_raw h1 r
    rw [show ch '"' = 0x22#8 from rfl] at this
    rw [this]
    simp [h2]

end Insteon.Json
