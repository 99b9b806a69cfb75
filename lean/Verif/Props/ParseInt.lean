import Verif.Model.ParseInt
import Verif.Spec.ParseInt

/-
C217: which texts are numbers to the generator of device categories.
-/

namespace Insteon
namespace Num
open Spec

theorem digit_iff (c : Byte) (b v : Nat) (hb : b ≤ 36) : (digit c = some v ∧ v < b) ↔ IsDigit b c v := by
  unfold digit IsDigit
  split
  · simp only [Option.some.injEq]; omega
  · split
    · simp only [Option.some.injEq]; omega
    · split
      · simp only [Option.some.injEq]; omega
      · simp only [reduceCtorEq, false_and, false_iff]; omega

/-- The bases and whether letters are digits. -/
def Fits (b : Nat) (hex : Bool) : Prop := 0 < b ∧ b ≤ 36 ∧ (hex = true ∧ b = 16 ∨ hex = false ∧ b ≤ 10)

theorem ok_digit {b v : Nat} {hex : Bool} {c : Byte} (hf : Fits b hex) (h : IsDigit b c v) (saw : Saw) (s : Bytes) :
    okLoop hex saw (c :: s) = okLoop hex .digit s ∧ c ≠ 0x5f#8 := by
  obtain ⟨_, _, hf⟩ := hf
  obtain ⟨h1, h2⟩ := h
  constructor
  · rw [okLoop, if_pos]
    rcases hf with ⟨rfl, rfl⟩ | ⟨rfl, hb⟩
    · simp only [true_and]; omega
    · left; omega
  · rintro rfl
    have : (0x5f#8).toNat = 95 := rfl
    omega

theorem ok_under (hex : Bool) (s : Bytes) : okLoop hex .digit (0x5f#8 :: s) = okLoop hex .underscore s := by
  rw [okLoop, if_neg (by simp), if_pos rfl, if_neg (by simp)]

theorem ok_under2 (hex : Bool) (saw : Saw) (h : saw ≠ .digit) (s : Bytes) : okLoop hex saw (0x5f#8 :: s) = false := by
  rw [okLoop, if_neg (by simp), if_pos rfl, if_pos h]

theorem more_le {b n m : Nat} {s : Bytes} (hb : 0 < b) (h : MoreDigits b n s m) : n ≤ m := by
  induction h with
  | done n => exact Nat.le_refl _
  | @digit n v m c s h hs ih => exact Nat.le_trans (Nat.le_trans (Nat.le_mul_of_pos_right n hb) (Nat.le_add_right _ v)) ih
  | @separated n v m c s h hs ih => exact Nat.le_trans (Nat.le_trans (Nat.le_mul_of_pos_right n hb) (Nat.le_add_right _ v)) ih

theorem loop_of_more {b n m : Nat} {hex : Bool} {s : Bytes} (hf : Fits b hex) (h : MoreDigits b n s m) (hm : m ≤ 2 ^ 64 - 1) :
    loop b n s = some m ∧ okLoop hex .digit s = true := by
  have step : ∀ {n v m : Nat} {c : Byte} {s : Bytes}, IsDigit b c v → MoreDigits b (n * b + v) s m → m ≤ 2 ^ 64 - 1 → loop b n (c :: s) = loop b (n * b + v) s := by
    intro n v m c s hd hs hm
    obtain ⟨h1, h2⟩ := (digit_iff c b v hf.2.1).mpr hd
    have hle := more_le hf.1 hs
    rw [loop, if_neg (ok_digit hf hd .digit s).2, h1]
    simp only
    rw [if_neg (by omega), if_neg (by omega)]
  induction h with
  | done n => simp [loop, okLoop]
  | @digit n v m c s hd hs ih =>
    rw [step hd hs hm, (ok_digit hf hd _ s).1]
    exact ih hm
  | @separated n v m c s hd hs ih =>
    rw [loop, if_pos rfl, step hd hs hm, ok_under, (ok_digit hf hd _ s).1]
    exact ih hm

theorem more_of_loop {b : Nat} {hex : Bool} (hf : Fits b hex) (s : Bytes) : ∀ (n m : Nat), n ≤ 2 ^ 64 - 1 → loop b n s = some m → m ≤ 2 ^ 64 - 1 ∧
    (okLoop hex .digit s = true → MoreDigits b n s m) ∧
    (okLoop hex .underscore s = true → ∃ c t v, s = c :: t ∧ IsDigit b c v ∧ MoreDigits b (n * b + v) t m) ∧
    (0x5f#8 ∉ s → okLoop hex .digit s = true) := by
  induction s with
  | nil =>
    intro n m hn h
    simp only [loop, Option.some.injEq] at h
    subst h
    exact ⟨hn, fun _ => .done n, by simp [okLoop], by simp [okLoop]⟩
  | cons c s ih =>
    intro n m hn h
    rw [loop] at h
    split at h
    · rename_i hc
      subst hc
      obtain ⟨h1, h2, h3, h4⟩ := ih n m hn h
      refine ⟨h1, fun ho => ?_, fun ho => ?_, by simp⟩
      · rw [ok_under] at ho
        obtain ⟨c, t, v, rfl, hd, hs⟩ := h3 ho
        exact .separated hd hs
      · rw [ok_under2 _ _ (by decide)] at ho
        simp at ho
    · split at h
      · simp at h
      · rename_i d hd
        split at h
        · simp at h
        · split at h
          · simp at h
          · rename_i hlt hov
            have hD : IsDigit b c d := (digit_iff c b d hf.2.1).mp ⟨hd, by omega⟩
            obtain ⟨h1, h2, h3, h4⟩ := ih _ m (by omega) h
            refine ⟨h1, fun ho => ?_, fun ho => ?_, fun hu => ?_⟩
            · rw [(ok_digit hf hD _ s).1] at ho
              exact .digit hD (h2 ho)
            · rw [(ok_digit hf hD _ s).1] at ho
              exact ⟨c, s, d, rfl, hD, h2 ho⟩
            · rw [(ok_digit hf hD _ s).1]
              exact h4 (fun hm => hu (by simp [hm]))

theorem prefix_iff (p : Byte) (b : Nat) : prefixBase p = some b ↔ BaseLetter p b := by
  unfold prefixBase BaseLetter
  split
  · rename_i h
    simp only [Option.some.injEq]
    constructor
    · rintro rfl; exact .inl ⟨h, rfl⟩
    · rintro (⟨_, rfl⟩ | ⟨h', _⟩ | ⟨h', _⟩)
      · rfl
      · rcases h with rfl | rfl <;> simp at h'
      · rcases h with rfl | rfl <;> simp at h'
  · rename_i h0
    split
    · rename_i h
      simp only [Option.some.injEq]
      constructor
      · rintro rfl; exact .inr (.inl ⟨h, rfl⟩)
      · rintro (⟨h', _⟩ | ⟨_, rfl⟩ | ⟨h', _⟩)
        · exact absurd h' h0
        · rfl
        · rcases h with rfl | rfl <;> simp at h'
    · rename_i h1
      split
      · rename_i h
        simp only [Option.some.injEq]
        constructor
        · rintro rfl; exact .inr (.inr ⟨h, rfl⟩)
        · rintro (⟨h', _⟩ | ⟨h', _⟩ | ⟨_, rfl⟩)
          · exact absurd h' h0
          · exact absurd h' h1
          · rfl
      · rename_i h2
        simp only [reduceCtorEq, false_iff]
        rintro (⟨h', _⟩ | ⟨h', _⟩ | ⟨h', _⟩)
        · exact h0 h'
        · exact h1 h'
        · exact h2 h'

theorem fits_prefix {p : Byte} {b : Nat} (h : BaseLetter p b) : Fits b (decide (b = 16)) := by
  rcases h with ⟨_, rfl⟩ | ⟨_, rfl⟩ | ⟨_, rfl⟩ <;> simp [Fits]

theorem letter_no_digit {p : Byte} {b : Nat} (h : BaseLetter p b) (v : Nat) : ¬ IsDigit 8 p v := by
  rintro ⟨h1, h2⟩
  have : p.toNat = 0x62 ∨ p.toNat = 0x42 ∨ p.toNat = 0x6f ∨ p.toNat = 0x4f ∨ p.toNat = 0x78 ∨ p.toNat = 0x58 := by
    rcases h with ⟨rfl | rfl, _⟩ | ⟨rfl | rfl, _⟩ | ⟨rfl | rfl, _⟩ <;> simp
  omega

theorem letter_no_more {p : Byte} {b : Nat} (h : BaseLetter p b) (n m : Nat) (t : Bytes) : ¬ MoreDigits 8 n (p :: t) m := by
  intro hm
  cases hm with
  | digit hd hs => exact letter_no_digit h _ hd
  | separated hd hs => rcases h with ⟨h | h, _⟩ | ⟨h | h, _⟩ | ⟨h | h, _⟩ <;> simp at h

/-- The check of underscores and the loop together. -/
theorem check_iff {b n m : Nat} {hex : Bool} {s : Bytes} {ok : Bool} (hf : Fits b hex) (hn : n ≤ 2 ^ 64 - 1) (hok : loop b n s = some m → ok = okLoop hex .digit s) :
    (loop b n s = some m ∧ ¬ (0x5f#8 ∈ s ∧ ok = false)) ↔ MoreDigits b n s m ∧ m ≤ 2 ^ 64 - 1 := by
  constructor
  · rintro ⟨h1, h2⟩
    obtain ⟨k1, k2, _, k4⟩ := more_of_loop hf s n m hn h1
    refine ⟨k2 ?_, k1⟩
    by_cases hu : 0x5f#8 ∈ s
    · rw [← hok h1]
      cases ok with
      | true => rfl
      | false => exact absurd ⟨hu, rfl⟩ h2
    · exact k4 hu
  · rintro ⟨h1, h2⟩
    obtain ⟨k1, k2⟩ := loop_of_more hf h1 h2
    refine ⟨k1, ?_⟩
    rintro ⟨_, h3⟩
    rw [hok k1, k2] at h3
    simp at h3

theorem parseUint_split (s : Bytes) (m : Nat) (h : s ≠ []) :
    parseUint s = some m ↔ (loop (split s).1 0 (split s).2 = some m ∧ ¬ (0x5f#8 ∈ (split s).2 ∧ underscoreOK s = false)) := by
  rw [parseUint, if_neg h]
  cases loop (split s).1 0 (split s).2 with
  | none => simp
  | some n =>
    simp only [Option.some.injEq]
    split
    · rename_i hc
      simp only [reduceCtorEq, false_iff]
      rintro ⟨_, hn⟩
      exact hn hc
    · rename_i hc
      simp only [Option.some.injEq]
      exact ⟨fun e => ⟨e, hc⟩, fun e => e.1⟩

theorem ok_zero (t : Bytes) (h : ∀ p u b, t = p :: u → prefixBase p ≠ some b) : underscoreOK (0x30#8 :: t) = okLoop false .digit t := by
  rw [underscoreOK, if_neg (by decide)]
  have e : okLoop false .start (0x30#8 :: t) = okLoop false .digit t := by rw [okLoop, if_pos (by simp)]
  cases t with
  | nil => simpa [okAfterSign] using e
  | cons p u =>
    cases hp : prefixBase p with
    | some b => exact absurd hp (h p u b rfl)
    | none => simpa [okAfterSign, hp] using e

theorem parseUint_iff (s : Bytes) (m : Nat) : parseUint s = some m ↔ GoUnsigned s m ∧ m ≤ 2 ^ 64 - 1 := by
  by_cases h : s = []
  · subst h
    simp only [parseUint, if_true, reduceCtorEq, false_iff]
    rintro ⟨h, _⟩
    cases h
  rw [parseUint_split s m h]
  obtain ⟨c, t, rfl⟩ : ∃ c t, s = c :: t := by
    cases s with
    | nil => exact absurd rfl h
    | cons c t => exact ⟨c, t, rfl⟩
  by_cases hc : c = 0x30#8
  · subst hc
    -- a 0
    by_cases hl : ∃ p d u b, t = p :: d :: u ∧ prefixBase p = some b
    · obtain ⟨p, d, u, b, rfl, hp⟩ := hl
      have hP := (prefix_iff p b).mp hp
      have hs : split (0x30#8 :: p :: d :: u) = (b, d :: u) := by simp [split, hp]
      rw [hs]
      have hok : underscoreOK (0x30#8 :: p :: d :: u) = okLoop (decide (b = 16)) .digit (d :: u) := by
        rw [underscoreOK, if_neg (by decide)]
        simp [okAfterSign, hp]
      rw [check_iff (fits_prefix hP) (by omega) (fun _ => hok)]
      constructor
      · rintro ⟨h1, h2⟩
        exact ⟨.lettered hP (by simp) h1, h2⟩
      · rintro ⟨h1, h2⟩
        cases h1 with
        | decimal hd h0 hs =>
          obtain ⟨hd1, hd2⟩ := hd
          have : (0x30#8).toNat = 48 := rfl
          omega
        | octal hs => exact absurd hs (letter_no_more hP _ _ _)
        | lettered hp' hne hm =>
          rw [(prefix_iff p _).mpr hp'] at hp
          simp only [Option.some.injEq] at hp
          subst hp
          exact ⟨hm, h2⟩
    · have hs : split (0x30#8 :: t) = (8, t) := by
        match t, hl with
        | [], _ => rfl
        | [p], _ => rfl
        | p :: d :: u, hl =>
          cases hp : prefixBase p with
          | some b => exact absurd ⟨p, d, u, b, rfl, hp⟩ hl
          | none => simp [split, hp]
      rw [hs]
      have hok : loop 8 0 t = some m → underscoreOK (0x30#8 :: t) = okLoop false .digit t := by
        intro hloop
        refine ok_zero t fun p u b e hp => ?_
        subst e
        have hP := (prefix_iff p b).mp hp
        rw [loop, if_neg (by rintro rfl; simp [prefixBase] at hp)] at hloop
        split at hloop
        · simp at hloop
        · rename_i d hd
          split at hloop
          · simp at hloop
          · rename_i hlt
            exact letter_no_digit hP d ((digit_iff p 8 d (by omega)).mp ⟨hd, by omega⟩)
      rw [check_iff (by simp [Fits]) (by omega) hok]
      constructor
      · rintro ⟨h1, h2⟩
        exact ⟨.octal h1, h2⟩
      · rintro ⟨h1, h2⟩
        cases h1 with
        | decimal hd h0 hs =>
          obtain ⟨hd1, hd2⟩ := hd
          have : (0x30#8).toNat = 48 := rfl
          omega
        | octal hs => exact ⟨hs, h2⟩
        | @lettered p b m u hp' hne hs =>
          cases u with
          | nil => exact absurd rfl hne
          | cons d u => exact absurd ⟨p, d, u, b, rfl, (prefix_iff p b).mpr hp'⟩ hl
  · -- not a 0
    have hs : split (c :: t) = (10, c :: t) := by
      unfold split
      split
      · rename_i t' e
        exact absurd (List.cons.inj e).1 hc
      · rfl
    rw [hs]
    have hf : Fits 10 false := by simp [Fits]
    constructor
    · rintro ⟨h1, h2⟩
      dsimp only at h1 h2
      by_cases hu : c = 0x5f#8
      · subst hu
        exfalso
        apply h2
        refine ⟨by simp, ?_⟩
        rw [underscoreOK, if_neg (by decide)]
        simp [okAfterSign, ok_under2]
      · rw [loop, if_neg hu] at h1
        split at h1
        · simp at h1
        · rename_i d hd
          split at h1
          · simp at h1
          · rename_i hlt
            rw [if_neg (by omega), Nat.zero_mul, Nat.zero_add] at h1
            have hD : IsDigit 10 c d := (digit_iff c 10 d (by omega)).mp ⟨hd, by omega⟩
            have hok : underscoreOK (c :: t) = okLoop false .digit t := by
              rw [underscoreOK, if_neg (by
                obtain ⟨_, hD2⟩ := hD
                rintro (rfl | rfl)
                · have : (0x2d#8).toNat = 45 := rfl
                  omega
                · have : (0x2b#8).toNat = 43 := rfl
                  omega)]
              have : okAfterSign (c :: t) = okLoop false .start (c :: t) := by
                unfold okAfterSign
                split
                · rename_i p u e
                  exact absurd (List.cons.inj e).1 hc
                · rfl
              rw [this, (ok_digit hf hD _ t).1]
            have := (check_iff (m := m) (s := t) hf (by omega) (fun _ => hok)).mp ⟨h1, fun ⟨ha, hb⟩ => h2 ⟨by simp [ha], hb⟩⟩
            refine ⟨.decimal hD ?_ this.1, this.2⟩
            rintro rfl
            obtain ⟨_, hD2⟩ := hD
            apply hc
            apply BitVec.eq_of_toNat_eq
            have : (0x30#8).toNat = 48 := rfl
            omega
    · rintro ⟨h1, h2⟩
      cases h1 with
      | octal hs => exact absurd rfl hc
      | lettered hp' hne hs => exact absurd rfl hc
      | @decimal c v m t hD h0 hm =>
        have hok : underscoreOK (c :: t) = okLoop false .digit t := by
          rw [underscoreOK, if_neg (by
            obtain ⟨_, hD2⟩ := hD
            rintro (rfl | rfl)
            · have : (0x2d#8).toNat = 45 := rfl
              omega
            · have : (0x2b#8).toNat = 43 := rfl
              omega)]
          have : okAfterSign (c :: t) = okLoop false .start (c :: t) := by
            unfold okAfterSign
            split
            · rename_i p u e
              exact absurd (List.cons.inj e).1 hc
            · rfl
          rw [this, (ok_digit hf hD _ t).1]
        have hm' : MoreDigits 10 0 (c :: t) m := .digit hD (by simpa using hm)
        obtain ⟨k1, k2⟩ := loop_of_more hf hm' h2
        refine ⟨k1, ?_⟩
        rintro ⟨_, h3⟩
        rw [(ok_digit hf hD _ t).1] at k2
        rw [hok, k2] at h3
        simp at h3

theorem unsigned_no_sign {c : Byte} {t : Bytes} {m : Nat} (h : GoUnsigned (c :: t) m) : c ≠ 0x2b#8 ∧ c ≠ 0x2d#8 := by
  cases h with
  | decimal hd h0 hs =>
    obtain ⟨_, hD2⟩ := hd
    constructor
    · rintro rfl
      have : (0x2b#8).toNat = 43 := rfl
      omega
    · rintro rfl
      have : (0x2d#8).toNat = 45 := rfl
      omega
  | octal hs => decide
  | lettered hp hne hs => decide

/-- C217: a text is read as a number exactly if it is written as numbers are in Go, with or without a sign, and fits 64 bits. -/
theorem number_read (s : Bytes) (n : Int) : parseInt s = some n ↔ GoNumber s n ∧ -2 ^ 63 ≤ n ∧ n < 2 ^ 63 := by
  cases s with
  | nil =>
    simp only [parseInt, reduceCtorEq, false_iff]
    rintro ⟨h, _⟩
    cases h with
    | plain h => cases h
  | cons c t =>
    unfold parseInt
    constructor
    · intro h
      dsimp only at h
      split at h
      · simp at h
      · rename_i m hm
        rw [parseUint_iff] at hm
        by_cases hp : c = 0x2b#8
        · subst hp
          simp only [true_or, if_true] at hm
          rw [if_neg (by decide)] at h
          split at h
          · simp at h
          · simp only [Option.some.injEq] at h
            subst h
            exact ⟨.plus hm.1, by omega, by omega⟩
        · by_cases hq : c = 0x2d#8
          · subst hq
            simp only [or_true, if_true] at hm h
            split at h
            · simp at h
            · simp only [Option.some.injEq] at h
              subst h
              exact ⟨.minus hm.1, by omega, by omega⟩
          · simp only [hp, hq, or_self, if_false] at hm h
            split at h
            · simp at h
            · simp only [Option.some.injEq] at h
              subst h
              exact ⟨.plain hm.1, by omega, by omega⟩
    · rintro ⟨h, h1, h2⟩
      cases h with
      | @plain _ m h =>
        obtain ⟨n1, n2⟩ := unsigned_no_sign h
        have := (parseUint_iff (c :: t) m).mpr ⟨h, by omega⟩
        simp only [n1, n2, or_self, if_false, this]
        rw [if_neg (by omega)]
      | @plus _ m h =>
        have := (parseUint_iff t m).mpr ⟨h, by omega⟩
        simp only [true_or, if_true, this]
        rw [if_neg (by decide), if_neg (by omega)]
      | @minus _ m h =>
        have := (parseUint_iff t m).mpr ⟨h, by omega⟩
        simp only [or_true, if_true, this]
        rw [if_neg (by omega)]

/-- `number_read` on `-0x_1F`, `010`, `1_000`, and not on `08`, `1__0` and `0x`. -/
example : parseInt [0x2d#8, 0x30#8, 0x78#8, 0x5f#8, 0x31#8, 0x46#8] = some (-31) ∧ parseInt [0x30#8, 0x31#8, 0x30#8] = some 8 ∧
    parseInt [0x31#8, 0x5f#8, 0x30#8, 0x30#8, 0x30#8] = some 1000 ∧ parseInt [0x30#8, 0x38#8] = none ∧ parseInt [0x31#8, 0x5f#8, 0x5f#8, 0x30#8] = none ∧
    parseInt [0x30#8, 0x78#8] = none := by decide +kernel

/-- The text `-0x_1F` is a number. -/
example : GoNumber [0x2d#8, 0x30#8, 0x78#8, 0x5f#8, 0x31#8, 0x46#8] (-31) :=
  .minus (m := 31) (.lettered (b := 16) (.inr (.inr ⟨.inl rfl, rfl⟩)) (by simp)
    (.separated (v := 1) ⟨by decide, .inl ⟨by decide, rfl⟩⟩ (.digit (v := 15) ⟨by decide, .inr ⟨by decide, by decide, .inr rfl⟩⟩ (.done 31))))

/-! ### The simpler form in `DevCats.parseHex` -/

theorem hexVal_digit (c : Byte) : hexVal c = match digit c with
    | some v => if v < 16 then some v else none
    | none => none := by
  revert c; decide +kernel

theorem loop_hex (s : Bytes) : ∀ (n : Nat), s.all (fun d => (hexVal d).isSome) = true → n ≤ 2 ^ 64 - 1 →
    loop 16 n s = if (s.filterMap hexVal).foldl (fun a d => 16 * a + d) n ≤ 2 ^ 64 - 1 then some ((s.filterMap hexVal).foldl (fun a d => 16 * a + d) n) else none := by
  have grow : ∀ (l : List Nat) (a : Nat), a ≤ l.foldl (fun a d => 16 * a + d) a := by
    intro l
    induction l with
    | nil => intro a; exact Nat.le_refl _
    | cons d l ih => intro a; exact Nat.le_trans (by omega) (ih (16 * a + d))
  induction s with
  | nil => intro n _ hn; exact (if_pos (c := n ≤ 2 ^ 64 - 1) hn).symm
  | cons c s ih =>
    intro n h hn
    simp only [List.all_cons, Bool.and_eq_true] at h
    have hc := hexVal_digit c
    cases hd : digit c with
    | none => rw [hd] at hc; simp [hc] at h
    | some v =>
      rw [hd] at hc
      dsimp only at hc
      by_cases hv : v < 16
      · rw [if_pos hv] at hc
        have hu : c ≠ 0x5f#8 := by
          rintro rfl
          have : hexVal 0x5f#8 = none := by decide
          rw [this] at hc
          simp at hc
        rw [loop, if_neg hu, hd, List.filterMap_cons_some hc, List.foldl_cons]
        simp only
        rw [if_neg (by omega), Nat.mul_comm n 16]
        by_cases ho : 16 * n + v > 2 ^ 64 - 1
        · rw [if_pos ho, if_neg]
          have := grow (s.filterMap hexVal) (16 * n + v)
          omega
        · rw [if_neg ho]
          exact ih (16 * n + v) h.2 (by omega)
      · rw [if_neg hv] at hc
        simp [hc] at h

theorem hex_no_under (s : Bytes) (h : s.all (fun d => (hexVal d).isSome) = true) : 0x5f#8 ∉ s := by
  intro hm
  have := List.all_eq_true.mp h _ hm
  revert this
  decide

/-- C217: the generator reads the numbers in its table in this way. -/
theorem number_read_here (s : Bytes) (n : Int) : DevCats.parseHex parseInt s = some n ↔ GoNumber s n ∧ -2 ^ 63 ≤ n ∧ n < 2 ^ 63 := by
  rw [← number_read]
  suffices h : DevCats.parseHex parseInt s = parseInt s by rw [h]
  unfold DevCats.parseHex
  split
  · rename_i x ds
    split
    · rename_i h
      obtain ⟨hx, hne, hall⟩ := h
      obtain ⟨d, u, rfl⟩ : ∃ d u, ds = d :: u := by
        cases ds with
        | nil => exact absurd rfl hne
        | cons d u => exact ⟨d, u, rfl⟩
      have hp : prefixBase x = some 16 := (prefix_iff x 16).mpr (.inr (.inr ⟨hx, rfl⟩))
      have hs : split (0x30#8 :: x :: d :: u) = (16, d :: u) := by simp [split, hp]
      have hl := loop_hex (d :: u) 0 hall (by omega)
      have hu := hex_no_under _ hall
      have e : parseUint (0x30#8 :: x :: d :: u) = loop 16 0 (d :: u) := by
        rw [parseUint, if_neg (by simp), hs]
        dsimp only
        cases loop 16 0 (d :: u) with
        | none => rfl
        | some n => simp [hu]
      have e2 : parseInt (0x30#8 :: x :: d :: u) = match parseUint (0x30#8 :: x :: d :: u) with
          | none => none
          | some n => if n ≥ 2 ^ 63 then none else some (n : Int) := by
        simp [parseInt]
        rfl
      rw [e2, e, hl, hexNumber]
      generalize ((d :: u).filterMap hexVal).foldl (fun a d => 16 * a + d) 0 = k
      by_cases ho : k ≤ 2 ^ 64 - 1
      · rw [if_pos ho]
        by_cases h63 : k < 2 ^ 63
        · simp only [h63, if_true]
          rw [if_neg (by omega)]
        · simp only [h63, if_false]
          rw [if_pos (by omega)]
      · rw [if_neg ho]
        simp only
        rw [if_neg (by omega)]
    · rfl
  · rfl

/-- `number_read_here` on `0x1f`. -/
example : DevCats.parseHex parseInt [0x30#8, 0x78#8, 0x31#8, 0x66#8] = some 31 := by decide +kernel

end Num
end Insteon
