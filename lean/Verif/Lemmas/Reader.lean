import Verif.Model.Reader
import Verif.Spec.Modem
import Verif.Props.Message

/-
The packet reader against the modem specification.
-/

namespace Insteon
open Spec

theorem commandLen_iff (c : Byte) (n : Nat) : commandLen c = some n ↔ (c.toNat, n) ∈ lengthTable := by
  have h1 : ∀ c : Byte, commandLen c = none ∨ (c.toNat, (commandLen c).getD 0) ∈ lengthTable := by
    decide +kernel
  have h2 : ∀ e ∈ lengthTable, commandLen (BitVec.ofNat 8 e.1) = some e.2 := by decide +kernel
  constructor
  · intro h
    have := h1 c
    rw [h] at this
    simpa using this
  · intro h
    have := h2 _ h
    simpa using this

theorem known_iff (c : Byte) : Known c ↔ ∃ n, commandLen c = some n := by
  simp only [Known, commandLen_iff]

theorem not_known_iff (c : Byte) : ¬ Known c ↔ commandLen c = none := by
  rw [known_iff]
  cases commandLen c <;> simp

theorem stx_not_known : ¬ Known 0x02#8 := by rw [not_known_iff]; decide

theorem commandLen_le (c : Byte) (n : Nat) (h : commandLen c = some n) : n ≤ 23 := by
  rw [commandLen_iff] at h
  have : ∀ e ∈ lengthTable, e.2 ≤ 23 := by decide
  exact this _ h

theorem quiet_tail {b : Byte} {s : Bytes} (h : Quiet (b :: s)) : Quiet s := by
  rintro ⟨a, c, r, rfl, hk⟩
  exact h ⟨b :: a, c, r, by simp, hk⟩

theorem quiet_stx {c : Byte} {s : Bytes} (h : Quiet (0x02#8 :: c :: s)) : ¬ Known c :=
  fun hk => h ⟨[], c, s, by simp, hk⟩

/-- One step of `sync` over a byte that is not start-of-text. -/
theorem sync_skip (ia : Bool) (fuel : Nat) (b : Byte) (s : Bytes) (l : Option Byte)
    (h : b ≠ 0x02#8) :
    sync ia (fuel + 1) ⟨b :: s, l⟩ = sync ia fuel ⟨s, some b⟩ := by
  simp [sync, Buf.readByte, h]

/-- One step of `sync` over a start-of-text byte followed by something unknown. -/
theorem sync_stx_unknown (ia : Bool) (fuel : Nat) (c : Byte) (s : Bytes) (l : Option Byte)
    (h : ¬ Known c) :
    sync ia (fuel + 1) ⟨0x02#8 :: c :: s, l⟩ = sync ia fuel ⟨c :: s, none⟩ := by
  rw [not_known_iff] at h
  simp [sync, Buf.readByte, h, Buf.unreadByte]

theorem sync_stx_known (ia : Bool) (fuel : Nat) (c : Byte) (s : Bytes) (l : Option Byte) (n : Nat)
    (h : commandLen c = some n) :
    sync ia (fuel + 1) ⟨0x02#8 :: c :: s, l⟩ = some (.ok (c, syncLen ia c n), ⟨s, some c⟩) := by
  simp [sync, Buf.readByte, h]

theorem sync_stx_end (ia : Bool) (fuel : Nat) (l : Option Byte) :
    sync ia (fuel + 1) ⟨[0x02#8], l⟩ = sync ia fuel ⟨[0x02#8], none⟩ := by
  have h : commandLen 0#8 = none := by decide
  simp [sync, Buf.readByte, h, Buf.unreadByte]

/-- `sync` runs over quiet noise up to the next frame. -/
theorem sync_noise (ia : Bool) (noise : Bytes) (c : Byte) (body : Bytes) (n : Nat)
    (hq : Quiet noise) (hc : commandLen c = some n) (fuel : Nat) (hf : noise.length < fuel)
    (l : Option Byte) :
    sync ia fuel ⟨noise ++ 0x02#8 :: c :: body, l⟩ = some (.ok (c, syncLen ia c n), ⟨body, some c⟩) := by
  induction noise generalizing fuel l with
  | nil =>
    obtain ⟨f, rfl⟩ : ∃ f, fuel = f + 1 := ⟨fuel - 1, by simp at hf; omega⟩
    exact sync_stx_known ia f c body l n hc
  | cons b noise ih =>
    obtain ⟨f, rfl⟩ : ∃ f, fuel = f + 1 := ⟨fuel - 1, by simp at hf; omega⟩
    have ih := fun l => ih (quiet_tail hq) f (by simp at hf; omega) l
    by_cases hb : b = 0x02#8
    · subst hb
      cases noise with
      | nil =>
        simp only [List.cons_append, List.nil_append]
        rw [sync_stx_unknown ia f _ _ l stx_not_known]
        exact ih none
      | cons d noise =>
        simp only [List.cons_append]
        rw [sync_stx_unknown ia f _ _ l (quiet_stx hq)]
        exact ih none
    · simp only [List.cons_append]
      rw [sync_skip ia f _ _ l hb]
      exact ih (some b)

/-- A quiet stream that does not end in start-of-text runs to the end of file. -/
theorem sync_quiet_end (ia : Bool) (s : Bytes) (hq : Quiet s) (he : s.getLast? ≠ some 0x02#8)
    (fuel : Nat) (hf : s.length < fuel) (l : Option Byte) :
    ∃ l', sync ia fuel ⟨s, l⟩ = some (.error .eof, ⟨[], l'⟩) := by
  induction s generalizing fuel l with
  | nil =>
    obtain ⟨f, rfl⟩ : ∃ f, fuel = f + 1 := ⟨fuel - 1, by simp at hf; omega⟩
    exact ⟨l, by simp [sync, Buf.readByte]⟩
  | cons b s ih =>
    obtain ⟨f, rfl⟩ : ∃ f, fuel = f + 1 := ⟨fuel - 1, by simp at hf; omega⟩
    by_cases hb : b = 0x02#8
    · subst hb
      cases s with
      | nil => simp at he
      | cons d s =>
        rw [sync_stx_unknown ia f _ _ l (quiet_stx hq)]
        exact ih (quiet_tail hq) (by simpa using he) f (by simp at hf ⊢; omega) none
    · rw [sync_skip ia f _ _ l hb]
      cases s with
      | nil =>
        obtain ⟨f', rfl⟩ : ∃ f', f = f' + 1 := ⟨f - 1, by simp at hf; omega⟩
        exact ⟨some b, by simp [sync, Buf.readByte]⟩
      | cons d s =>
        exact ih (quiet_tail hq) (by simpa using he) f (by simp at hf ⊢; omega) (some b)

/-- A quiet stream that ends in start-of-text never returns. -/
theorem sync_spins (ia : Bool) (s : Bytes) (hq : Quiet s) (he : s.getLast? = some 0x02#8)
    (fuel : Nat) (l : Option Byte) : sync ia fuel ⟨s, l⟩ = none := by
  induction fuel generalizing s l with
  | zero => rfl
  | succ f ih =>
    cases s with
    | nil => simp at he
    | cons b s =>
      by_cases hb : b = 0x02#8
      · subst hb
        cases s with
        | nil =>
          rw [sync_stx_end]
          exact ih [0x02#8] hq rfl none
        | cons d s =>
          rw [sync_stx_unknown ia f _ _ l (quiet_stx hq)]
          exact ih (d :: s) (quiet_tail hq) (by simpa using he) none
      · rw [sync_skip ia f _ _ l hb]
        cases s with
        | nil => simp at he; exact absurd he hb
        | cons d s => exact ih (d :: s) (quiet_tail hq) (by simpa using he) (some b)

/-- Every stream is quiet or starts with quiet noise and a start-of-frame. -/
theorem quiet_or_start (s : Bytes) :
    Quiet s ∨ ∃ noise c rest, s = noise ++ 0x02#8 :: c :: rest ∧ Quiet noise ∧ Known c := by
  induction s with
  | nil => left; rintro ⟨a, c, b, h, -⟩; simp at h
  | cons x s ih =>
    by_cases hstart : ∃ c rest, x = 0x02#8 ∧ s = c :: rest ∧ Known c
    · obtain ⟨c, rest, rfl, rfl, hk⟩ := hstart
      right
      exact ⟨[], c, rest, rfl, by rintro ⟨a, c, b, h, -⟩; simp at h, hk⟩
    · have hcons : ∀ t, Quiet t → (∀ c r, x = 0x02#8 → t = c :: r → ¬ Known c) → Quiet (x :: t) := by
        rintro t ht hx ⟨a, c, b, he, hk⟩
        cases a with
        | nil =>
          simp only [List.nil_append, List.cons.injEq] at he
          exact hx c b he.1 he.2 hk
        | cons y a =>
          simp only [List.cons_append, List.cons.injEq] at he
          exact ht ⟨a, c, b, he.2, hk⟩
      rcases ih with hq | ⟨noise, c, rest, rfl, hq, hk⟩
      · left
        exact hcons s hq (fun c r h1 h2 hk => hstart ⟨c, r, h1, h2, hk⟩)
      · right
        refine ⟨x :: noise, c, rest, by simp, ?_, hk⟩
        apply hcons noise hq
        intro c' r' h1 h2 hk'
        exact hstart ⟨c', r' ++ 0x02#8 :: c :: rest, h1, by simp [h2], hk'⟩

theorem readFull_ok (b : Buf) (n : Nat) (h : n ≤ b.rest.length) :
    ∃ l, b.readFull n = (.ok (b.rest.take n), ⟨b.rest.drop n, l⟩) := by
  unfold Buf.readFull
  by_cases h0 : n = 0
  · subst h0; exact ⟨b.last, by simp⟩
  · rw [if_neg h0, if_neg (by omega)]
    exact ⟨_, rfl⟩

theorem readFull_short (b : Buf) (n : Nat) (h : b.rest.length < n) :
    ∃ e s, b.readFull n = (.error e, s) ∧ (e = .eof ∨ e = .unexpectedEOF) := by
  unfold Buf.readFull
  rw [if_neg (by omega), if_pos h]
  refine ⟨_, _, rfl, ?_⟩
  split_ifs <;> simp

/-- The body `read` expects after `sync` found `cmd`: `k` bytes, 14 more for an extended 0x62. -/
theorem readFrame_after_sync (ia : Bool) (fuel : Nat) (s s' : Buf) (c : Byte) (n : Nat)
    (hc : commandLen c = some n) (hs : sync ia fuel s = some (.ok (c, syncLen ia c n), s')) :
    (∃ body rest l, s'.rest = body ++ rest ∧
        readFrame ia fuel s = some (.ok (0x02#8 :: c :: body), ⟨rest, l⟩) ∧
        body.length = syncLen ia c n +
          (if c = 0x62#8 ∧ (∃ f, body[3]? = some f ∧ isExtended f) then 14 else 0)) ∨
    (∃ e s'', readFrame ia fuel s = some (.err e, s'') ∧ (e = .eof ∨ e = .unexpectedEOF)) := by
  have hn := commandLen_le c n hc
  have hsl : syncLen ia c n ≤ 23 := by unfold syncLen; split_ifs <;> omega
  by_cases hlen : syncLen ia c n ≤ s'.rest.length
  · obtain ⟨l, hr⟩ := readFull_ok s' _ hlen
    by_cases h62 : c = 0x62#8
    · have hn7 : n = 7 := by subst h62; rw [commandLen] at hc; simpa using hc.symm
      have hsl6 : 6 ≤ syncLen ia c n := by unfold syncLen; split_ifs <;> omega
      have hsl7 : syncLen ia c n ≤ 7 := by unfold syncLen; split_ifs <;> omega
      obtain ⟨f, hf⟩ : ∃ f, (s'.rest.take (syncLen ia c n))[3]? = some f := by
        exact ⟨_, List.getElem?_eq_getElem (by rw [List.length_take]; omega)⟩
      have hf5 : ([0x02#8, c] ++ s'.rest.take (syncLen ia c n))[5]? = some f := by
        simpa using hf
      by_cases hx : Flags.extended f = true
      · have hx' := (extended_iff f).mp hx
        by_cases hmore : 14 ≤ (s'.rest.drop (syncLen ia c n)).length
        · obtain ⟨l2, hr2⟩ := readFull_ok ⟨s'.rest.drop (syncLen ia c n), l⟩ 14 hmore
          left
          refine ⟨s'.rest.take (syncLen ia c n) ++ (s'.rest.drop (syncLen ia c n)).take 14,
            (s'.rest.drop (syncLen ia c n)).drop 14, l2, ?_, ?_, ?_⟩
          · rw [List.append_assoc, List.take_append_drop, List.take_append_drop]
          · unfold readFrame
            rw [hs]
            dsimp only
            rw [if_neg (show ¬ maxPaclen < 2 + syncLen ia c n by unfold maxPaclen; omega), hr]
            simp only [h62, PCmd.sendInsteonMsg, if_true]
            rw [h62] at hf5
            simp only [hf5, hx, if_true]
            rw [h62] at hr2 hsl7
            rw [if_neg (show ¬ maxPaclen < 2 + syncLen ia 0x62#8 n + 14 by unfold maxPaclen; omega), hr2]
            simp
          · have h3 : (s'.rest.take (syncLen ia c n) ++ (s'.rest.drop (syncLen ia c n)).take 14)[3]?
                = some f := by
              rw [List.getElem?_append_left (by rw [List.length_take]; omega)]; exact hf
            rw [if_pos ⟨h62, f, h3, hx'⟩]
            rw [List.length_append, List.length_take, List.length_take]
            omega
        · right
          obtain ⟨e, s2, hr2, he⟩ := readFull_short ⟨s'.rest.drop (syncLen ia c n), l⟩ 14 (by
            simpa using hmore)
          refine ⟨e, s2, ?_, he⟩
          unfold readFrame
          rw [hs]
          dsimp only
          rw [if_neg (show ¬ maxPaclen < 2 + syncLen ia c n by unfold maxPaclen; omega), hr]
          simp only [h62, PCmd.sendInsteonMsg, if_true]
          rw [h62] at hf5
          simp only [hf5, hx, if_true]
          rw [h62] at hr2 hsl7
          rw [if_neg (show ¬ maxPaclen < 2 + syncLen ia 0x62#8 n + 14 by unfold maxPaclen; omega), hr2]
      · have hx' : ¬ isExtended f := fun h => hx ((extended_iff f).mpr h)
        left
        refine ⟨s'.rest.take (syncLen ia c n), s'.rest.drop (syncLen ia c n), l,
          (List.take_append_drop _ _).symm, ?_, ?_⟩
        · unfold readFrame
          rw [hs]
          dsimp only
          rw [if_neg (show ¬ maxPaclen < 2 + syncLen ia c n by unfold maxPaclen; omega), hr]
          simp only [h62, PCmd.sendInsteonMsg, if_true]
          rw [h62] at hf5
          simp only [hf5, hx]
          simp
        · rw [if_neg]
          · rw [List.length_take]; omega
          · rintro ⟨-, g, hg, hgx⟩
            rw [hf] at hg
            simp at hg; subst hg
            exact hx' hgx
    · left
      refine ⟨s'.rest.take (syncLen ia c n), s'.rest.drop (syncLen ia c n), l,
        (List.take_append_drop _ _).symm, ?_, ?_⟩
      · unfold readFrame
        rw [hs]
        dsimp only
        rw [if_neg (show ¬ maxPaclen < 2 + syncLen ia c n by unfold maxPaclen; omega), hr]
        simp [PCmd.sendInsteonMsg, h62]
      · rw [if_neg (fun h => h62 h.1)]
        rw [List.length_take]; omega
  · right
    obtain ⟨e, s2, hr, he⟩ := readFull_short s' (syncLen ia c n) (by omega)
    refine ⟨e, s2, ?_, he⟩
    unfold readFrame
    rw [hs]
    dsimp only
    rw [if_neg (show ¬ maxPaclen < 2 + syncLen ia c n by unfold maxPaclen; omega), hr]

end Insteon
