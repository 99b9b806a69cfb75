import Verif.Lemmas.Reader

/-
Reading a stream as it arrives: what was found in the first part of it stays found.
-/

namespace Insteon
open Spec

/-- A lone start-of-text is never a packet. -/
theorem sync_stx_never (ia : Bool) (fuel : Nat) (l : Option Byte) : sync ia fuel ⟨[0x02#8], l⟩ = none := by
  induction fuel generalizing l with
  | zero => rfl
  | succ f ih => rw [sync_stx_end, ih]

theorem sync_more {ia : Bool} {fuel : Nat} {a a' : Bytes} {l l' : Option Byte} {r : Byte × Nat}
    (h : sync ia fuel ⟨a, l⟩ = some (.ok r, ⟨a', l'⟩)) (b : Bytes) {fuel' : Nat} (hf : fuel ≤ fuel') :
    sync ia fuel' ⟨a ++ b, l⟩ = some (.ok r, ⟨a' ++ b, l'⟩) := by
  induction fuel generalizing a l fuel' with
  | zero => simp [sync] at h
  | succ f ih =>
    obtain ⟨g, rfl⟩ : ∃ g, fuel' = g + 1 := ⟨fuel' - 1, by omega⟩
    cases a with
    | nil => simp [sync, Buf.readByte] at h
    | cons x a =>
      by_cases hx : x = 0x02#8
      · subst hx
        cases a with
        | nil => rw [sync_stx_never] at h; simp at h
        | cons c a =>
          cases hc : commandLen c with
          | none =>
            rw [sync_stx_unknown ia f c a l ((not_known_iff c).mpr hc)] at h
            rw [List.cons_append, List.cons_append, sync_stx_unknown ia g c (a ++ b) l ((not_known_iff c).mpr hc)]
            exact ih h (by omega)
          | some n =>
            rw [sync_stx_known ia f c a l n hc] at h
            rw [List.cons_append, List.cons_append, sync_stx_known ia g c (a ++ b) l n hc]
            simp only [Option.some.injEq, Prod.mk.injEq, Except.ok.injEq, Buf.mk.injEq] at h ⊢
            obtain ⟨h1, rfl, h3⟩ := h
            exact ⟨h1, rfl, h3⟩
      · rw [sync_skip ia f x a l hx] at h
        rw [List.cons_append, sync_skip ia g x (a ++ b) l hx]
        exact ih h (by omega)

theorem readFull_more {a a' d : Bytes} {l l' : Option Byte} {n : Nat}
    (h : Buf.readFull ⟨a, l⟩ n = (.ok d, ⟨a', l'⟩)) (b : Bytes) : Buf.readFull ⟨a ++ b, l⟩ n = (.ok d, ⟨a' ++ b, l'⟩) := by
  unfold Buf.readFull at h ⊢
  by_cases h0 : n = 0
  · simp only [h0, if_true, Prod.mk.injEq, Except.ok.injEq, Buf.mk.injEq] at h ⊢
    obtain ⟨h1, rfl, h3⟩ := h
    exact ⟨h1, rfl, h3⟩
  · rw [if_neg h0] at h ⊢
    dsimp only at h ⊢
    by_cases hn : a.length < n
    · rw [if_pos hn] at h; simp at h
    · rw [if_neg hn] at h
      have hn' : n ≤ a.length := by omega
      rw [if_neg (by simp; omega)]
      simp only [Prod.mk.injEq, Except.ok.injEq, Buf.mk.injEq, List.take_append_of_le_length hn',
        List.drop_append_of_le_length hn'] at h ⊢
      obtain ⟨h1, rfl, h3⟩ := h
      exact ⟨h1, rfl, h3⟩

theorem readFrame_more {ia : Bool} {fuel : Nat} {a a' d : Bytes} {l l' : Option Byte}
    (h : readFrame ia fuel ⟨a, l⟩ = some (.ok d, ⟨a', l'⟩)) (b : Bytes) {fuel' : Nat} (hf : fuel ≤ fuel') :
    readFrame ia fuel' ⟨a ++ b, l⟩ = some (.ok d, ⟨a' ++ b, l'⟩) := by
  unfold readFrame at h ⊢
  rcases hs : sync ia fuel ⟨a, l⟩ with _ | ⟨e | ⟨cmd, n⟩, ⟨a1, l1⟩⟩ <;> rw [hs] at h
  · simp at h
  · simp at h
  · rw [sync_more hs b hf]
    dsimp only at h ⊢
    by_cases hp : maxPaclen < 2 + n
    · rw [if_pos hp] at h; simp at h
    · rw [if_neg hp] at h ⊢
      rcases hr : Buf.readFull ⟨a1, l1⟩ n with ⟨e | d1, ⟨a2, l2⟩⟩ <;> rw [hr] at h
      · simp at h
      · rw [readFull_more hr b]
        dsimp only at h ⊢
        by_cases hc : cmd = PCmd.sendInsteonMsg
        · rw [if_pos hc] at h ⊢
          rcases hg : ([0x02#8, cmd] ++ d1)[5]? with _ | f <;> rw [hg] at h
          · simp at h
          · dsimp only at h ⊢
            by_cases hx : Flags.extended f = true
            · rw [if_pos hx] at h ⊢
              by_cases hq : maxPaclen < 2 + n + 14
              · rw [if_pos hq] at h; simp at h
              · rw [if_neg hq] at h ⊢
                rcases hr2 : Buf.readFull ⟨a2, l2⟩ 14 with ⟨e | d2, ⟨a3, l3⟩⟩ <;> rw [hr2] at h
                · simp at h
                · rw [readFull_more hr2 b]
                  simp only [Option.some.injEq, Prod.mk.injEq, Out.ok.injEq, Buf.mk.injEq] at h ⊢
                  obtain ⟨h1, rfl, h3⟩ := h
                  exact ⟨h1, rfl, h3⟩
            · rw [if_neg hx] at h ⊢
              simp only [Option.some.injEq, Prod.mk.injEq, Out.ok.injEq, Buf.mk.injEq] at h ⊢
              obtain ⟨h1, rfl, h3⟩ := h
              exact ⟨h1, rfl, h3⟩
        · rw [if_neg hc] at h ⊢
          simp only [Option.some.injEq, Prod.mk.injEq, Out.ok.injEq, Buf.mk.injEq] at h ⊢
          obtain ⟨h1, rfl, h3⟩ := h
          exact ⟨h1, rfl, h3⟩

theorem readPacket_more {ia : Bool} {fuel : Nat} {a a' : Bytes} {l l' : Option Byte} {p : Packet}
    (h : readPacket ia fuel ⟨a, l⟩ = some (.ok p, ⟨a', l'⟩)) (b : Bytes) {fuel' : Nat} (hf : fuel ≤ fuel') :
    readPacket ia fuel' ⟨a ++ b, l⟩ = some (.ok p, ⟨a' ++ b, l'⟩) := by
  unfold readPacket at h ⊢
  rcases hs : readFrame ia fuel ⟨a, l⟩ with _ | ⟨d | e | _, ⟨a1, l1⟩⟩ <;> rw [hs] at h
  · simp at h
  · rw [readFrame_more hs b hf]
    simp only [Option.some.injEq, Prod.mk.injEq, Buf.mk.injEq] at h ⊢
    obtain ⟨h1, rfl, h3⟩ := h
    exact ⟨h1, rfl, h3⟩
  · simp at h
  · simp at h

theorem readMany_more (ia : Bool) {fuel fuel' : Nat} (hf : fuel ≤ fuel') (b : Bytes) : ∀ {n n' : Nat}, n ≤ n' → ∀ (a : Bytes)
    (l : Option Byte), readMany ia fuel n ⟨a, l⟩ <+: readMany ia fuel' n' ⟨a ++ b, l⟩
  | 0, _, _, _, _ => by simp [readMany]
  | n + 1, n', hn, a, l => by
    obtain ⟨m, rfl⟩ : ∃ m, n' = m + 1 := ⟨n' - 1, by omega⟩
    unfold readMany
    rcases hr : readPacket ia fuel ⟨a, l⟩ with _ | ⟨p | e | _, ⟨a1, l1⟩⟩
    · exact List.nil_prefix
    · rw [readPacket_more hr b hf]
      exact List.prefix_cons_inj p |>.mpr (readMany_more ia hf b (by omega) a1 l1)
    · exact List.nil_prefix
    · exact List.nil_prefix

/-- The packets in the first part of a stream are the first packets of the stream. -/
theorem packetsIn_append (ia : Bool) (a b : Bytes) : packetsIn ia a <+: packetsIn ia (a ++ b) :=
  readMany_more ia (by simp) b (by simp) a none

theorem packetsIn_prefix (ia : Bool) {a b : Bytes} (h : a <+: b) : packetsIn ia a <+: packetsIn ia b := by
  obtain ⟨c, rfl⟩ := h
  exact packetsIn_append ia a c

end Insteon
