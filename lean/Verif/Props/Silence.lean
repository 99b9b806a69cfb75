import Verif.Spec.Silence
import Verif.Props.Timed

/-
Waiting ends when the line falls silent, and only then: C194.
-/

namespace Insteon
open Insteon.Spec

section
variable {τ : Type} {react : τ → Nat → Bytes → τ × Nat × Option Err × List (Nat × Packet) × List (Nat × Packet)} {tie : Nat → Bool} {timeout : Int}

theorem read_silent (last : Nat) (s : Timed τ) (hn : s.now ≤ last) (hq : SilentAfter last timeout.toNat s.msgs) :
    (∃ m rest msg e, s.msgs = m :: rest ∧ m.1 ≤ last ∧
      Plm.read (Timed.io react tie timeout) s = ({ s with now := max s.now m.1, msgs := rest }, .ret (some msg) e)) ∨
    (∃ s' r, Plm.read (Timed.io react tie timeout) s = (s', r) ∧ s'.now ≤ last + timeout.toNat ∧
      (r = .panic ∨ r = .ret none (some (.wrapped .insReadTimeout)))) := by
  unfold Plm.read Timed.io Timed.select
  dsimp only
  rcases hm : s.msgs with _ | ⟨⟨t, p⟩, rest⟩
  · right
    rcases he : s.ends with _ | c
    · exact ⟨_, _, rfl, by dsimp only; omega, Or.inr rfl⟩
    · dsimp only
      by_cases hf : Timed.first (max s.now c) (s.now + timeout.toNat) (tie (s.now + timeout.toNat)) = true
      · rw [if_pos hf]
        refine ⟨_, _, rfl, ?_, Or.inl rfl⟩
        unfold Timed.first at hf
        simp only [Bool.or_eq_true, decide_eq_true_eq, Bool.and_eq_true] at hf
        dsimp only
        omega
      · rw [if_neg hf]
        exact ⟨_, _, rfl, by dsimp only; omega, Or.inr rfl⟩
  · dsimp only
    by_cases hf : Timed.first (max s.now t) (s.now + timeout.toNat) (tie (s.now + timeout.toNat)) = true
    · left
      rw [if_pos hf]
      refine ⟨(t, p), rest, _, _, rfl, ?_, rfl⟩
      have := hq (t, p) (by rw [hm]; simp)
      unfold Timed.first at hf
      simp only [Bool.or_eq_true, decide_eq_true_eq, Bool.and_eq_true] at hf
      dsimp only at this ⊢
      omega
    · right
      rw [if_neg hf]
      exact ⟨_, _, rfl, by dsimp only; omega, Or.inr rfl⟩

/-- C194: a call that waits for a certain message ends at the latest one timeout after the line has fallen silent; if it got its message, then before. -/
theorem read_ends_partial (matcher : Matcher) (last fuel : Nat) (s : Timed τ) (hn : s.now ≤ last) (hq : SilentAfter last timeout.toNat s.msgs)
    (hf : s.msgs.length < fuel) :
    ∃ s' r, Dev.read (arriving react tie timeout) matcher fuel s = some (s', r) ∧ s'.now ≤ last + timeout.toNat ∧
      ((∃ m, r = .ret (some m) none) → s'.now ≤ last ∧ ∃ taken, s.msgs = taken ++ s'.msgs ∧ taken ≠ []) := by
  induction fuel generalizing s with
  | zero => omega
  | succ fuel ih =>
    rw [Dev.read]
    rcases read_silent (react := react) (tie := tie) last s hn hq with ⟨m, rest, msg, e, hm, hl, hr⟩ | ⟨s', r, hr, ht, hx⟩
    · have hr' : (arriving react tie timeout).read s = ({ s with now := max s.now m.1, msgs := rest }, .ret (some msg) e) := hr
      rw [hr']
      rcases e with _ | e
      · dsimp only
        by_cases hmt : matcher msg = true
        · rw [if_pos hmt]
          exact ⟨_, _, rfl, by dsimp only; omega, fun _ => ⟨by dsimp only; omega, [m], by rw [hm]; rfl, by simp⟩⟩
        · rw [if_neg hmt]
          obtain ⟨s', r, h1, h2, h3⟩ := ih { s with now := max s.now m.1, msgs := rest } (by dsimp only; omega)
            (fun x hx => hq x (by rw [hm]; exact List.mem_cons_of_mem _ hx)) (by dsimp only; rw [hm, List.length_cons] at hf; omega)
          refine ⟨s', r, h1, h2, fun h => ?_⟩
          obtain ⟨h4, taken, h5, _⟩ := h3 h
          exact ⟨h4, m :: taken, by rw [hm]; dsimp only at h5; rw [h5]; rfl, by simp⟩
      · dsimp only
        exact ⟨_, _, rfl, by dsimp only; omega, fun ⟨_, h⟩ => by simp at h⟩
    · have hr' : (arriving react tie timeout).read s = (s', r) := hr
      rw [hr']
      rcases hx with rfl | rfl
      · exact ⟨_, _, rfl, ht, fun ⟨_, h⟩ => by simp at h⟩
      · exact ⟨_, _, rfl, ht, fun ⟨_, h⟩ => by simp at h⟩

/-- C194: so does the wait for an acknowledgement after a message has been written. -/
theorem await_ends_partial (dst : Address) (last fuel : Nat) (s : Timed τ) (hn : s.now ≤ last) (hq : SilentAfter last timeout.toNat s.msgs)
    (hf : s.msgs.length < fuel) :
    ∃ s' r, Plm.awaitAck (Timed.io react tie timeout) dst fuel s = some (s', r) ∧ s'.now ≤ last + timeout.toNat := by
  induction fuel generalizing s with
  | zero => omega
  | succ fuel ih =>
    rw [Plm.awaitAck]
    rcases read_silent (react := react) (tie := tie) last s hn hq with ⟨m, rest, msg, e, hm, hl, hr⟩ | ⟨s', r, hr, ht, hx⟩
    · rw [hr]
      rcases e with _ | e
      · dsimp only
        by_cases hmt : msg.src = dst ∧ (msg.flags.ack = true ∨ msg.flags.nak = true)
        · rw [if_pos hmt]
          exact ⟨_, _, rfl, by dsimp only; omega⟩
        · rw [if_neg hmt]
          exact ih { s with now := max s.now m.1, msgs := rest } (by dsimp only; omega)
            (fun x hx => hq x (by rw [hm]; exact List.mem_cons_of_mem _ hx)) (by dsimp only; rw [hm, List.length_cons] at hf; omega)
      · exact ⟨_, _, rfl, by dsimp only; omega⟩
    · rw [hr]
      rcases hx with rfl | rfl
      · exact ⟨_, _, rfl, ht⟩
      · exact ⟨_, _, rfl, ht⟩

/-- C194: so does a download of a device's links, however many records have come. -/
theorem download_ends_partial (last fuelRead fuel : Nat) (s : Timed τ) (ldb : Ldb) (seen : MemAddress) (hn : s.now ≤ last)
    (hq : SilentAfter last timeout.toNat s.msgs) (hf : s.msgs.length < fuel) (hr : s.msgs.length < fuelRead) :
    ∃ s' ldb' r, Ldb.refreshLoop (arriving react tie timeout) fuelRead fuel s ldb seen = some (s', ldb', r) ∧ s'.now ≤ last + timeout.toNat := by
  induction fuel generalizing s ldb seen with
  | zero => omega
  | succ fuel ih =>
    rw [Ldb.refreshLoop]
    obtain ⟨s1, r1, h1, h2, h3⟩ := read_ends_partial (react := react) (tie := tie) (Matcher.cmd Cmd.readWriteALDB) last fuelRead s hn hq hr
    rw [h1]
    rcases r1 with ⟨_ | m, _ | e⟩ | _
    · exact ⟨_, _, _, rfl, h2⟩
    · exact ⟨_, _, _, rfl, h2⟩
    · obtain ⟨h4, taken, h5, h6⟩ := h3 ⟨m, rfl⟩
      have hlen : s1.msgs.length < s.msgs.length := by
        rw [h5, List.length_append]
        have := List.length_pos_iff.mpr h6
        omega
      have hq1 : SilentAfter last timeout.toNat s1.msgs := fun x hx => hq x (by rw [h5]; exact List.mem_append_right _ hx)
      dsimp only
      rcases LinkRequest.zero.unmarshalBinary m.payload with ⟨lr, _ | e⟩
      · dsimp only
        by_cases hl : lr.memAddress ≠ seen
        · rw [if_pos hl]
          rcases lr.link with _ | l
          · exact ⟨_, _, _, rfl, h2⟩
          · dsimp only
            by_cases hx : l.flags.lastRecord = true
            · rw [if_pos hx]; exact ⟨_, _, _, rfl, h2⟩
            · rw [if_neg hx]; exact ih s1 _ _ h4 hq1 (by omega) (by omega)
        · rw [if_neg hl]
          exact ih s1 _ _ h4 hq1 (by omega) (by omega)
      · exact ⟨_, _, _, rfl, h2⟩
    · exact ⟨_, _, _, rfl, h2⟩
    · exact ⟨_, _, _, rfl, h2⟩

end

/-- C194 in full is false of the code: a device stops in the middle of sending its links, and the download goes on as long as other devices send something
every three seconds, with the default settings. -/
theorem download_ends_refuted :
    ¬ ∃ bound, ∀ (s s' : Timed Unit) (fuel : Nat) (ldb ldb' : Ldb) (seen : MemAddress) (r : Out (Option Err)),
      Ldb.refreshLoop (arriving echoing (fun _ => true) PlmCfg.initial.timeout) fuel fuel s ldb seen = some (s', ldb', r) →
      s'.now ≤ s.now + bound := by
  rintro ⟨bound, h⟩
  have key : ∀ (n k : Nat) (s : Timed Unit), s.now = k * oneSecond → s.msgs = everySecond k n → s.ends = none →
      ∃ s', Dev.read (arriving echoing (fun _ => true) PlmCfg.initial.timeout) (Matcher.cmd Cmd.readWriteALDB) (n + 1) s =
        some (s', .ret none (some (.wrapped .insReadTimeout))) ∧ s'.now = (k + n + 3) * oneSecond := by
    intro n
    induction n with
    | zero =>
      intro k s hn hm he
      refine ⟨{ s with now := (k + 3) * oneSecond }, ?_, rfl⟩
      rw [Dev.read]
      unfold arriving Plm.read Timed.io Timed.select
      dsimp only
      rw [hm, he]
      dsimp only [everySecond, List.range', List.map]
      rw [hn]
      simp only [Option.some.injEq, Prod.mk.injEq, and_true]
      have : k * oneSecond + (PlmCfg.initial.timeout).toNat = (k + 3) * oneSecond := by
        have : (PlmCfg.initial.timeout).toNat = 3 * oneSecond := by decide
        rw [this, Nat.add_mul]
      rw [this]
    | succ n ih =>
      intro k s hn hm he
      have hT : (PlmCfg.initial.timeout).toNat = 3 * oneSecond := by decide
      obtain ⟨s', h1, h2⟩ := ih (k + 1) { s with now := (k + 1) * oneSecond, msgs := everySecond (k + 1) n } rfl rfl he
      refine ⟨s', ?_, by rw [h2]; congr 1; omega⟩
      rw [Dev.read]
      have hrx : (Timed.io echoing (fun _ => true) PlmCfg.initial.timeout).rxMsg s =
          ({ s with now := (k + 1) * oneSecond, msgs := everySecond (k + 1) n },
            .packet ⟨0x50, [0, 0, 5, 0, 0, 0, 0x8b, 0x11, 0], 0⟩) := by
        unfold Timed.io Timed.select Timed.first
        dsimp only
        rw [hm, hT, hn]
        unfold everySecond
        rw [List.range'_succ, List.map_cons]
        dsimp only
        have hlt : max (k * oneSecond) ((k + 1) * oneSecond) < k * oneSecond + 3 * oneSecond := by
          unfold oneSecond; omega
        have hmax : max (k * oneSecond) ((k + 1) * oneSecond) = (k + 1) * oneSecond := by
          unfold oneSecond; omega
        rw [if_pos (by rw [decide_eq_true hlt]; rfl), hmax]
      have hu : Message.zero.unmarshalBinary [0, 0, 5, 0, 0, 0, 0x8b, 0x11, 0] = (⟨5, 0, 0x8b, 0x081100, []⟩, none) := by decide
      have hrd : (arriving echoing (fun _ => true) PlmCfg.initial.timeout).read s =
          ({ s with now := (k + 1) * oneSecond, msgs := everySecond (k + 1) n }, .ret (some ⟨5, 0, 0x8b, 0x081100, []⟩) none) := by
        unfold arriving Plm.read
        dsimp only
        rw [hrx]
        dsimp only
        rw [hu]
      rw [hrd]
      dsimp only
      rw [if_neg (by decide)]
      exact h1
  obtain ⟨s', h1, h2⟩ := key bound 0 ⟨0, [], everySecond 0 bound, none, [], ()⟩ (by simp) rfl rfl
  have := h ⟨0, [], everySecond 0 bound, none, [], ()⟩ s' (bound + 1) ⟨0, [], []⟩ ⟨0, [], []⟩ 0 (.ok (some (.wrapped .insReadTimeout))) (by
    rw [Ldb.refreshLoop, h1])
  rw [h2] at this
  unfold oneSecond at this
  dsimp only at this
  omega

/-- A record of a device, then other devices for two seconds, then silence: the download ends three seconds later. -/
example : SilentAfter (2 * oneSecond) (3 * oneSecond)
      [(500000000, ⟨0x51, [0, 0, 5, 0, 0, 9, 0x1b, 0x2f, 0, 0, 1, 0x0f, 0xff, 0, 0xe2, 1, 0, 0, 9, 3, 0x1c, 1, 0], 0⟩),
       (2000000000, ⟨0x50, [0, 0, 6, 0, 0, 1, 0xcb, 0x11, 0], 0⟩)] ∧
    (Ldb.refreshLoop (arriving echoing (fun _ => true) PlmCfg.initial.timeout) 3 3
      ⟨0, [], [(500000000, ⟨0x51, [0, 0, 5, 0, 0, 9, 0x1b, 0x2f, 0, 0, 1, 0x0f, 0xff, 0, 0xe2, 1, 0, 0, 9, 3, 0x1c, 1, 0], 0⟩),
       (2000000000, ⟨0x50, [0, 0, 6, 0, 0, 1, 0xcb, 0x11, 0], 0⟩)], none, [], ()⟩ ⟨0, [], []⟩ 0).map
      (fun r => (r.1.now, r.2.1.links.length, r.2.2)) = some (5000000000, 1, .ok (some (.wrapped .insReadTimeout))) := by
  refine ⟨?_, by decide +kernel⟩
  intro m hm
  simp only [List.mem_cons, List.not_mem_nil, or_false] at hm
  left
  rcases hm with rfl | rfl <;> decide

end Insteon
