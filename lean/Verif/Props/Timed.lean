import Verif.Props.Plm
import Verif.Spec.Timed

/-
Time: C145 to C147.
-/

namespace Insteon
open Insteon.Spec

/-! ### C145 -/

theorem select_time (timeout : Int) (tie : Nat → Bool) (now : Nat) (ends : Option Nat) (q : List (Nat × Packet)) :
    now ≤ (Timed.select timeout tie now ends q).1 ∧ (Timed.select timeout tie now ends q).1 ≤ now + timeout.toNat ∧
    ((Timed.select timeout tie now ends q).2.2 = .timeout → (Timed.select timeout tie now ends q).1 = now + timeout.toNat) := by
  unfold Timed.select Timed.first
  rcases q with _ | ⟨⟨t, p⟩, rest⟩ <;> rcases ends with _ | c <;> dsimp only
  · simp
  · by_cases h : (decide (max now c < now + timeout.toNat) || (decide (max now c = now + timeout.toNat) && tie (now + timeout.toNat))) = true
    · rw [if_pos h]
      simp only [Bool.or_eq_true, decide_eq_true_eq, Bool.and_eq_true] at h
      refine ⟨by omega, by omega, by simp⟩
    · rw [if_neg h]; simp
  all_goals
    by_cases h : (decide (max now t < now + timeout.toNat) || (decide (max now t = now + timeout.toNat) && tie (now + timeout.toNat))) = true
    · rw [if_pos h]
      simp only [Bool.or_eq_true, decide_eq_true_eq, Bool.and_eq_true] at h
      refine ⟨by omega, by omega, by simp⟩
    · rw [if_neg h]; simp

/-- C145: a PLM waits for the timeout it is set to, no more, and gives up after exactly that time. -/
theorem timed_keeps {τ : Type} (react : τ → Nat → Bytes → τ × Nat × Option Err × List (Nat × Packet) × List (Nat × Packet))
    (tie : Nat → Bool) (timeout : Int) (slow : Nat) (h : ∀ d t b, (react d t b).2.1 ≤ slow) :
    KeepsTime (Timed.io react tie timeout) Timed.now timeout.toNat slow where
  packet := fun s => ⟨(select_time timeout tie s.now s.ends s.pkts).1, (select_time timeout tie s.now s.ends s.pkts).2.1⟩
  packetLate := fun s => (select_time timeout tie s.now s.ends s.pkts).2.2
  message := fun s => ⟨(select_time timeout tie s.now s.ends s.msgs).1, (select_time timeout tie s.now s.ends s.msgs).2.1⟩
  messageLate := fun s => (select_time timeout tie s.now s.ends s.msgs).2.2
  sent := fun s b => ⟨Nat.le_add_right _ _, Nat.add_le_add_left (h s.peer s.now b) _⟩

section
variable {σ : Type} {io : PlmIO σ} {time : σ → Nat} {limit slow nap : Nat} {sleep : σ → σ}

theorem writePacket_time (h : KeepsTime io time limit slow) (s : σ) (pkt : Packet) :
    time s ≤ time (Plm.writePacket io s pkt).1 ∧ time (Plm.writePacket io s pkt).1 ≤ time s + (slow + limit) ∧
    (∀ a, (Plm.writePacket io s pkt).2 = .ret a (some (.wrapped .plmReadTimeout)) → (io.tx s pkt.marshalBinary).2 = none →
      time s + limit ≤ time (Plm.writePacket io s pkt).1) := by
  unfold Plm.writePacket
  have h1 := h.sent s pkt.marshalBinary
  rcases hx : io.tx s pkt.marshalBinary with ⟨s1, _ | e⟩ <;> rw [hx] at h1 <;> dsimp only at h1 ⊢
  · have h2 := h.packet s1
    have h3 := h.packetLate s1
    rcases hr : io.rxPacket s1 with ⟨s2, p | _ | _⟩ <;> rw [hr] at h2 h3 <;> dsimp only at h2 h3 ⊢
    · rcases hc : Plm.checkAck pkt p with e | e | _ <;> dsimp only
      · refine ⟨by omega, by omega, ?_⟩
        intro a ha
        exfalso
        simp only [PRes.ret.injEq] at ha
        rw [ha.2] at hc
        unfold Plm.checkAck at hc
        dsimp only at hc
        split_ifs at hc <;> simp at hc
      · exact ⟨by omega, by omega, by simp⟩
      · exact ⟨by omega, by omega, by simp⟩
    · exact ⟨by omega, by omega, by simp⟩
    · have := h3 rfl
      exact ⟨by omega, by omega, fun _ _ _ => by omega⟩
  · exact ⟨by omega, by omega, by simp⟩

theorem round_time (h : KeepsTime io time limit slow) (hs : ∀ s, time (sleep s) = time s + nap) (ignoreNak : Bool) (s : σ) (pkt : Packet) :
    time s ≤ time (TimedPlm.round io sleep ignoreNak s pkt).1 ∧
    time (TimedPlm.round io sleep ignoreNak s pkt).1 ≤ time s + (slow + limit + nap) ∧
    (∀ a, (TimedPlm.round io sleep ignoreNak s pkt).2 = .ret a (some (.wrapped .plmReadTimeout)) → (io.tx s pkt.marshalBinary).2 = none →
      time s + limit ≤ time (TimedPlm.round io sleep ignoreNak s pkt).1) := by
  have h1 := writePacket_time h s pkt
  unfold TimedPlm.round
  rcases hw : Plm.writePacket io s pkt with ⟨s1, a, e | _⟩ <;> rw [hw] at h1 <;> dsimp only at h1 ⊢
  · split_ifs
    · rw [hs]; exact ⟨by omega, by omega, fun a ha hb => by have := h1.2.2 a ha hb; omega⟩
    · exact ⟨by omega, by omega, h1.2.2⟩
  · split_ifs
    · rw [hs]; exact ⟨by omega, by omega, fun a ha hb => by have := h1.2.2 a ha hb; omega⟩
    · exact ⟨by omega, by omega, h1.2.2⟩
  · exact ⟨by omega, by omega, h1.2.2⟩

theorem retryLoop_time (h : KeepsTime io time limit slow) (hs : ∀ s, time (sleep s) = time s + nap) (ignoreNak : Bool) (pkt : Packet) (n : Nat)
    (s : σ) (cur : PRes) :
    time s ≤ time (retryLoop (TimedPlm.round io sleep ignoreNak) ignoreNak pkt n s cur).1 ∧
    time (retryLoop (TimedPlm.round io sleep ignoreNak) ignoreNak pkt n s cur).1 ≤ time s + n * (slow + limit + nap) ∧
    ((∀ s b, (io.tx s b).2 = none) → (∀ a, cur ≠ .ret a (some (.wrapped .plmReadTimeout))) →
      ∀ a, (retryLoop (TimedPlm.round io sleep ignoreNak) ignoreNak pkt n s cur).2 = .ret a (some (.wrapped .plmReadTimeout)) →
      time s + limit ≤ time (retryLoop (TimedPlm.round io sleep ignoreNak) ignoreNak pkt n s cur).1) := by
  induction n generalizing s cur with
  | zero => exact ⟨Nat.le_refl _, by simp [retryLoop], fun _ hc a ha => absurd ha (hc a)⟩
  | succ n ih =>
    have h1 := round_time h hs ignoreNak s pkt
    rw [retryLoop]
    have hmul : (n + 1) * (slow + limit + nap) = n * (slow + limit + nap) + (slow + limit + nap) := Nat.succ_mul _ _
    rcases hr : TimedPlm.round io sleep ignoreNak s pkt with ⟨s1, ⟨a, e⟩ | _⟩ <;> rw [hr] at h1 <;> dsimp only at h1 ⊢
    · by_cases hy : retryable ignoreNak e = true
      · rw [if_pos hy]
        have h2 := ih s1 (.ret a e)
        refine ⟨by omega, by omega, ?_⟩
        intro ht _ b hb
        have h3 := h2.2.2 ht (by
          intro c hc
          simp only [PRes.ret.injEq] at hc
          rw [hc.2] at hy
          revert hy
          cases ignoreNak <;> decide) b hb
        omega
      · rw [if_neg hy]
        dsimp only
        exact ⟨by omega, by omega, fun ht _ b hb => h1.2.2 b hb (ht _ _)⟩
    · exact ⟨by omega, by omega, fun ht _ b hb => by simp at hb⟩

/-- C145: a command to the modem returns after at most four (with the default settings) times the timeout, the time of a write and a second, whatever
the modem does; it reports a timeout only after having waited for the whole timeout. -/
theorem command_time (h : KeepsTime io time limit slow) (hs : ∀ s, time (sleep s) = time s + nap) (retries : Int) (ignoreNak : Bool) (s s' : σ)
    (pkt : Packet) (r : PRes) (hc : TimedPlm.command io sleep retries ignoreNak s pkt = (s', r)) :
    time s ≤ time s' ∧ time s' ≤ time s + (retries + 1).toNat * (slow + limit + nap) ∧
    ((∀ s b, (io.tx s b).2 = none) → (∃ a, r = .ret a (some (.wrapped .plmReadTimeout))) → time s + limit ≤ time s') := by
  have := retryLoop_time h hs ignoreNak pkt (retries + 1).toNat s (.ret none none)
  unfold TimedPlm.command retryWrite at hc
  rw [hc] at this
  exact ⟨this.1, this.2.1, fun ht ⟨a, ha⟩ => this.2.2 ht (by simp) a ha⟩

theorem awaitAck_time (h : KeepsTime io time limit slow) (dst : Address) (fuel : Nat) (s s' : σ) (r : MRes)
    (ha : Plm.awaitAck io dst fuel s = some (s', r)) : time s ≤ time s' ∧ time s' ≤ time s + fuel * limit := by
  induction fuel generalizing s with
  | zero => simp [Plm.awaitAck] at ha
  | succ n ih =>
    have hmul : (n + 1) * limit = n * limit + limit := Nat.succ_mul _ _
    rw [Plm.awaitAck] at ha
    unfold Plm.read at ha
    have h1 := h.message s
    rcases hr : io.rxMsg s with ⟨s1, p | _ | _⟩ <;> rw [hr] at ha h1 <;> dsimp only at ha h1
    · rcases hu : Message.zero.unmarshalBinary p.payload with ⟨m, _ | e⟩ <;> rw [hu] at ha <;> dsimp only at ha
      · split_ifs at ha
        · simp only [Option.some.injEq, Prod.mk.injEq] at ha
          rw [← ha.1]; omega
        · simp only [Option.some.injEq, Prod.mk.injEq] at ha
          rw [← ha.1]; omega
        · have := ih s1 ha
          omega
      · simp only [Option.some.injEq, Prod.mk.injEq] at ha
        rw [← ha.1]; omega
    · simp only [Option.some.injEq, Prod.mk.injEq] at ha
      rw [← ha.1]; omega
    · simp only [Option.some.injEq, Prod.mk.injEq] at ha
      rw [← ha.1]; omega

/-- C146, what is proved: writing a message returns after at most the time of the command to the modem and one timeout per message received in the
meantime. -/
theorem write_time_partial (h : KeepsTime io time limit slow) (hs : ∀ s, time (sleep s) = time s + nap) (retries : Int) (received : Nat) (s s' : σ)
    (msg : Message) (r : MRes) (hw : TimedPlm.write io sleep retries received s msg = some (s', r)) :
    time s ≤ time s' ∧ time s' ≤ time s + (retries + 1).toNat * (slow + limit + nap) + received * limit := by
  unfold TimedPlm.write at hw
  rcases hc : TimedPlm.command io sleep retries true s ⟨PCmd.sendInsteonMsg, msg.marshalBinary.drop 3, 0#8⟩ with ⟨s1, ⟨a, _ | e⟩ | _⟩ <;>
    rw [hc] at hw <;> dsimp only at hw
  · have h1 := command_time h hs retries true s s1 _ _ hc
    have h2 := awaitAck_time h msg.dst received s1 s' r hw
    omega
  · have h1 := command_time h hs retries true s s1 _ _ hc
    simp only [Option.some.injEq, Prod.mk.injEq] at hw
    rw [← hw.1]; omega
  · have h1 := command_time h hs retries true s s1 _ _ hc
    simp only [Option.some.injEq, Prod.mk.injEq] at hw
    rw [← hw.1]; omega

end

/-- A modem that answers everything at once, and behind it nobody. -/
def Spec.echoing : Unit → Nat → Bytes → Unit × Nat × Option Err × List (Nat × Packet) × List (Nat × Packet) :=
  fun _ t b => ((), 0, none, [(t, ⟨b.getD 1 0, (if b.getD 1 0 = 0x62 then [0, 0, 0] else []) ++ b.drop 2, 6⟩)], [])

/-- The hypotheses of the theorems above: a PLM with its settings, sleeping for a second. -/
example : KeepsTime (Timed.io echoing (fun _ => false) PlmCfg.initial.timeout) Timed.now (3 * oneSecond) 0 ∧
    ∀ s : Timed Unit, (Timed.sleep PlmCfg.second s).now = s.now + oneSecond :=
  ⟨timed_keeps echoing _ _ 0 (fun _ _ _ => Nat.le_refl _), fun _ => rfl⟩

/-- A modem that refuses three times, half a second each, and then is silent: three and a half seconds less than the bound. -/
example : let r := TimedPlm.command (Timed.io (fun (n : Nat) t _ => (n + 1, 0, none, if n < 3 then [(t + 500000000, ⟨0x60, [], 0x15⟩)] else [], []))
      (fun _ => false) PlmCfg.initial.timeout) (Timed.sleep PlmCfg.second) PlmCfg.initial.retries true ⟨0, [], [], none, [], 0⟩ ⟨0x60, [], 0⟩
    r.2 = .ret none (some (.wrapped .plmReadTimeout)) ∧ r.1.now = 7500000000 ∧ r.1.sent.length = 4 := by
  decide +kernel

/-- C146: the wait goes on as long as anybody sends something. -/
theorem chatter_waits (n k : Nat) (s : Timed Unit) (hn : s.now = k * oneSecond) (hm : s.msgs = everySecond k n) (he : s.ends = none) :
    ∃ s', Plm.awaitAck (Timed.io echoing (fun _ => true) (3 * PlmCfg.second)) 9 (n + 1) s = some (s', .ret none (some (.wrapped .insReadTimeout))) ∧
      s'.now = (k + n + 3) * oneSecond := by
  induction n generalizing k s with
  | zero =>
    refine ⟨{ s with now := (k + 3) * oneSecond }, ?_, rfl⟩
    rw [Plm.awaitAck]
    unfold Plm.read Timed.io Timed.select
    dsimp only
    rw [hm, he]
    dsimp only [everySecond, List.range', List.map]
    rw [hn]
    simp only [Option.some.injEq, Prod.mk.injEq, and_true]
    have : k * oneSecond + (3 * (PlmCfg.second : Int)).toNat = (k + 3) * oneSecond := by
      have : (3 * (PlmCfg.second : Int)).toNat = 3 * oneSecond := by decide
      rw [this, Nat.add_mul]
    rw [this]
  | succ n ih =>
    have hT : (3 * (PlmCfg.second : Int)).toNat = 3 * oneSecond := by decide
    obtain ⟨s', h1, h2⟩ := ih (k + 1) { s with now := (k + 1) * oneSecond, msgs := everySecond (k + 1) n } rfl rfl he
    refine ⟨s', ?_, by rw [h2]; congr 1; omega⟩
    rw [Plm.awaitAck]
    have hrx : (Timed.io echoing (fun _ => true) (3 * PlmCfg.second)).rxMsg s =
        ({ s with now := (k + 1) * oneSecond, msgs := everySecond (k + 1) n },
          .packet ⟨0x50, [0, 0, 5, 0, 0, 0, 0x8b, 0x11, 0], 0⟩) := by
      unfold Timed.io Timed.select Timed.first
      dsimp only
      rw [hm, hT, hn]
      unfold everySecond
      rw [List.range'_succ, List.map_cons]
      dsimp only
      have hlt : max (k * oneSecond) ((k + 1) * oneSecond) < k * oneSecond + 3 * oneSecond := by
        unfold oneSecond; omega
      have hmax : max (k * oneSecond) ((k + 1) * oneSecond) = (k + 1) * oneSecond := by
        unfold oneSecond; omega
      rw [if_pos (by rw [decide_eq_true hlt]; rfl), hmax]
    unfold Plm.read
    rw [hrx]
    dsimp only
    have hu : Message.zero.unmarshalBinary [0, 0, 5, 0, 0, 0, 0x8b, 0x11, 0] = (⟨5, 0, 0x8b, 0x081100, []⟩, none) := by decide
    rw [hu]
    dsimp only
    rw [if_neg (by decide)]
    exact h1

/-- C146 in full is false of the code: writing a message to a device that does not answer takes as long as other devices send something
every three seconds, with the default settings and a modem that answers at once. -/
theorem write_time_refuted :
    ¬ ∃ bound, ∀ (s s' : Timed Unit) (received : Nat) (msg : Message) (r : MRes),
      TimedPlm.write (Timed.io echoing (fun _ => true) PlmCfg.initial.timeout) (Timed.sleep PlmCfg.second) PlmCfg.initial.retries received s msg =
        some (s', r) → s'.now ≤ s.now + bound := by
  rintro ⟨bound, h⟩
  have hc : ∀ msgs, TimedPlm.command (Timed.io echoing (fun _ => true) PlmCfg.initial.timeout) (Timed.sleep PlmCfg.second) PlmCfg.initial.retries true
      ⟨0, [], msgs, none, [], ()⟩ ⟨PCmd.sendInsteonMsg, (⟨0, 9, 0x0f, 0x1100, []⟩ : Message).marshalBinary.drop 3, 0#8⟩ =
      (⟨0, [], msgs, none, [(0, [2, 0x62, 0, 0, 9, 0x0f, 0x11, 0])], ()⟩,
        .ret (some ⟨0x62, [0, 0, 0, 0, 0, 9, 0x0f, 0x11, 0], 6⟩) none) := by
    intro msgs
    conv => rhs; rw [← List.append_nil msgs]
    rfl
  obtain ⟨s', h1, h2⟩ := chatter_waits bound 0 ⟨0, [], everySecond 0 bound, none, [(0, [2, 0x62, 0, 0, 9, 0x0f, 0x11, 0])], ()⟩ (by simp) rfl rfl
  have := h ⟨0, [], everySecond 0 bound, none, [], ()⟩ s' (bound + 1) ⟨0, 9, 0x0f, 0x1100, []⟩ _ (by
    unfold TimedPlm.write
    rw [hc]
    exact h1)
  rw [h2] at this
  unfold oneSecond at this
  dsimp only at this
  omega

/-! ### C147 -/

/-- C147: the last `Timeout` given is the time a PLM waits, three seconds if there is none; other options do not change it, and no option
changes the number of retries. -/
theorem options_timeout_partial (opts : List Opt) :
    (PlmCfg.new (opts.map Opt.apply)).timeout = ((opts.filterMap Opt.timeoutOf).getLast?).getD (3 * oneSecond) ∧
    (PlmCfg.new (opts.map Opt.apply)).retries = 3 := by
  have hgen : ∀ (opts : List Opt) (c : PlmCfg),
      ((opts.map Opt.apply).foldl (fun c o => o c) c).timeout = ((opts.filterMap Opt.timeoutOf).getLast?).getD c.timeout ∧
      ((opts.map Opt.apply).foldl (fun c o => o c) c).retries = c.retries := by
    intro opts
    induction opts with
    | nil => intro c; simp
    | cons o opts ih =>
      intro c
      rw [List.map_cons, List.foldl_cons]
      obtain ⟨h1, h2⟩ := ih (o.apply c)
      rw [h1, h2]
      cases o with
      | timeout d =>
        rw [List.filterMap_cons]
        simp only [Opt.timeoutOf, Opt.apply, PlmCfg.timeoutOpt]
        rw [List.getLast?_cons]
        simp
      | writeDelay d =>
        rw [List.filterMap_cons]
        simp [Opt.timeoutOf, Opt.apply, PlmCfg.writeDelayOpt]
  exact hgen opts PlmCfg.initial

/-- C147 in full is false of the code: whatever `WriteDelay` is given, the second of two commands follows the first at once. -/
theorem write_delay_refuted (d : Int) (hd : 0 < d) :
    ¬ ∀ (pkt : Packet) (s s1 s2 : Timed Unit) (r1 r2 : PRes) (cfg : PlmCfg), cfg = PlmCfg.new [PlmCfg.writeDelayOpt d] → s.sent = [] →
      TimedPlm.command (Timed.io echoing (fun _ => true) cfg.timeout) (Timed.sleep PlmCfg.second) cfg.retries true s pkt = (s1, r1) →
      TimedPlm.command (Timed.io echoing (fun _ => true) cfg.timeout) (Timed.sleep PlmCfg.second) cfg.retries true s1 pkt = (s2, r2) →
      Apart d s2.sent := by
  intro h
  have := h ⟨0x60, [], 0⟩ ⟨0, [], [], none, [], ()⟩ ⟨0, [], [], none, [(0, [2, 0x60])], ()⟩ ⟨0, [], [], none, [(0, [2, 0x60]), (0, [2, 0x60])], ()⟩
    (.ret (some ⟨0x60, [], 6⟩) none) (.ret (some ⟨0x60, [], 6⟩) none) _ rfl rfl rfl rfl
  simp [Apart] at this
  omega

/-- C147: a reset waits up to twenty seconds per attempt whatever the timeout is, and later calls wait as long as before. -/
theorem reset_time {σ : Type} (io : Int → PlmIO σ) (time : σ → Nat) (slow nap : Nat) (sleep : σ → σ) (s s' : σ) (cfg cfg' : PlmCfg) (e : Option Err)
    (h : KeepsTime (io (20 * oneSecond)) time (20 * oneSecond) slow) (hs : ∀ s, time (sleep s) = time s + nap)
    (hr : TimedPlm.reset io sleep s cfg = (s', cfg', .ok e)) :
    cfg' = cfg ∧ time s' ≤ time s + (cfg.retries + 1).toNat * (slow + 20 * oneSecond + nap) ∧
    ((∀ s b, ((io (20 * oneSecond)).tx s b).2 = none) → e = some (.wrapped .plmReadTimeout) → time s + 20 * oneSecond ≤ time s') := by
  unfold TimedPlm.reset at hr
  dsimp only at hr
  have hc2 : (20 * (PlmCfg.second : Int)) = ((20 * oneSecond : Nat) : Int) := by decide
  rcases hc : TimedPlm.command (io (20 * PlmCfg.second)) sleep cfg.retries true s ⟨PCmd.reset, [], 0#8⟩ with ⟨s1, ⟨a, e1⟩ | _⟩ <;>
    rw [hc] at hr <;> simp only [Prod.mk.injEq, Out.ok.injEq, reduceCtorEq, and_false] at hr
  obtain ⟨rfl, rfl, rfl⟩ := hr
  have := command_time (io := io (20 * PlmCfg.second)) h hs cfg.retries true s s1 _ _ hc
  exact ⟨rfl, this.2.1, fun ht he => this.2.2 ht ⟨a, by rw [he]⟩⟩

end Insteon
