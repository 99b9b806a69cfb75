import Verif.Spec.LinkTimed
import Verif.Props.Timed

/-
Linking takes its time: C191.
-/

namespace Insteon
open Insteon.Spec

section
variable {σ : Type} {time : σ → Nat} {most late : Nat} {sleep : Nat → σ → σ}

/-- Sleeping does not change what has been noted. -/
def Spec.asleep (sleep : Nat → σ → σ) (d : Nat) (s : σ × List TimedWrite) : σ × List TimedWrite := (sleep d s.1, s.2)

theorem waitTime_eq : LinkTimed.linkingModeWaitTime = linkingPause := by decide

theorem sendCommand_noted (info : DeviceInfo) (io : MsgIO σ) (s : σ) (l : List TimedWrite) (cmd : Command) (payload : Bytes)
    (s' : σ × List TimedWrite) (r : Out (Option Err)) (h : Device.sendCommand info (noted time io) (s, l) cmd payload = (s', r)) :
    ∃ x : TimedWrite, s'.2 = l ++ [x] ∧ x.start = time s ∧ x.done = time s'.1 ∧ x.msg = Device.prepare info ⟨0, 0, 0, cmd, payload⟩ ∧
      (r = .ok none ↔ x.acked = true) ∧ s'.1 = (io.write s x.msg).1 := by
  unfold Device.sendCommand Device.send Device.write noted at h
  dsimp only at h
  rcases hw : io.write s (Device.prepare info ⟨0, 0, 0, cmd, payload⟩) with ⟨s1, ⟨_ | a, _ | e⟩ | _⟩ <;> rw [hw] at h <;> dsimp only at h <;>
    simp only [Prod.mk.injEq] at h <;> obtain ⟨rfl, rfl⟩ := h <;>
    exact ⟨_, rfl, rfl, rfl, rfl, by simp, by rw [hw]⟩

theorem prepare_command (info : DeviceInfo) (m : Message) : (Device.prepare info m).command = m.command := by
  unfold Device.prepare
  dsimp only
  split_ifs <;> rfl

theorem prepare_dst (info : DeviceInfo) (m : Message) : (Device.prepare info m).dst = info.address := by
  unfold Device.prepare
  dsimp only
  split_ifs <;> rfl

/-- C191: a device that has acknowledged linking or unlinking mode is given 1.43 s; after a refusal there is no wait. -/
theorem linking_mode_time (io : MsgIO σ) (hs : ∀ d s, time s + d ≤ time (sleep d s)) (info : DeviceInfo) (unlinking : Bool) (group : Group)
    (s : σ) (l : List TimedWrite) (s' : σ × List TimedWrite) (r : Out (Option Err))
    (h : (if unlinking then (LinkTimed.Party.device info (noted time io) (asleep sleep)).enterUnlinkingMode (s, l) group
      else (LinkTimed.Party.device info (noted time io) (asleep sleep)).enterLinkingMode (s, l) group) = (s', r)) :
    ∃ x : TimedWrite, s'.2 = l ++ [x] ∧ x.start = time s ∧ x.msg.dst = info.address ∧ StartsLinking x.msg ∧
      (x.msg.command &&& 0xff#64 = group.setWidth 64) ∧
      (r = .ok none ↔ x.acked = true) ∧ (x.acked = true → x.done + linkingPause ≤ time s'.1) ∧ (x.acked = false → time s'.1 = x.done) ∧
      x.done = time (io.write s x.msg).1 ∧ (x.acked = true → s'.1 = sleep linkingPause (io.write s x.msg).1) := by
  have e1 : ∀ g : Group, ((Cmd.enterLinkingModeExt.subCommand (g.setWidth 64)) >>> 8) &&& 0xff#64 = 0x09#64 ∧
      (Cmd.enterLinkingModeExt.subCommand (g.setWidth 64)) &&& 0xff#64 = g.setWidth 64 := by decide +kernel
  have e2 : ∀ g : Group, ((Cmd.enterLinkingMode.subCommand (g.setWidth 64)) >>> 8) &&& 0xff#64 = 0x09#64 ∧
      (Cmd.enterLinkingMode.subCommand (g.setWidth 64)) &&& 0xff#64 = g.setWidth 64 := by decide +kernel
  have e3 : ∀ g : Group, ((Cmd.enterUnlinkingMode.subCommand (g.setWidth 64)) >>> 8) &&& 0xff#64 = 0x0a#64 ∧
      (Cmd.enterUnlinkingMode.subCommand (g.setWidth 64)) &&& 0xff#64 = g.setWidth 64 := by decide +kernel
  have key : ∀ (cmd : Command) (payload : Bytes), ((cmd >>> 8) &&& 0xff#64 = 0x09#64 ∨ (cmd >>> 8) &&& 0xff#64 = 0x0a#64) →
      cmd &&& 0xff#64 = group.setWidth 64 →
      LinkTimed.linkingMode info (noted time io) (asleep sleep) (s, l) cmd payload = (s', r) →
      ∃ x : TimedWrite, s'.2 = l ++ [x] ∧ x.start = time s ∧ x.msg.dst = info.address ∧ StartsLinking x.msg ∧
      (x.msg.command &&& 0xff#64 = group.setWidth 64) ∧
      (r = .ok none ↔ x.acked = true) ∧ (x.acked = true → x.done + linkingPause ≤ time s'.1) ∧ (x.acked = false → time s'.1 = x.done) ∧
      x.done = time (io.write s x.msg).1 ∧ (x.acked = true → s'.1 = sleep linkingPause (io.write s x.msg).1) := by
    intro cmd payload hc hg hl
    unfold LinkTimed.linkingMode at hl
    rcases hw : Device.sendCommand info (noted time io) (s, l) cmd payload with ⟨s1, r1⟩
    obtain ⟨x, h1, h2, h3, h4, h5, h6⟩ := sendCommand_noted info io s l cmd payload s1 r1 hw
    rw [hw] at hl
    have hcm : x.msg.command = cmd := by rw [h4, prepare_command]
    have hdst : x.msg.dst = info.address := by rw [h4, prepare_dst]
    have hst : StartsLinking x.msg := by unfold StartsLinking; rw [hcm]; exact hc
    refine ⟨x, ?_⟩
    by_cases hr : r1 = .ok none
    · subst hr
      dsimp only at hl
      simp only [Prod.mk.injEq] at hl
      obtain ⟨rfl, rfl⟩ := hl
      have ha := h5.mp rfl
      refine ⟨h1, h2, hdst, hst, by rw [hcm]; exact hg, h5, fun _ => ?_, fun hf => absurd (ha.symm.trans hf) Bool.noConfusion, by rw [h3, h6], fun _ => ?_⟩
      · rw [h3, waitTime_eq]; exact hs _ _
      · unfold asleep; dsimp only; rw [waitTime_eq, h6]
    · have hl' : (s1, r1) = (s', r) := by
        rw [← hl]
        rcases r1 with (_ | e) | e | _
        · exact absurd rfl hr
        all_goals rfl
      simp only [Prod.mk.injEq] at hl'
      obtain ⟨rfl, rfl⟩ := hl'
      have ha : x.acked = false := by
        by_contra hf
        exact hr (h5.mpr (by simpa using hf))
      exact ⟨h1, h2, hdst, hst, by rw [hcm]; exact hg, h5, fun hf => absurd (ha.symm.trans hf) Bool.noConfusion, fun _ => h3.symm,
        by rw [h3, h6], fun hf => absurd (ha.symm.trans hf) Bool.noConfusion⟩
  cases unlinking
  · simp only [Bool.false_eq_true, if_false, LinkTimed.Party.device, LinkTimed.enterLinkingMode] at h
    by_cases hv : info.engineVersion = verI2Cs
    · rw [if_pos hv] at h
      exact key _ _ (Or.inl (e1 group).1) (e1 group).2 h
    · rw [if_neg hv] at h
      exact key _ _ (Or.inl (e2 group).1) (e2 group).2 h
  · simp only [if_true, LinkTimed.Party.device, LinkTimed.enterUnlinkingMode] at h
    exact key _ _ (Or.inr (e3 group).1) (e3 group).2 h

theorem exit_noted (io : MsgIO σ) (info : DeviceInfo) (s : σ) (l : List TimedWrite) (s' : σ × List TimedWrite) (r : Out (Option Err))
    (h : Device.exitLinkingMode info (noted time io) (s, l) = (s', r)) :
    ∃ x : TimedWrite, s'.2 = l ++ [x] ∧ x.start = time s ∧ x.done = time s'.1 ∧ x.msg.dst = info.address ∧ x.msg.command = 0x000800#64 ∧
      s'.1 = (io.write s x.msg).1 := by
  obtain ⟨x, h1, h2, h3, h4, _, h6⟩ := sendCommand_noted info io s l _ _ s' r h
  exact ⟨x, h1, h2, h3, by rw [h4, prepare_dst], by rw [h4, prepare_command], h6⟩

/-- What holds at every moment: what was exchanged was unhurried, and has settled. -/
def Spec.Calm (time : σ → Nat) (s : σ × List TimedWrite) : Prop := Unhurried s.2 ∧ ∀ x ∈ s.2, Settled x (time s.1)

theorem calm_step {s s' : σ × List TimedWrite} (h : Calm time s) (x : TimedWrite) (h1 : s'.2 = s.2 ++ [x]) (h2 : x.start = time s.1)
    (h3 : time s.1 ≤ time s'.1) (h4 : Settled x (time s'.1)) : Calm time s' := by
  refine ⟨?_, ?_⟩
  · unfold Unhurried
    rw [h1, List.pairwise_append]
    refine ⟨h.1, by simp, ?_⟩
    intro a ha b hb
    rw [List.mem_singleton] at hb
    rw [hb, h2]
    exact h.2 a ha
  · intro a ha
    rw [h1, List.mem_append, List.mem_singleton] at ha
    rcases ha with ha | rfl
    · have := h.2 a ha
      exact ⟨Nat.le_trans this.1 h3, fun p q => Nat.le_trans (this.2 p q) h3⟩
    · exact h4

theorem enter_calm (io : MsgIO σ) (hc : Clocked io time most) (hs : ∀ d s, time s + d ≤ time (sleep d s))
    (hu : ∀ d s, time (sleep d s) ≤ time s + d + late) (info : DeviceInfo) (unlinking : Bool)
    (group : Group) (s s' : σ × List TimedWrite) (r : Out (Option Err)) (hi : Calm time s)
    (h : (if unlinking then (LinkTimed.Party.device info (noted time io) (asleep sleep)).enterUnlinkingMode s group
      else (LinkTimed.Party.device info (noted time io) (asleep sleep)).enterLinkingMode s group) = (s', r)) :
    Calm time s' ∧ (∃ x, s'.2 = s.2 ++ [x] ∧ x.msg.dst = info.address ∧ StartsLinking x.msg ∧ (r = .ok none ↔ x.acked = true)) ∧
      time s'.1 ≤ time s.1 + most + (linkingPause + late) := by
  obtain ⟨x, h1, h2, h3, h4, _, h5, h6, h7, h8, h9⟩ := linking_mode_time io hs info unlinking group s.1 s.2 s' r h
  have hf := hc.forward s.1 x.msg
  have hw := hc.within s.1 x.msg
  rw [← h8] at hf hw
  refine ⟨?_, ⟨x, h1, h3, h4, h5⟩, ?_⟩
  swap
  · cases hx : x.acked with
    | true =>
      have := hu linkingPause (io.write s.1 x.msg).1
      rw [← h9 hx, ← h8] at this
      omega
    | false =>
      have := h7 hx
      omega
  cases hx : x.acked with
  | true =>
    have := h6 hx
    exact calm_step hi x h1 h2 (by omega) ⟨by omega, fun _ _ => this⟩
  | false =>
    have := h7 hx
    exact calm_step hi x h1 h2 (by omega) ⟨by omega, fun hy => by rw [hx] at hy; cases hy⟩

theorem exit_calm (io : MsgIO σ) (hc : Clocked io time most) (info : DeviceInfo) (s s' : σ × List TimedWrite) (r : Out (Option Err))
    (hi : Calm time s) (h : Device.exitLinkingMode info (noted time io) s = (s', r)) :
    Calm time s' ∧ (∃ x, s'.2 = s.2 ++ [x] ∧ x.msg.dst = info.address ∧ x.msg.command = 0x000800#64) ∧ time s'.1 ≤ time s.1 + most := by
  obtain ⟨x, h1, h2, h3, h4, h5, h6⟩ := exit_noted io info s.1 s.2 s' r h
  have hf := hc.forward s.1 x.msg
  have hw := hc.within s.1 x.msg
  rw [← h6] at hf hw
  refine ⟨calm_step hi x h1 h2 hf ⟨Nat.le_of_eq h3, fun _ hy => ?_⟩, ⟨x, h1, h4, h5⟩, hw⟩
  unfold StartsLinking at hy
  rw [h5] at hy
  exact absurd hy (by decide)

/-- C191, what is proved: when one device is linked to (or unlinked from) another, every message goes out only when the pauses after the
earlier ones have passed, whatever the devices answer; and a call without an error has told both to start and both to stop. -/
theorem linking_unhurried_partial (cio rio : MsgIO σ) (hc : Clocked cio time most) (hr : Clocked rio time most)
    (hs : ∀ d s, time s + d ≤ time (sleep d s)) (hu : ∀ d s, time (sleep d s) ≤ time s + d + late) (ci ri : DeviceInfo) (unlinking : Bool) (group : Group) (s : σ) (s' : σ × List TimedWrite)
    (out : Out (Option Err))
    (h : (if unlinking then LinkTimed.unlink group (.device ci (noted time cio) (asleep sleep)) (.device ri (noted time rio) (asleep sleep)) (s, [])
      else LinkTimed.forceLink group (.device ci (noted time cio) (asleep sleep)) (.device ri (noted time rio) (asleep sleep)) (s, [])) = (s', out)) :
    Unhurried s'.2 ∧ (∀ x ∈ s'.2, Settled x (time s'.1)) ∧ time s'.1 ≤ time s + 4 * most + 2 * (linkingPause + late) ∧
    (out = .ok none → ∃ a b c d, s'.2 = [a, b, c, d] ∧ [a, b, c, d].map (·.msg.dst) = [ci.address, ri.address, ci.address, ri.address] ∧
      StartsLinking a.msg ∧ a.acked = true ∧ StartsLinking b.msg ∧ b.acked = true ∧ c.msg.command = 0x000800#64 ∧ d.msg.command = 0x000800#64) := by
  have h0 : Calm time ((s, []) : σ × List TimedWrite) := ⟨List.Pairwise.nil, fun _ hx => by simp at hx⟩
  have key : ∀ (s1 : σ × List TimedWrite) (r1 : Out (Option Err)),
      (if unlinking then (LinkTimed.Party.device ci (noted time cio) (asleep sleep)).enterUnlinkingMode (s, []) group
      else (LinkTimed.Party.device ci (noted time cio) (asleep sleep)).enterLinkingMode (s, []) group) = (s1, r1) →
      (r1 = .ok none → LinkTimed.session group (.device ci (noted time cio) (asleep sleep)) (.device ri (noted time rio) (asleep sleep)) s1 =
        (s', out)) → (r1 ≠ .ok none → (s1, r1) = (s', out)) →
      Unhurried s'.2 ∧ (∀ x ∈ s'.2, Settled x (time s'.1)) ∧ time s'.1 ≤ time s + 4 * most + 2 * (linkingPause + late) ∧
    (out = .ok none → ∃ a b c d, s'.2 = [a, b, c, d] ∧ [a, b, c, d].map (·.msg.dst) = [ci.address, ri.address, ci.address, ri.address] ∧
      StartsLinking a.msg ∧ a.acked = true ∧ StartsLinking b.msg ∧ b.acked = true ∧ c.msg.command = 0x000800#64 ∧ d.msg.command = 0x000800#64) := by
    intro s1 r1 h1 h2 h2n
    obtain ⟨c1, ⟨a, la, da, sa, ka⟩, t1⟩ := enter_calm cio hc hs hu ci unlinking group (s, []) s1 r1 h0 h1
    by_cases hr1 : r1 = .ok none
    · subst hr1
      replace h2 := h2 rfl
      unfold LinkTimed.session at h2
      rcases h3 : (LinkTimed.Party.device ri (noted time rio) (asleep sleep)).enterLinkingMode s1 group with ⟨s2, r2⟩
      rw [h3] at h2
      obtain ⟨c2, ⟨b, lb, db, sb, kb⟩, t2⟩ := enter_calm rio hr hs hu ri false group s1 s2 r2 c1 h3
      rcases r2 with e2 | e2 | _ <;> dsimp only at h2
      · rcases h4 : Device.exitLinkingMode ci (noted time cio) s2 with ⟨s3, r3⟩
        obtain ⟨c3, ⟨c, lc, dc, kc⟩, t3⟩ := exit_calm cio hc ci s2 s3 r3 c2 h4
        have h4' : (LinkTimed.Party.device ci (noted time cio) (asleep sleep)).exitLinkingMode s2 = (s3, r3) := h4
        rw [h4'] at h2
        rcases r3 with e3 | e3 | _ <;> dsimp only at h2
        · rcases h5 : Device.exitLinkingMode ri (noted time rio) s3 with ⟨s4, r4⟩
          obtain ⟨c4, ⟨d, ld, dd, kd⟩, t4⟩ := exit_calm rio hr ri s3 s4 r4 c3 h5
          have h5' : (LinkTimed.Party.device ri (noted time rio) (asleep sleep)).exitLinkingMode s3 = (s4, r4) := h5
          rw [h5'] at h2
          rcases r4 with e4 | e4 | _ <;> dsimp only at h2 <;> simp only [Prod.mk.injEq] at h2 <;> obtain ⟨rfl, rfl⟩ := h2
          · refine ⟨c4.1, c4.2, by dsimp only at *; omega, fun he => ?_⟩
            simp only [Out.ok.injEq] at he
            subst he
            refine ⟨a, b, c, d, ?_, ?_, sa, ka.mp rfl, sb, kb.mp rfl, kc, kd⟩
            · rw [ld, lc, lb, la]; rfl
            · simp [da, db, dc, dd]
          · exact ⟨c4.1, c4.2, by dsimp only at *; omega, by simp⟩
          · exact ⟨c4.1, c4.2, by dsimp only at *; omega, by simp⟩
        · simp only [Prod.mk.injEq] at h2
          obtain ⟨rfl, rfl⟩ := h2
          exact ⟨c3.1, c3.2, by dsimp only at *; omega, by simp⟩
        · simp only [Prod.mk.injEq] at h2
          obtain ⟨rfl, rfl⟩ := h2
          exact ⟨c3.1, c3.2, by dsimp only at *; omega, by simp⟩
      · simp only [Prod.mk.injEq] at h2
        obtain ⟨rfl, rfl⟩ := h2
        exact ⟨c2.1, c2.2, by dsimp only at *; omega, by simp⟩
      · simp only [Prod.mk.injEq] at h2
        obtain ⟨rfl, rfl⟩ := h2
        exact ⟨c2.1, c2.2, by dsimp only at *; omega, by simp⟩
    · have h2' := h2n hr1
      simp only [Prod.mk.injEq] at h2'
      obtain ⟨rfl, rfl⟩ := h2'
      exact ⟨c1.1, c1.2, by dsimp only at *; omega, fun he => absurd he hr1⟩
  cases unlinking
  · simp only [Bool.false_eq_true, if_false, LinkTimed.forceLink] at h key
    rcases hx : (LinkTimed.Party.device ci (noted time cio) (asleep sleep)).enterLinkingMode (s, []) group with ⟨s1, r1⟩
    rw [hx] at h
    refine key _ _ hx (fun hr => by subst hr; exact h) (fun hr => ?_)
    rw [← h]
    rcases r1 with (_ | e) | e | _
    · exact absurd rfl hr
    all_goals rfl
  · simp only [if_true, LinkTimed.unlink] at h key
    rcases hx : (LinkTimed.Party.device ci (noted time cio) (asleep sleep)).enterUnlinkingMode (s, []) group with ⟨s1, r1⟩
    rw [hx] at h
    refine key _ _ hx (fun hr => by subst hr; exact h) (fun hr => ?_)
    rw [← h]
    rcases r1 with (_ | e) | e | _
    · exact absurd rfl hr
    all_goals rfl

end

/-- The sleep is all that differs from the model without a clock. -/
theorem linking_mode_untimed {σ : Type} (info : DeviceInfo) (io : MsgIO σ) (s : σ) (group : Group) :
    LinkTimed.enterLinkingMode info io (fun _ s => s) s group = Device.enterLinkingMode info io s group ∧
    LinkTimed.enterUnlinkingMode info io (fun _ s => s) s group = Device.enterUnlinkingMode info io s group := by
  have key : ∀ cmd payload, LinkTimed.linkingMode info io (fun _ s => s) s cmd payload = Device.sendCommand info io s cmd payload := by
    intro cmd payload
    unfold LinkTimed.linkingMode
    rcases Device.sendCommand info io s cmd payload with ⟨s1, (_ | e) | e | _⟩ <;> rfl
  unfold LinkTimed.enterLinkingMode LinkTimed.enterUnlinkingMode Device.enterLinkingMode Device.enterUnlinkingMode
  simp only [key]
  exact ⟨trivial, trivial⟩

/-- A device that acknowledges everything after a tenth of a second; the state is the time. -/
def Spec.prompt : MsgIO Nat := ⟨fun t => (t, .ret none (some .eof)), fun t m => (t + 100000000, .ret (some m) none)⟩

/-- Linking two devices that answer at once takes 3.27 s: four exchanges and two pauses. -/
example : Clocked prompt id 100000000 ∧ (∀ d s : Nat, s + d ≤ (fun d t => t + d) d s ∧ (fun d t => t + d) d s ≤ s + d + 0) ∧
    (let r := LinkTimed.forceLink 1 (.device ⟨5, 0, 0, 1⟩ (noted id prompt) (asleep fun d t => t + d))
      (.device ⟨6, 0, 0, 2⟩ (noted id prompt) (asleep fun d t => t + d)) ((0, []) : Nat × List TimedWrite)
    r.1.1 = 3266666666 ∧ r.2 = .ok none ∧ r.1.2.map (fun x => (x.start, x.msg.dst, x.msg.command)) =
      [(0, 5, 0x0901), (1533333333, 6, 0x010901), (3066666666, 5, 0x0800), (3166666666, 6, 0x0800)]) := by
  refine ⟨⟨fun s m => by simp [prompt], fun s m => by simp [prompt]⟩, fun _ _ => ⟨Nat.le_refl _, Nat.le_refl _⟩, by decide +kernel⟩

/-- A device reached at once over the line of the modem: what is written is noted with the time. -/
def Spec.overLine : MsgIO (Timed Unit) :=
  ⟨fun s => (s, .ret none (some .eof)), fun s m => ({ s with sent := s.sent ++ [(s.now, m.marshalBinary)] }, .ret (some m) none)⟩

/-- C191 in full is false of the code: if the modem is the controller, there is no pause between its acknowledgement, which comes at once here,
and the message that tells the responder to start. -/
theorem linking_unhurried_refuted :
    ¬ ∀ (group : Group) (ri : DeviceInfo) (s s' : Timed Unit), s.sent = [] →
      LinkTimed.forceLink group (.modem (Timed.io echoing (fun _ => true) PlmCfg.initial.timeout)) (.device ri overLine Timed.sleep) s =
        (s', .ok none) →
      ∃ t1 b1 t2 b2 rest, s'.sent = (t1, b1) :: (t2, b2) :: rest ∧ t1 + linkingPause ≤ t2 := by
  intro h
  rcases hf : LinkTimed.forceLink 1 (.modem (Timed.io echoing (fun _ => true) PlmCfg.initial.timeout)) (.device ⟨5, 0, 0, 1⟩ overLine Timed.sleep)
    ⟨0, [], [], none, [], ()⟩ with ⟨s', out⟩
  have h4 : (LinkTimed.forceLink 1 (.modem (Timed.io echoing (fun _ => true) PlmCfg.initial.timeout)) (.device ⟨5, 0, 0, 1⟩ overLine Timed.sleep)
    ⟨0, [], [], none, [], ()⟩).2 = .ok none := by decide +kernel
  have h3 : (LinkTimed.forceLink 1 (.modem (Timed.io echoing (fun _ => true) PlmCfg.initial.timeout)) (.device ⟨5, 0, 0, 1⟩ overLine Timed.sleep)
      ⟨0, [], [], none, [], ()⟩).1.sent.map (·.1) = [0, 0, 1433333333, 1433333333] := by decide +kernel
  rw [hf] at h3 h4
  obtain ⟨t1, b1, t2, b2, rest, h1, h2⟩ := h 1 ⟨5, 0, 0, 1⟩ ⟨0, [], [], none, [], ()⟩ s' rfl (by rw [hf, ← h4])
  rw [h1] at h3
  simp only [List.map_cons, List.cons.injEq] at h3
  unfold linkingPause at h2
  omega

end Insteon
