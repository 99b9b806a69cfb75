import Verif.Props.Plm
import Verif.Spec.Shared

/-
Several goroutines on one PLM: C148 to C150.
-/

namespace Insteon
open Insteon.Spec

namespace Shared

/-! ### C148 -/

theorem run_append (s : Shared) (a b : List SharedEv) :
    run s (a ++ b) = ((run (run s a).1 b).1, (run s a).2 ++ (run (run s a).1 b).2) := by
  induction a generalizing s with
  | nil => rfl
  | cons e a ih => simp only [List.cons_append, run, ih]

theorem step_down (s : Shared) (e : SharedEv) (h : s.down = true) : step s e = (s, .none) := by
  cases e <;> simp [step, h]

theorem run_down (s : Shared) (es : List SharedEv) (h : s.down = true) : (run s es).1 = s := by
  induction es with
  | nil => rfl
  | cons e es ih => rw [run, step_down s e h]; exact ih

/-- Other steps leave a goroutine where it is. -/
theorem step_other (s : Shared) (e : SharedEv) (i : Nat) (h : ∀ late err, e ≠ .go i late err) :
    (step s e).1.threads[i]? = s.threads[i]? := by
  cases e with
  | arrive p =>
    simp only [step]
    split_ifs
    · rfl
    · unfold arrival; split <;> rfl
  | fail =>
    simp only [step]
    split_ifs
    · rfl
    · unfold arrival; split <;> rfl
  | go j late err =>
    have hj : j ≠ i := fun hj => h late err (by rw [hj])
    simp only [step]
    split_ifs
    · rfl
    · split
      · rfl
      · split <;> simp [set, List.getElem?_set, hj]

/-- A goroutine whose call is over stays so. -/
theorem step_returned (s : Shared) (e : SharedEv) (i : Nat) (j : Job) (r : JobRes) (h : s.threads[i]? = some ⟨j, .returned r⟩) :
    (step s e).1.threads[i]? = some ⟨j, .returned r⟩ := by
  by_cases he : ∃ late err, e = .go i late err
  · obtain ⟨late, err, rfl⟩ := he
    simp only [step, h]
    split_ifs <;> exact h
  · rw [step_other s e i (fun late err h => he ⟨late, err, h⟩)]; exact h

theorem run_returned (s : Shared) (es : List SharedEv) (i : Nat) (j : Job) (r : JobRes) (h : s.threads[i]? = some ⟨j, .returned r⟩) :
    (run s es).1.threads[i]? = some ⟨j, .returned r⟩ := by
  induction es generalizing s with
  | nil => exact h
  | cons e es ih => exact ih _ (step_returned s e i j r h)

theorem result_returned (s : Shared) (i : Nat) (R : JobRes) (h : s.result i = some R) : ∃ j, s.threads[i]? = some ⟨j, .returned R⟩ := by
  unfold result at h
  split at h
  · rename_i j r hr
    simp only [Option.some.injEq] at h
    exact ⟨j, by rw [hr, h]⟩
  · simp at h

/-- A goroutine that is not through but will be has a step ahead. -/
theorem advance_spec (i : Nat) (s : Shared) (es : List SharedEv) (t : Thread) (R : JobRes) (ht : s.threads[i]? = some t)
    (hph : ∀ r, t.phase ≠ .returned r) (hr : (run s es).1.result i = some R) :
    ∃ pre late err rest s1, es = pre ++ SharedEv.go i late err :: rest ∧ s1 = (run s pre).1 ∧ s1.threads[i]? = some t ∧ s1.down = false ∧
      advance i s es = (((step s1 (.go i late err)).1, rest), (step s1 (.go i late err)).2) := by
  induction es generalizing s with
  | nil =>
    obtain ⟨j, hj⟩ := result_returned _ _ _ hr
    simp only [run] at hj
    rw [ht] at hj
    simp only [Option.some.injEq] at hj
    exact absurd (by rw [hj]) (hph R)
  | cons e es ih =>
    by_cases hd : s.down = true
    · obtain ⟨j, hj⟩ := result_returned _ _ _ hr
      rw [run_down _ _ hd, ht] at hj
      simp only [Option.some.injEq] at hj
      exact absurd (by rw [hj]) (hph R)
    by_cases he : ∃ late err, e = .go i late err
    · obtain ⟨late, err, rfl⟩ := he
      refine ⟨[], late, err, es, s, rfl, rfl, ht, by simpa using hd, ?_⟩
      simp [advance]
    · have h1 := step_other s e i (fun late err h => he ⟨late, err, h⟩)
      obtain ⟨pre, late, err, rest, s1, h2, h3, h4, h5, h6⟩ := ih (step s e).1 (by rw [h1]; exact ht) hr
      refine ⟨e :: pre, late, err, rest, s1, by rw [h2]; rfl, h3, h4, h5, ?_⟩
      rw [← h6]
      cases e with
      | arrive p => rfl
      | fail => rfl
      | go j late err =>
        have hj : j ≠ i := fun hj => he ⟨late, err, by rw [hj]⟩
        simp [advance, hj]

/-- What the part of a call after the loop of attempts comes to. -/
def tailOf (i fuel : Nat) (j : Job) (ack : Option Packet) (err : Option Err) (h : Ahead) : Option JobRes :=
  match j with
  | .command _ _ _ => some (.packet ack err)
  | .write msg _ =>
    match err with
    | some e => some (.message none (some e))
    | none => (Plm.awaitAck (view i) msg.dst fuel h).map fun r => gave r.2
  | .read => some .panic

/-- The loop of attempts and what comes after it. -/
def loopOf (i fuel : Nat) (j : Job) (n : Nat) (h : Ahead) (cur : PRes) : Option JobRes :=
  match retryLoop (Plm.writePacket (view i)) j.ignoreNak j.packet n h cur with
  | (h, .ret ack err) => tailOf i fuel j ack err h
  | (_, .panic) => some .panic

theorem listening_alone (i fuel : Nat) (msg : Message) (retries : Int) (s : Shared) (es : List SharedEv) (R : JobRes) (hf : es.length ≤ fuel)
    (ht : s.threads[i]? = some ⟨.write msg retries, .listening⟩) (hr : (run s es).1.result i = some R) :
    tailOf i fuel (.write msg retries) none none (s, es) = some R := by
  induction fuel generalizing s es with
  | zero =>
    obtain ⟨pre, late, err, rest, s1, h1, -⟩ := advance_spec i s es _ R ht (by simp) hr
    subst h1
    simp at hf
  | succ fuel ih =>
    obtain ⟨pre, late, err, rest, s1, h1, h2, h3, h4, h5⟩ := advance_spec i s es _ R ht (by simp) hr
    have hlen : rest.length ≤ fuel := by
      rw [h1] at hf
      simp only [List.length_append, List.length_cons] at hf
      omega
    have hr' : (run (step s1 (.go i late err)).1 rest).1.result i = some R := by
      rw [h1, run_append, ← h2] at hr
      exact hr
    have hi : i < s1.threads.length := by
      rw [List.getElem?_eq_some_iff] at h3
      exact h3.1
    have hstep : step s1 (.go i late err) = (s1.set i ⟨.write msg retries, .listening⟩
        (Job.heard (.write msg retries) (Port.recv s1.port.msgQ s1.port.closed late).2)
        { s1.port with msgQ := (Port.recv s1.port.msgQ s1.port.closed late).1 }, .tookMsg i (Port.recv s1.port.msgQ s1.port.closed late).2) := by
      simp [step, h4, h3]
    have hv : (view i).rxMsg (s, es) = (((step s1 (.go i late err)).1, rest), (Port.recv s1.port.msgQ s1.port.closed late).2) := by
      simp only [view, h5, hstep]
    have hth : (step s1 (.go i late err)).1.threads[i]? =
        some ⟨.write msg retries, Job.heard (.write msg retries) (Port.recv s1.port.msgQ s1.port.closed late).2⟩ := by
      rw [hstep]
      simp [set, hi]
    generalize (step s1 (.go i late err)).1 = s2 at hr' hv hth
    generalize (Port.recv s1.port.msgQ s1.port.closed late).2 = rv at hv hth
    have hfin : ∀ r, Job.heard (.write msg retries) rv = .returned r → r = R := by
      intro r hh
      rw [hh] at hth
      obtain ⟨j, hj⟩ := result_returned _ _ _ hr'
      rw [run_returned s2 rest i _ r hth] at hj
      simp only [Option.some.injEq, Thread.mk.injEq, Phase.returned.injEq] at hj
      exact hj.2
    simp only [tailOf, Plm.awaitAck, Plm.read, hv]
    cases rv with
    | timeout => simp only [Job.heard] at hfin; rw [← hfin _ rfl]; rfl
    | closed => simp only [Job.heard] at hfin; rw [← hfin _ rfl]; rfl
    | packet p =>
      dsimp only
      simp only [Job.heard] at hfin hth
      rcases hu : Message.zero.unmarshalBinary p.payload with ⟨m, _ | e⟩ <;> rw [hu] at hfin hth <;> dsimp only at hfin hth ⊢
      · by_cases hc : m.src = msg.dst ∧ (m.flags.ack = true ∨ m.flags.nak = true)
        · rw [if_pos hc] at hfin ⊢
          rw [← hfin _ rfl]; rfl
        · rw [if_neg hc] at hth
          rw [if_neg hc]
          exact ih s2 rest hlen hth hr'
      · rw [← hfin _ rfl]; rfl

theorem finish_alone (i fuel : Nat) (j : Job) (ack : Option Packet) (err : Option Err) (s : Shared) (es : List SharedEv) (R : JobRes)
    (hf : es.length ≤ fuel) (ht : s.threads[i]? = some ⟨j, j.finish ack err⟩) (hr : (run s es).1.result i = some R) :
    tailOf i fuel j ack err (s, es) = some R := by
  have hfin : ∀ r, j.finish ack err = .returned r → r = R := by
    intro r hh
    rw [hh] at ht
    obtain ⟨j, hj⟩ := result_returned _ _ _ hr
    rw [run_returned s es i _ r ht] at hj
    simp only [Option.some.injEq, Thread.mk.injEq, Phase.returned.injEq] at hj
    exact hj.2
  cases j with
  | command pkt retries ig => rw [← hfin _ rfl]; rfl
  | read => rw [← hfin _ rfl]; rfl
  | write msg retries =>
    cases err with
    | some e => rw [← hfin _ rfl]; rfl
    | none => exact listening_alone i fuel msg retries s es R hf ht hr

theorem own_step (i : Nat) (s : Shared) (es : List SharedEv) (t : Thread) (R : JobRes) (ht : s.threads[i]? = some t)
    (hph : ∀ r, t.phase ≠ .returned r) (hr : (run s es).1.result i = some R) :
    ∃ late err rest s1, rest.length < es.length ∧ s1.threads[i]? = some t ∧ s1.down = false ∧ i < s1.threads.length ∧
      advance i s es = (((step s1 (.go i late err)).1, rest), (step s1 (.go i late err)).2) ∧
      (run (step s1 (.go i late err)).1 rest).1.result i = some R := by
  obtain ⟨pre, late, err, rest, s1, h1, h2, h3, h4, h5⟩ := advance_spec i s es _ R ht hph hr
  refine ⟨late, err, rest, s1, ?_, h3, h4, ?_, h5, ?_⟩
  · rw [h1]
    simp only [List.length_append, List.length_cons]
    omega
  · rw [List.getElem?_eq_some_iff] at h3
    exact h3.1
  · rw [h1, run_append, ← h2] at hr
    exact hr

/-- One attempt: the goroutine writes and gets a reply or not; then it is where `after` says, or it has panicked. -/
theorem attempt_alone (i : Nat) (j : Job) (n : Nat) (s : Shared) (es : List SharedEv) (R : JobRes)
    (ht : s.threads[i]? = some ⟨j, .sending n⟩) (hr : (run s es).1.result i = some R) :
    (∃ s2 rest ack err, Plm.writePacket (view i) (s, es) j.packet = ((s2, rest), .ret ack err) ∧ rest.length < es.length ∧
      s2.threads[i]? = some ⟨j, j.after n ack err⟩ ∧ (run s2 rest).1.result i = some R) ∨
    (∃ h, Plm.writePacket (view i) (s, es) j.packet = (h, .panic) ∧ R = .panic) := by
  obtain ⟨late, err, rest, s1, h1, h2, h3, h4, h5, h6⟩ := own_step i s es _ R ht (by simp) hr
  have hstep : step s1 (.go i late err) = (s1.set i ⟨j, .sending n⟩
      (j.sent n err) s1.port, .wrote i j.packet.marshalBinary err) := by
    simp [step, h3, h2]
  have hv : (view i).tx (s, es) j.packet.marshalBinary = (((step s1 (.go i late err)).1, rest), err) := by
    simp only [view, h5, hstep, if_true]
  have hth : (step s1 (.go i late err)).1.threads[i]? =
      some ⟨j, j.sent n err⟩ := by
    rw [hstep]
    simp [set, h4]
  generalize (step s1 (.go i late err)).1 = s2 at h6 hv hth
  cases err with
  | some e =>
    left
    refine ⟨s2, rest, none, some e, ?_, h1, hth, h6⟩
    simp only [Plm.writePacket, hv]
  | none =>
    simp only [Job.sent] at hth
    obtain ⟨late', err', rest', s3, g1, g2, g3, g4, g5, g6⟩ := own_step i s2 rest _ R hth (by simp) h6
    have hstep' : step s3 (.go i late' err') = (s3.set i ⟨j, .waiting n⟩
        (j.replied n (Port.recv s3.port.pktQ s3.port.closed late').2)
        { s3.port with pktQ := (Port.recv s3.port.pktQ s3.port.closed late').1 }, .tookPkt i (Port.recv s3.port.pktQ s3.port.closed late').2) := by
      simp [step, g3, g2]
    have hv' : (view i).rxPacket (s2, rest) = (((step s3 (.go i late' err')).1, rest'), (Port.recv s3.port.pktQ s3.port.closed late').2) := by
      simp only [view, g5, hstep']
    have hth' : (step s3 (.go i late' err')).1.threads[i]? =
        some ⟨j, j.replied n (Port.recv s3.port.pktQ s3.port.closed late').2⟩ := by
      rw [hstep']
      simp [set, g4]
    generalize (step s3 (.go i late' err')).1 = s4 at g6 hv' hth'
    generalize (Port.recv s3.port.pktQ s3.port.closed late').2 = rv at hv' hth'
    have hpanic : j.replied n rv = .returned .panic → R = .panic := by
      intro hh
      rw [hh] at hth'
      obtain ⟨j, hj⟩ := result_returned _ _ _ g6
      rw [run_returned s4 rest' i _ _ hth'] at hj
      simp only [Option.some.injEq, Thread.mk.injEq, Phase.returned.injEq] at hj
      exact hj.2.symm
    cases rv with
    | timeout =>
      left
      refine ⟨s4, rest', none, some (.wrapped .plmReadTimeout), ?_, by omega, hth', g6⟩
      simp only [Plm.writePacket, hv, hv']
    | closed =>
      right
      refine ⟨(s4, rest'), ?_, hpanic rfl⟩
      simp only [Plm.writePacket, hv, hv']
    | packet p =>
      simp only [Job.replied] at hth' hpanic
      rcases hc : Plm.checkAck j.packet p with e | e | _ <;> rw [hc] at hth' hpanic <;> dsimp only at hth' hpanic
      · left
        refine ⟨s4, rest', some p, e, ?_, by omega, hth', g6⟩
        simp only [Plm.writePacket, hv, hv', hc]
      · right
        refine ⟨(s4, rest'), ?_, hpanic rfl⟩
        simp only [Plm.writePacket, hv, hv', hc]
      · right
        refine ⟨(s4, rest'), ?_, hpanic rfl⟩
        simp only [Plm.writePacket, hv, hv', hc]

theorem sending_alone (i fuel : Nat) (j : Job) (n : Nat) (s : Shared) (es : List SharedEv) (cur : PRes) (R : JobRes) (hf : es.length ≤ fuel)
    (ht : s.threads[i]? = some ⟨j, .sending n⟩) (hr : (run s es).1.result i = some R) : loopOf i fuel j (n + 1) (s, es) cur = some R := by
  induction n generalizing s es cur with
  | zero =>
    rcases attempt_alone i j 0 s es R ht hr with ⟨s2, rest, ack, err, h1, h2, h3, h4⟩ | ⟨h, h1, h2⟩
    · have h3' : s2.threads[i]? = some ⟨j, j.finish ack err⟩ := by
        rw [h3]
        unfold Job.after
        cases retryable j.ignoreNak err <;> rfl
      simp only [loopOf, retryLoop, h1]
      have := finish_alone i fuel j ack err s2 rest R (by omega) h3' h4
      split_ifs <;> exact this
    · simp only [loopOf, retryLoop, h1, h2]
  | succ n ih =>
    rcases attempt_alone i j (n + 1) s es R ht hr with ⟨s2, rest, ack, err, h1, h2, h3, h4⟩ | ⟨h, h1, h2⟩
    · unfold loopOf
      rw [retryLoop]
      simp only [h1]
      cases hy : retryable j.ignoreNak err
      · simp only [Job.after, hy] at h3
        simp only [Bool.false_eq_true, if_false]
        exact finish_alone i fuel j ack err s2 rest R (by omega) h3 h4
      · simp only [Job.after, hy] at h3
        simp only [if_true]
        exact ih s2 rest (.ret ack err) (by omega) h3 h4
    · simp only [loopOf, retryLoop, h1, h2]

/-- C148: what a call returns when other goroutines use the PLM at the same time is what it returns when made alone, in a world where the
modem and the other goroutines act between its accesses to the port and the channels. So all that is proved about single calls in any
world holds. -/
theorem concurrent_call (jobs : List Job) (es : List SharedEv) (i : Nat) (j : Job) (R : JobRes) (hj : jobs[i]? = some j)
    (hr : (run (init jobs) es).1.result i = some R) : alone (view i) es.length (init jobs, es) j = some R := by
  have ht : (init jobs).threads[i]? = some ⟨j, j.start⟩ := by simp [init, hj]
  have hloop : ∀ retries, j ≠ .read → j.start = (match (retries + 1 : Int).toNat with
      | 0 => j.finish none none
      | n + 1 => .sending n) →
      loopOf i es.length j (retries + 1).toNat (init jobs, es) (.ret none none) = some R := by
    intro retries _ hs
    rw [hs] at ht
    rcases hn : (retries + 1).toNat with _ | n <;> rw [hn] at ht <;> dsimp only at ht
    · simp only [loopOf, retryLoop]
      exact finish_alone i _ j none none _ es R (Nat.le_refl _) ht hr
    · exact sending_alone i _ j n _ es _ R (Nat.le_refl _) ht hr
  cases j with
  | command pkt retries ig =>
    have h := hloop retries (by simp) rfl
    simp only [loopOf, tailOf, Job.packet, Job.ignoreNak] at h
    simp only [alone, retryWrite]
    split at h <;> simp_all
  | write msg retries =>
    have h := hloop retries (by simp) rfl
    simp only [loopOf, tailOf, Job.packet, Job.ignoreNak] at h
    simp only [alone, Plm.write, retryWrite]
    rcases hx : retryLoop (Plm.writePacket (view i)) true ⟨PCmd.sendInsteonMsg, msg.marshalBinary.drop 3, 0#8⟩ (retries + 1).toNat
      (init jobs, es) (.ret none none) with ⟨h', ⟨a, _ | e⟩ | _⟩ <;> rw [hx] at h <;> dsimp only at h ⊢ <;> exact h
  | read =>
    obtain ⟨late, err, rest, s1, h1, h2, h3, h4, h5, h6⟩ := own_step i _ es _ R ht (by simp [Job.start]) hr
    have hstep : step s1 (.go i late err) = (s1.set i ⟨.read, .listening⟩
        (Job.heard .read (Port.recv s1.port.msgQ s1.port.closed late).2)
        { s1.port with msgQ := (Port.recv s1.port.msgQ s1.port.closed late).1 }, .tookMsg i (Port.recv s1.port.msgQ s1.port.closed late).2) := by
      simp [step, h3, h2, Job.start]
    have hv : (view i).rxMsg (init jobs, es) = (((step s1 (.go i late err)).1, rest), (Port.recv s1.port.msgQ s1.port.closed late).2) := by
      simp only [view, h5, hstep]
    have hth : (step s1 (.go i late err)).1.threads[i]? =
        some ⟨.read, Job.heard .read (Port.recv s1.port.msgQ s1.port.closed late).2⟩ := by
      rw [hstep]
      simp [set, h4]
    generalize (step s1 (.go i late err)).1 = s2 at h6 hv hth
    generalize (Port.recv s1.port.msgQ s1.port.closed late).2 = rv at hv hth
    have hfin : ∀ r, Job.heard .read rv = .returned r → r = R := by
      intro r hh
      rw [hh] at hth
      obtain ⟨j, hj⟩ := result_returned _ _ _ h6
      rw [run_returned s2 rest i _ r hth] at hj
      simp only [Option.some.injEq, Thread.mk.injEq, Phase.returned.injEq] at hj
      exact hj.2
    simp only [alone, Plm.read, hv]
    cases rv with
    | timeout => rw [← hfin _ rfl]; rfl
    | closed => rw [← hfin _ rfl]; rfl
    | packet p =>
      simp only [Job.heard] at hfin
      rcases hu : Message.zero.unmarshalBinary p.payload with ⟨m, _ | e⟩ <;> rw [hu] at hfin <;> dsimp only at hfin
      · rw [← hfin _ rfl]; dsimp only; rw [hu]; rfl
      · rw [← hfin _ rfl]; dsimp only; rw [hu]; rfl

/-! ### C149 -/

theorem putAside_queued (m : Bool) (p : Packet) : putAside m [.queued p] = if Port.isMsg p = m then [p] else [] := by
  unfold putAside Port.isMsg
  simp only [List.filterMap_cons, List.filterMap_nil]
  split_ifs <;> simp_all [PCmd.stdMsgReceived, PCmd.extMsgReceived]

/-- The conservation of packets by one step. -/
theorem step_taken (s : Shared) (e : SharedEv) (h1 : s.port.pktQ.length ≤ 10) (h2 : s.port.msgQ.length ≤ 10) :
    s.port.pktQ ++ putAside false [(step s e).2] = (repliesTaken [(step s e).2]).map Prod.snd ++ (step s e).1.port.pktQ ∧
    s.port.msgQ ++ putAside true [(step s e).2] = (messagesTaken [(step s e).2]).map Prod.snd ++ (step s e).1.port.msgQ ∧
    (step s e).1.port.pktQ.length ≤ 10 ∧ (step s e).1.port.msgQ.length ≤ 10 := by
  have hnone : s.port.pktQ ++ putAside false [SharedObs.none] = (repliesTaken [SharedObs.none]).map Prod.snd ++ s.port.pktQ ∧
    s.port.msgQ ++ putAside true [SharedObs.none] = (messagesTaken [SharedObs.none]).map Prod.snd ++ s.port.msgQ ∧
    s.port.pktQ.length ≤ 10 ∧ s.port.msgQ.length ≤ 10 := by
    simp [putAside, repliesTaken, messagesTaken, h1, h2]
  cases e with
  | arrive p =>
    simp only [step]
    split_ifs with hd
    · exact hnone
    · by_cases hc : s.port.closed = true
      · simpa [arrival, Port.step, hc] using hnone
      · by_cases hm : Port.isMsg p = true
        · by_cases hl : s.port.msgQ.length < 10
          · have ha := putAside_queued true p
            have hb := putAside_queued false p
            rw [hm] at ha hb
            simp only [arrival, Port.step, hc, hm, hl, Port.cap, if_true, Bool.false_eq_true, if_false]
            rw [ha, hb]
            simp [repliesTaken, messagesTaken, h1]
            omega
          · simp [arrival, Port.step, hc, hm, hl, putAside, repliesTaken, messagesTaken, h1, h2, Port.cap]
        · by_cases hl : s.port.pktQ.length < 10
          · have ha := putAside_queued true p
            have hb := putAside_queued false p
            rw [Bool.eq_false_iff.mpr hm] at ha hb
            simp only [arrival, Port.step, hc, hm, hl, Port.cap, if_true, Bool.false_eq_true, if_false]
            rw [ha, hb]
            simp [repliesTaken, messagesTaken, h2]
            omega
          · simp [arrival, Port.step, hc, hm, hl, putAside, repliesTaken, messagesTaken, h1, h2, Port.cap]
  | fail =>
    simp only [step]
    split_ifs with hd
    · exact hnone
    · simpa [arrival, Port.step] using hnone
  | go i late err =>
    simp only [step]
    split_ifs with hd
    · exact hnone
    · split
      · exact hnone
      · split
        · simpa [set, putAside, repliesTaken, messagesTaken] using hnone
        · unfold Port.recv
          cases late
          · rcases hq : s.port.pktQ with _ | ⟨p, q⟩
            · cases s.port.closed <;> simpa [set, putAside, repliesTaken, messagesTaken] using h2
            · rw [hq] at h1
              simp only [List.length_cons] at h1
              simp [set, putAside, repliesTaken, messagesTaken, h2]
              omega
          · simpa [set, putAside, repliesTaken, messagesTaken] using hnone
        · unfold Port.recv
          cases late
          · rcases hq : s.port.msgQ with _ | ⟨p, q⟩
            · cases s.port.closed <;> simpa [set, putAside, repliesTaken, messagesTaken] using h1
            · rw [hq] at h2
              simp only [List.length_cons] at h2
              simp [set, putAside, repliesTaken, messagesTaken, h1]
              omega
          · simpa [set, putAside, repliesTaken, messagesTaken] using hnone
        · exact hnone

theorem putAside_cons (m : Bool) (o : SharedObs) (os : List SharedObs) : putAside m (o :: os) = putAside m [o] ++ putAside m os := by
  unfold putAside; rw [← List.filterMap_append]; rfl

theorem repliesTaken_cons (o : SharedObs) (os : List SharedObs) : repliesTaken (o :: os) = repliesTaken [o] ++ repliesTaken os := by
  unfold repliesTaken; rw [← List.filterMap_append]; rfl

theorem messagesTaken_cons (o : SharedObs) (os : List SharedObs) : messagesTaken (o :: os) = messagesTaken [o] ++ messagesTaken os := by
  unfold messagesTaken; rw [← List.filterMap_append]; rfl

theorem run_taken (s : Shared) (es : List SharedEv) (h1 : s.port.pktQ.length ≤ 10) (h2 : s.port.msgQ.length ≤ 10) :
    s.port.pktQ ++ putAside false (run s es).2 = (repliesTaken (run s es).2).map Prod.snd ++ (run s es).1.port.pktQ ∧
    s.port.msgQ ++ putAside true (run s es).2 = (messagesTaken (run s es).2).map Prod.snd ++ (run s es).1.port.msgQ ∧
    (run s es).1.port.pktQ.length ≤ 10 ∧ (run s es).1.port.msgQ.length ≤ 10 := by
  induction es generalizing s with
  | nil => simp [run, putAside, repliesTaken, messagesTaken, h1, h2]
  | cons e es ih =>
    have ha := step_taken s e h1 h2
    have hb := ih (step s e).1 ha.2.2.1 ha.2.2.2
    simp only [run]
    rw [putAside_cons, putAside_cons true, repliesTaken_cons, messagesTaken_cons]
    refine ⟨?_, ?_, hb.2.2⟩
    · rw [← List.append_assoc, ha.1, List.append_assoc, hb.1, List.map_append, List.append_assoc]
    · rw [← List.append_assoc, ha.2.1, List.append_assoc, hb.2.1, List.map_append, List.append_assoc]

/-- C149: the packets from the modem that are kept are given out in the order in which they came, each to one goroutine; at most ten of each
kind are waiting. So no packet is seen by two goroutines and none is made up. -/
theorem concurrent_once (jobs : List Job) (es : List SharedEv) :
    let os := (run (init jobs) es).2
    (∃ waiting, waiting.length ≤ 10 ∧ (repliesTaken os).map Prod.snd ++ waiting = putAside false os) ∧
    (∃ waiting, waiting.length ≤ 10 ∧ (messagesTaken os).map Prod.snd ++ waiting = putAside true os) := by
  have h := run_taken (init jobs) es (by simp [init, Port.init]) (by simp [init, Port.init])
  exact ⟨⟨_, h.2.2.1, h.1.symm⟩, ⟨_, h.2.2.2, h.2.1.symm⟩⟩

/-! ### C150 -/

/-- What is known about a goroutine from where it is. -/
def Known (i : Nat) (j : Job) (replies msgs : List (Nat × Packet)) : Phase → Prop
  | .sending _ => j ≠ .read
  | .waiting _ => j ≠ .read
  | .listening => ∀ msg retries, j = .write msg retries → 0 ≤ retries → ∃ p, (i, p) ∈ replies ∧ FaithfulAck j.packet p
  | .returned (.packet ack none) =>
    ∀ pkt retries ig, j = .command pkt retries ig → 0 ≤ retries → ∃ p, ack = some p ∧ (i, p) ∈ replies ∧ FaithfulAck pkt p
  | .returned (.message m none) =>
    ∀ msg retries, j = .write msg retries → 0 ≤ retries → ∃ a p q, m = some a ∧ (i, p) ∈ replies ∧ FaithfulAck j.packet p ∧ (i, q) ∈ msgs ∧
      Message.zero.unmarshalBinary q.payload = (a, none) ∧ a.src = msg.dst ∧ a.flags.ack = true
  | .returned _ => True

theorem Known.mono {i : Nat} {j : Job} {r r' m m' : List (Nat × Packet)} (hr : r ⊆ r') (hm : m ⊆ m') {ph : Phase} (h : Known i j r m ph) :
    Known i j r' m' ph := by
  cases ph with
  | sending n => exact h
  | waiting n => exact h
  | listening =>
    intro msg retries h1 h2
    obtain ⟨p, h3, h4⟩ := h msg retries h1 h2
    exact ⟨p, hr h3, h4⟩
  | returned x =>
    rcases x with ⟨a, _ | e⟩ | ⟨a, _ | e⟩ | _
    · intro pkt retries ig h1 h2
      obtain ⟨p, h3, h4, h5⟩ := h pkt retries ig h1 h2
      exact ⟨p, h3, hr h4, h5⟩
    · trivial
    · intro msg retries h1 h2
      obtain ⟨a, p, q, h3, h4, h5, h6, h7⟩ := h msg retries h1 h2
      exact ⟨a, p, q, h3, hr h4, h5, hm h6, h7⟩
    · trivial
    · trivial

theorem known_after (i : Nat) (j : Job) (replies msgs : List (Nat × Packet)) (n : Nat) (ack : Option Packet) (err : Option Err)
    (hj : j ≠ .read) (h : err = none → ∃ p, ack = some p ∧ (i, p) ∈ replies ∧ FaithfulAck j.packet p) :
    Known i j replies msgs (j.after n ack err) := by
  have hfin : Known i j replies msgs (j.finish ack err) := by
    cases j with
    | command pkt retries ig =>
      cases err with
      | none =>
        intro pkt' retries' ig' h1 _
        simp only [Job.command.injEq] at h1
        rw [← h1.1]
        exact h rfl
      | some e => trivial
    | write msg retries =>
      cases err with
      | none =>
        intro msg' retries' h1 _
        obtain ⟨p, -, h2⟩ := h rfl
        exact ⟨p, h2⟩
      | some e => trivial
    | read => trivial
  unfold Job.after
  split
  · exact hj
  · exact hfin

theorem known_heard (i : Nat) (j : Job) (replies msgs : List (Nat × Packet)) (r : Recv) (hp : ∀ q, r = .packet q → (i, q) ∈ msgs)
    (h : Known i j replies msgs .listening) : Known i j replies msgs (j.heard r) := by
  cases r with
  | timeout => trivial
  | closed => trivial
  | packet q =>
    unfold Job.heard
    dsimp only
    rcases hu : Message.zero.unmarshalBinary q.payload with ⟨m, _ | e⟩ <;> dsimp only
    · cases j with
      | command pkt retries ig => intro msg retries h1; cases h1
      | read => intro msg retries h1; cases h1
      | write msg retries =>
        dsimp only
        by_cases hc : m.src = msg.dst ∧ (m.flags.ack = true ∨ m.flags.nak = true)
        · rw [if_pos hc]
          by_cases hn : m.flags.nak = true
          · rw [if_pos hn]; trivial
          · rw [if_neg hn]
            intro msg' retries' h1 h2
            obtain ⟨p, h3, h4⟩ := h msg' retries' h1 h2
            simp only [Job.write.injEq] at h1
            exact ⟨m, p, q, rfl, h3, h4, hp q rfl, hu, by rw [← h1.1]; exact hc.1, hc.2.resolve_right hn⟩
        · rw [if_neg hc]; exact h
    · trivial

theorem step_known (s : Shared) (e : SharedEv) (replies msgs : List (Nat × Packet))
    (h : ∀ i t, s.threads[i]? = some t → Known i t.job replies msgs t.phase) (i : Nat) (t : Thread)
    (ht : (step s e).1.threads[i]? = some t) :
    Known i t.job (replies ++ repliesTaken [(step s e).2]) (msgs ++ messagesTaken [(step s e).2]) t.phase := by
  have hold : ∀ r m, s.threads[i]? = some t → Known i t.job (replies ++ r) (msgs ++ m) t.phase := fun r m h1 =>
    (h i t h1).mono (List.subset_append_left _ _) (List.subset_append_left _ _)
  by_cases he : ∃ late err, e = .go i late err
  · obtain ⟨late, err, rfl⟩ := he
    simp only [step] at ht ⊢
    by_cases hd : s.down = true
    · rw [if_pos hd] at ht ⊢
      exact hold _ _ ht
    · rw [if_neg hd] at ht ⊢
      rcases hx : s.threads[i]? with _ | ⟨j, ph⟩ <;> rw [hx] at ht <;> dsimp only at ht ⊢
      · rw [hx] at ht; cases ht
      · have hk := h i _ hx
        have hi : i < s.threads.length := by
          rw [List.getElem?_eq_some_iff] at hx
          exact hx.1
        cases ph with
        | sending n =>
          simp only [set, List.getElem?_set_self hi, Option.some.injEq] at ht
          subst ht
          dsimp only
          cases err with
          | none => exact hk
          | some e => exact known_after _ _ _ _ _ _ _ hk (by simp)
        | waiting n =>
          simp only [set, List.getElem?_set_self hi, Option.some.injEq] at ht
          subst ht
          dsimp only
          rcases hr : (Port.recv s.port.pktQ s.port.closed late).2 with p | _ | _
          · unfold Job.replied
            dsimp only
            rcases hc : Plm.checkAck j.packet p with e | e | _ <;> dsimp only
            · refine known_after _ _ _ _ _ _ _ hk ?_
              rintro rfl
              exact ⟨p, rfl, by simp [repliesTaken], (checkAck_ok_iff _ _).mp hc⟩
            · trivial
            · trivial
          · trivial
          · refine known_after i j _ _ n none (some (.wrapped .plmReadTimeout)) hk ?_
            intro h; cases h
        | listening =>
          simp only [set, List.getElem?_set_self hi, Option.some.injEq] at ht
          subst ht
          dsimp only
          refine known_heard _ _ _ _ _ ?_ (hk.mono (List.subset_append_left _ _) (List.subset_append_left _ _))
          intro q hq
          rw [hq]
          simp [messagesTaken]
        | returned r =>
          dsimp only at ht ⊢
          exact hold _ _ ht
  · rw [step_other s e i (fun late err h => he ⟨late, err, h⟩)] at ht
    exact hold _ _ ht

theorem run_known (s : Shared) (es : List SharedEv) (replies msgs : List (Nat × Packet))
    (h : ∀ i t, s.threads[i]? = some t → Known i t.job replies msgs t.phase) (i : Nat) (t : Thread)
    (ht : (run s es).1.threads[i]? = some t) :
    Known i t.job (replies ++ repliesTaken (run s es).2) (msgs ++ messagesTaken (run s es).2) t.phase := by
  induction es generalizing s replies msgs with
  | nil =>
    simp only [run, repliesTaken, messagesTaken, List.filterMap_nil, List.append_nil]
    exact h i t ht
  | cons e es ih =>
    have := ih (step s e).1 _ _ (step_known s e replies msgs h) ht
    simp only [run]
    rw [repliesTaken_cons, messagesTaken_cons, ← List.append_assoc, ← List.append_assoc]
    exact this

theorem start_known (jobs : List Job) (i : Nat) (t : Thread) (h : (init jobs).threads[i]? = some t) : Known i t.job [] [] t.phase := by
  simp only [init, List.getElem?_map, Option.map_eq_some_iff] at h
  obtain ⟨j, -, rfl⟩ := h
  dsimp only
  cases j with
  | read => intro msg retries h1; cases h1
  | command pkt retries ig =>
    simp only [Job.start]
    rcases hn : (retries + 1).toNat with _ | n <;> dsimp only
    · intro pkt' retries' ig' h1 h2
      simp only [Job.command.injEq] at h1
      omega
    · simp [Known]
  | write msg retries =>
    simp only [Job.start]
    rcases hn : (retries + 1).toNat with _ | n <;> dsimp only
    · intro msg' retries' h1 h2
      simp only [Job.write.injEq] at h1
      omega
    · simp [Known]

/-- The job of a goroutine does not change. -/
theorem run_job (s : Shared) (es : List SharedEv) (i : Nat) : ((run s es).1.threads[i]?).map Thread.job = (s.threads[i]?).map Thread.job := by
  induction es generalizing s with
  | nil => rfl
  | cons e es ih =>
    simp only [run]
    rw [ih]
    by_cases he : ∃ late err, e = .go i late err
    · obtain ⟨late, err, rfl⟩ := he
      simp only [step]
      split_ifs
      · rfl
      · rcases hx : s.threads[i]? with _ | ⟨j, ph⟩
        · simp only [hx]
        · have hi : i < s.threads.length := by
            rw [List.getElem?_eq_some_iff] at hx
            exact hx.1
          cases ph with
          | returned r => simp only [hx]
          | _ => simp [set, hi]
    · rw [step_other s e i (fun late err h => he ⟨late, err, h⟩)]

/-- C150, part that holds: a command that reports success was itself handed a faithful acknowledgement of its own packet, and a write that
reports success was itself handed the modem's echo of its own message and then an acknowledgement from the device it wrote to. Missing: that
a call is handed the answers meant for it; see `concurrent_answers_refuted`. -/
theorem concurrent_success_partial (jobs : List Job) (es : List SharedEv) (i : Nat) :
    let os := (run (init jobs) es).2
    (∀ pkt retries ignoreNak ack, jobs[i]? = some (.command pkt retries ignoreNak) → 0 ≤ retries →
      (run (init jobs) es).1.result i = some (.packet ack none) →
      ∃ p, ack = some p ∧ (i, p) ∈ repliesTaken os ∧ FaithfulAck pkt p) ∧
    (∀ msg retries m, jobs[i]? = some (.write msg retries) → 0 ≤ retries → (run (init jobs) es).1.result i = some (.message m none) →
      ∃ a p q, m = some a ∧ (i, p) ∈ repliesTaken os ∧ FaithfulAck ⟨0x62#8, msg.marshalBinary.drop 3, 0#8⟩ p ∧ (i, q) ∈ messagesTaken os ∧
        Message.zero.unmarshalBinary q.payload = (a, none) ∧ a.src = msg.dst ∧ a.flags.ack = true) := by
  have hjob : ∀ j R, jobs[i]? = some j → (run (init jobs) es).1.result i = some R →
      Known i j (repliesTaken (run (init jobs) es).2) (messagesTaken (run (init jobs) es).2) (.returned R) := by
    intro j R hj hR
    obtain ⟨j', hj'⟩ := result_returned _ _ _ hR
    have h1 := run_known (init jobs) es [] [] (start_known jobs) i _ hj'
    have h2 := run_job (init jobs) es i
    rw [hj'] at h2
    simp only [init, List.getElem?_map, hj, Option.map_some, Option.some.injEq] at h2
    subst h2
    simpa using h1
  constructor
  · intro pkt retries ig ack hj h0 hR
    exact hjob _ _ hj hR pkt retries ig rfl h0
  · intro msg retries m hj h0 hR
    exact hjob _ _ hj hR msg retries rfl h0

/-- Two goroutines write to different devices. The modem confirms both messages and both devices acknowledge; nothing is dropped and nobody's
timer fires early. Yet the second call reports that its device did not answer, since the first one was handed that answer and threw it away. -/
theorem concurrent_answers_refuted :
    let m1 : Message := ⟨0x000001#32, 0x112233#32, 0x0f#8, 0x001100#64, []⟩
    let m2 : Message := ⟨0x000001#32, 0x445566#32, 0x0f#8, 0x001300#64, []⟩
    let echo (m : Message) : Packet := ⟨0x62#8, [0#8, 0#8, 0#8] ++ m.marshalBinary.drop 3, 0x06#8⟩
    let answer (m : Message) : Packet := ⟨0x50#8, (Message.mk m.dst m.src 0x2f#8 m.command []).marshalBinary, 0#8⟩
    let es : List SharedEv := [.go 0 false none, .arrive (echo m1), .go 0 false none, .go 1 false none, .arrive (echo m2), .go 1 false none,
      .arrive (answer m2), .arrive (answer m1), .go 0 false none, .go 0 false none, .go 1 false none]
    let r := run (init [.write m1 3, .write m2 3]) es
    putAside false r.2 = [echo m1, echo m2] ∧ putAside true r.2 = [answer m2, answer m1] ∧
    messagesTaken r.2 = [(0, answer m2), (0, answer m1)] ∧
    r.1.result 0 = some (.message (some ⟨m1.dst, m1.src, 0x2f#8, m1.command, []⟩) none) ∧
    r.1.result 1 = some (.message none (some (.wrapped .insReadTimeout))) := by
  decide +kernel

/-- Two commands at the same time: each is handed the modem's reply to the other and reports an error, although the modem carried out both. -/
theorem concurrent_replies_refuted :
    let info : Packet := ⟨0x60#8, [0x11#8, 0x22#8, 0x33#8, 0x03#8, 0x15#8, 0x9b#8], 0x06#8⟩
    let config : Packet := ⟨0x73#8, [0x40#8, 0#8, 0#8], 0x06#8⟩
    let es : List SharedEv := [.go 0 false none, .go 1 false none, .arrive info, .arrive config, .go 1 false none, .go 0 false none]
    let r := run (init [.command ⟨0x60#8, [], 0#8⟩ 3 true, .command ⟨0x73#8, [], 0#8⟩ 3 true]) es
    FaithfulAck ⟨0x60#8, [], 0#8⟩ info ∧ FaithfulAck ⟨0x73#8, [], 0#8⟩ config ∧
    putAside false r.2 = [info, config] ∧
    r.1.result 0 = some (.packet (some config) (some .wrongAck)) ∧ r.1.result 1 = some (.packet (some info) (some .wrongAck)) := by
  refine ⟨by simp [FaithfulAck], by simp [FaithfulAck], ?_⟩
  decide +kernel

/-- A run in which both calls succeed. -/
example :
    let m1 : Message := ⟨0x000001#32, 0x112233#32, 0x0f#8, 0x001100#64, []⟩
    let echo (m : Message) : Packet := ⟨0x62#8, [0#8, 0#8, 0#8] ++ m.marshalBinary.drop 3, 0x06#8⟩
    let answer (m : Message) : Packet := ⟨0x50#8, (Message.mk m.dst m.src 0x2f#8 m.command []).marshalBinary, 0#8⟩
    let es : List SharedEv := [.go 0 false none, .arrive (echo m1), .go 0 false none, .go 1 false none,
      .arrive (answer m1), .arrive ⟨0x73#8, [0x40#8, 0#8, 0#8], 0x06#8⟩, .go 0 false none, .go 1 false none]
    let r := run (init [.write m1 3, .command ⟨0x73#8, [], 0#8⟩ 3 true]) es
    r.1.result 0 = some (.message (some ⟨m1.dst, m1.src, 0x2f#8, m1.command, []⟩) none) ∧
    r.1.result 1 = some (.packet (some ⟨0x73#8, [0x40#8, 0#8, 0#8], 0x06#8⟩) none) := by
  decide +kernel

/-! ### C151 -/

/-- How often a goroutine may still write, from where it is. -/
def toWrite : Phase → Nat
  | .sending n => n + 1
  | .waiting n => n
  | _ => 0

/-- How many steps a command may still take. -/
def toGo : Phase → Nat
  | .sending n => 2 * n + 2
  | .waiting n => 2 * n + 1
  | _ => 0

theorem toWrite_finish (j : Job) (ack : Option Packet) (err : Option Err) : toWrite (j.finish ack err) = 0 := by
  cases j <;> cases err <;> rfl

theorem toWrite_after (j : Job) (n : Nat) (ack : Option Packet) (err : Option Err) : toWrite (j.after n ack err) ≤ n := by
  unfold Job.after
  split
  · exact Nat.le_refl _
  · rw [toWrite_finish]; exact Nat.zero_le _

theorem toWrite_replied (j : Job) (n : Nat) (r : Recv) : toWrite (j.replied n r) ≤ n := by
  unfold Job.replied
  split
  · exact toWrite_after _ _ _ _
  · exact Nat.zero_le _
  · split
    · exact toWrite_after _ _ _ _
    · exact Nat.zero_le _

theorem toWrite_heard (j : Job) (r : Recv) : toWrite (j.heard r) = 0 := by
  unfold Job.heard
  split
  · rfl
  · rfl
  · split
    · rfl
    · split
      · split_ifs <;> rfl
      · rfl

theorem step_written (s : Shared) (e : SharedEv) (i : Nat) (t : Thread) (ht : s.threads[i]? = some t) :
    ∃ ph, (step s e).1.threads[i]? = some ⟨t.job, ph⟩ ∧
      ∃ k, written i [(step s e).2] = List.replicate k t.job.packet.marshalBinary ∧ k + toWrite ph ≤ toWrite t.phase := by
  obtain ⟨j, ph⟩ := t
  have hi : i < s.threads.length := by
    rw [List.getElem?_eq_some_iff] at ht
    exact ht.1
  have hsame : ∃ ph', s.threads[i]? = some ⟨j, ph'⟩ ∧
      ∃ k, written i [SharedObs.none] = List.replicate k j.packet.marshalBinary ∧ k + toWrite ph' ≤ toWrite ph :=
    ⟨ph, ht, 0, rfl, by omega⟩
  by_cases he : ∃ late err, e = .go i late err
  · obtain ⟨late, err, rfl⟩ := he
    simp only [step]
    by_cases hd : s.down = true
    · rw [if_pos hd]; exact hsame
    · rw [if_neg hd, ht]
      dsimp only
      cases ph with
      | sending n =>
        refine ⟨j.sent n err, by simp [set, hi], 1, by simp [written], ?_⟩
        cases err with
        | none => simp [Job.sent, toWrite]; omega
        | some e => have := toWrite_after j n none (some e); show 1 + toWrite (j.after n none (some e)) ≤ n + 1; omega
      | waiting n =>
        refine ⟨_, by simp [set, hi]; rfl, 0, by simp [written], ?_⟩
        have := toWrite_replied j n (Port.recv s.port.pktQ s.port.closed late).2
        show 0 + toWrite (j.replied n (Port.recv s.port.pktQ s.port.closed late).2) ≤ n
        omega
      | listening =>
        refine ⟨_, by simp [set, hi]; rfl, 0, by simp [written], ?_⟩
        have := toWrite_heard j (Port.recv s.port.msgQ s.port.closed late).2
        omega
      | returned r => exact hsame
  · rw [step_other s e i (fun late err h => he ⟨late, err, h⟩)]
    refine ⟨ph, ht, 0, ?_, by simp⟩
    cases e with
    | arrive p =>
      simp only [step]
      split_ifs
      · rfl
      · unfold arrival; split <;> rfl
    | fail =>
      simp only [step]
      split_ifs
      · rfl
      · unfold arrival; split <;> rfl
    | go l late err =>
      have hl : l ≠ i := fun h => he ⟨late, err, by rw [h]⟩
      simp only [step]
      split_ifs
      · rfl
      · split
        · rfl
        · split <;> simp [written, hl]

theorem written_cons (i : Nat) (o : SharedObs) (os : List SharedObs) : written i (o :: os) = written i [o] ++ written i os := by
  unfold written; rw [← List.filterMap_append]; rfl

theorem run_written (s : Shared) (es : List SharedEv) (i : Nat) (t : Thread) (ht : s.threads[i]? = some t) :
    ∃ k, written i (run s es).2 = List.replicate k t.job.packet.marshalBinary ∧ k ≤ toWrite t.phase := by
  induction es generalizing s t with
  | nil => exact ⟨0, rfl, Nat.zero_le _⟩
  | cons e es ih =>
    obtain ⟨ph, h1, k, h2, h3⟩ := step_written s e i t ht
    obtain ⟨k', h4, h5⟩ := ih (step s e).1 ⟨t.job, ph⟩ h1
    refine ⟨k + k', ?_, by dsimp only at h5; omega⟩
    simp only [run]
    rw [written_cons, h2, h4, List.replicate_append_replicate]

/-- C151: whatever the other goroutines do, a call writes its own packet and nothing else, at most as often as the number of retries allows;
reading writes nothing. -/
theorem concurrent_writes (jobs : List Job) (es : List SharedEv) (i : Nat) :
    let os := (run (init jobs) es).2
    (∀ pkt retries ignoreNak, jobs[i]? = some (.command pkt retries ignoreNak) →
      ∃ k : Nat, (k : Int) ≤ max 0 (retries + 1) ∧ written i os = List.replicate k (0x02#8 :: pkt.command :: pkt.payload)) ∧
    (∀ msg retries, jobs[i]? = some (.write msg retries) →
      ∃ k : Nat, (k : Int) ≤ max 0 (retries + 1) ∧ written i os = List.replicate k (0x02#8 :: 0x62#8 :: msg.marshalBinary.drop 3)) ∧
    (jobs[i]? = some .read → written i os = []) := by
  have h : ∀ j, jobs[i]? = some j → ∃ k, written i (run (init jobs) es).2 = List.replicate k j.packet.marshalBinary ∧ k ≤ toWrite j.start := by
    intro j hj
    exact run_written (init jobs) es i ⟨j, j.start⟩ (by simp [init, hj])
  have hs : ∀ (j : Job) (retries : Int), j.start = (match (retries + 1).toNat with | 0 => j.finish none none | n + 1 => .sending n) →
      (toWrite j.start : Int) ≤ max 0 (retries + 1) := by
    intro j retries hst
    rw [hst]
    rcases hn : (retries + 1).toNat with _ | n <;> dsimp only
    · rw [toWrite_finish]; omega
    · simp only [toWrite]; omega
  refine ⟨?_, ?_, ?_⟩
  · intro pkt retries ig hj
    obtain ⟨k, h1, h2⟩ := h _ hj
    have := hs (.command pkt retries ig) retries rfl
    exact ⟨k, by omega, h1⟩
  · intro msg retries hj
    obtain ⟨k, h1, h2⟩ := h _ hj
    have := hs (.write msg retries) retries rfl
    exact ⟨k, by omega, h1⟩
  · intro hj
    obtain ⟨k, h1, h2⟩ := h _ hj
    have : k = 0 := by simpa [Job.start, toWrite] using h2
    rw [h1, this]; rfl

/-- The steps of one goroutine. -/
def _root_.Insteon.Spec.ownSteps (i : Nat) (es : List SharedEv) : Nat :=
  es.countP fun e => match e with
    | .go j _ _ => decide (j = i)
    | _ => false

theorem after_command (pkt : Packet) (retries : Int) (ig : Bool) (n : Nat) (ack : Option Packet) (err : Option Err) :
    (∃ r, (Job.command pkt retries ig).after n ack err = .returned r) ∨ ∃ m, m < n ∧ (Job.command pkt retries ig).after n ack err = .sending m := by
  unfold Job.after
  split
  · exact .inr ⟨_, Nat.lt_succ_self _, rfl⟩
  · exact .inl ⟨_, rfl⟩

theorem step_togo (s : Shared) (e : SharedEv) (i : Nat) (pkt : Packet) (retries : Int) (ig : Bool) (ph : Phase) (hl : ph ≠ .listening)
    (ht : s.threads[i]? = some ⟨.command pkt retries ig, ph⟩) (hd : s.down = false) :
    ∃ ph', (step s e).1.threads[i]? = some ⟨.command pkt retries ig, ph'⟩ ∧ ph' ≠ .listening ∧
      ((∃ r, ph' = .returned r) ∨ toGo ph' + ownSteps i [e] ≤ toGo ph) := by
  have hi : i < s.threads.length := by
    rw [List.getElem?_eq_some_iff] at ht
    exact ht.1
  by_cases he : ∃ late err, e = .go i late err
  · obtain ⟨late, err, rfl⟩ := he
    have hone : ownSteps i [SharedEv.go i late err] = 1 := by simp [ownSteps]
    simp only [step, hd, ht, hone, Bool.false_eq_true, if_false]
    cases ph with
    | sending n =>
      refine ⟨(Job.command pkt retries ig).sent n err, by simp [set, hi], ?_⟩
      cases err with
      | none => exact ⟨by simp [Job.sent], .inr (by simp only [Job.sent, toGo]; omega)⟩
      | some e =>
        simp only [Job.sent]
        rcases after_command pkt retries ig n none (some e) with ⟨r, hr⟩ | ⟨m, hm, hr⟩ <;> rw [hr]
        · exact ⟨by simp, .inl ⟨r, rfl⟩⟩
        · exact ⟨by simp, .inr (by simp only [toGo]; omega)⟩
    | waiting n =>
      refine ⟨_, by simp [set, hi]; rfl, ?_⟩
      unfold Job.replied
      split
      · rcases after_command pkt retries ig n none (some (.wrapped .plmReadTimeout)) with ⟨r, hr⟩ | ⟨m, hm, hr⟩ <;> rw [hr]
        · exact ⟨by simp, .inl ⟨r, rfl⟩⟩
        · exact ⟨by simp, .inr (by simp only [toGo]; omega)⟩
      · exact ⟨by simp, .inl ⟨_, rfl⟩⟩
      · rename_i p hp
        split
        · rename_i e he
          rcases after_command pkt retries ig n (some p) e with ⟨r, hr⟩ | ⟨m, hm, hr⟩ <;> rw [hr]
          · exact ⟨by simp, .inl ⟨r, rfl⟩⟩
          · exact ⟨by simp, .inr (by simp only [toGo]; omega)⟩
        · exact ⟨by simp, .inl ⟨_, rfl⟩⟩
    | listening => exact absurd rfl hl
    | returned r => exact ⟨.returned r, ht, by simp, .inl ⟨r, rfl⟩⟩
  · rw [step_other s e i (fun late err h => he ⟨late, err, h⟩)]
    refine ⟨ph, ht, hl, .inr ?_⟩
    have : ownSteps i [e] = 0 := by
      cases e with
      | arrive p => rfl
      | fail => rfl
      | go l late err =>
        have hl : l ≠ i := fun h => he ⟨late, err, by rw [h]⟩
        simp [ownSteps, hl]
    omega

theorem run_togo (s : Shared) (es : List SharedEv) (i : Nat) (pkt : Packet) (retries : Int) (ig : Bool) (ph : Phase) (hl : ph ≠ .listening)
    (ht : s.threads[i]? = some ⟨.command pkt retries ig, ph⟩) (hd : (run s es).1.down = false) :
    ∃ ph', (run s es).1.threads[i]? = some ⟨.command pkt retries ig, ph'⟩ ∧ ph' ≠ .listening ∧
      ((∃ r, ph' = .returned r) ∨ toGo ph' + ownSteps i es ≤ toGo ph) := by
  induction es generalizing s ph with
  | nil => exact ⟨ph, ht, hl, .inr (by simp [ownSteps])⟩
  | cons e es ih =>
    have hd' : s.down = false := by
      by_contra h
      have h : s.down = true := by simpa using h
      rw [run_down s _ h, h] at hd
      cases hd
    obtain ⟨ph1, h1, h2, h3⟩ := step_togo s e i pkt retries ig ph hl ht hd'
    rcases h3 with ⟨r, rfl⟩ | h3
    · exact ⟨.returned r, run_returned _ es i _ r h1, by simp, .inl ⟨r, rfl⟩⟩
    · obtain ⟨ph2, h4, h5, h6⟩ := ih (step s e).1 ph1 h2 h1 hd
      refine ⟨ph2, h4, h5, h6.imp id fun h6 => ?_⟩
      have : ownSteps i (e :: es) = ownSteps i [e] + ownSteps i es := by
        unfold ownSteps
        rw [← List.countP_append]; rfl
      omega

/-- C151: nobody blocks anybody: a command has returned after twice as many steps of its own as it has attempts, whatever the others do,
unless the program is down. -/
theorem concurrent_returns (jobs : List Job) (es : List SharedEv) (i : Nat) (pkt : Packet) (retries : Int) (ignoreNak : Bool)
    (hj : jobs[i]? = some (.command pkt retries ignoreNak)) (hd : (run (init jobs) es).1.down = false)
    (hn : 2 * (retries + 1) ≤ ownSteps i es) : ∃ r, (run (init jobs) es).1.result i = some r := by
  have hstart : (Job.command pkt retries ignoreNak).start ≠ .listening ∧
      ((∃ r, (Job.command pkt retries ignoreNak).start = .returned r) ∨
        (toGo (Job.command pkt retries ignoreNak).start : Int) ≤ 2 * (retries + 1)) := by
    simp only [Job.start]
    rcases hm : (retries + 1).toNat with _ | m <;> dsimp only
    · exact ⟨by simp [Job.finish], .inl ⟨_, rfl⟩⟩
    · exact ⟨by simp, .inr (by simp only [toGo]; omega)⟩
  have ht : (init jobs).threads[i]? = some ⟨.command pkt retries ignoreNak, (Job.command pkt retries ignoreNak).start⟩ := by simp [init, hj]
  have hres : ∀ r, (run (init jobs) es).1.threads[i]? = some ⟨.command pkt retries ignoreNak, .returned r⟩ →
      ∃ r, (run (init jobs) es).1.result i = some r := by
    intro r h
    exact ⟨r, by simp only [result, h]⟩
  rcases hstart.2 with ⟨r, hr⟩ | hle
  · rw [hr] at ht
    exact hres r (run_returned _ es i _ r ht)
  · obtain ⟨ph, h1, h2, h3⟩ := run_togo (init jobs) es i pkt retries ignoreNak _ hstart.1 ht hd
    rcases h3 with ⟨r, rfl⟩ | h3
    · exact hres r h1
    · cases ph with
      | sending n => simp only [toGo] at h3 hle; omega
      | waiting n => simp only [toGo] at h3 hle; omega
      | listening => exact absurd rfl h2
      | returned r => exact hres r h1

/-- Two commands that never get a reply return at the timeout. -/
example : (run (init [.command ⟨0x60#8, [], 0#8⟩ 0 true, .command ⟨0x73#8, [], 0#8⟩ 0 true])
    [.go 0 false none, .go 1 false none, .go 1 false none, .go 0 false none]).1.result 1 =
    some (.packet none (some (.wrapped .plmReadTimeout))) := by decide +kernel

end Shared
end Insteon
