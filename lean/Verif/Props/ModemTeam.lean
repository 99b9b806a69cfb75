import Verif.Props.DeviceTeam
import Verif.Props.ModemFailures
import Verif.Spec.ModemTeam

/-
C209, C210: calls on the modem by goroutines that share a PLM.
-/

namespace Insteon
open Insteon.Spec

/-! ### Calls on the modem are programs -/

theorem loop_of_program {α : Type} {f : (σ : Type) → PlmIO σ → σ → σ × α} (hf : IsProgram f) : IsLoopProgram fun σ io s => some (f σ io s) := by
  obtain ⟨P, hP⟩ := hf
  refine ⟨P.bind fun a => .ret (some a), fun σ io s => ⟨fun s' a h => ?_, fun h => by cases h⟩⟩
  rw [Prog.run_bind, hP]
  simp only [Option.some.injEq] at h
  rw [h]; rfl

/-- Success, or else a panic: what is left of an outcome that its caller only takes when it is a value. -/
private def onlySuccess {α : Type} : Out α → Out (Option Err)
  | .ok _ => .ok none
  | _ => .panic

/-- The same for an outcome with an error among its values. -/
private def onlyError {α : Type} : Out (α × Option Err) → Out (Option Err)
  | .ok (_, e) => .ok e
  | _ => .panic

theorem loop_tell (u : ModemUse) (retries fuel : Nat) : IsLoopProgram fun _ io s => u.tell io retries fuel s := by
  obtain ⟨c1, c2, c3, c4, c5, -⟩ := commands_are_programs retries .info 0#32
  cases u with
  | single c => exact loop_of_program (commands_are_programs retries c 0#32).1
  | address cached =>
    exact loop_of_program (program_map (errorAmong fun _ => none) (program_address retries cached))
  | text cached =>
    refine loop_congr (loop_of_program (program_map onlySuccess (program_address retries cached))) fun σ io s => ?_
    simp only [ModemUse.tell, Plm.string]
    rcases Plm.address io retries s cached with ⟨s1, a | e | _⟩ <;> rfl
  | readPacket => exact loop_of_program (program_map PRes.error program_readPacket)
  | links cached => exact loop_map (errorAmong Prod.snd) (loop_links retries fuel cached)
  | writeLinks cached given => exact loop_of_program (program_map (errorAmong Prod.snd) (program_writeLinks cached given))
  | linkedDevices cached => exact loop_map (errorAmong Prod.snd) (loop_iterateDevices retries fuel cached)
  | report sort cached =>
    refine loop_congr (loop_bind (program_info retries)
      (g := fun i σ io s => match i with
        | .ok (_, some e) => some (s, .ok (some e))
        | .ok (some i, none) => match (Plm.config io retries s).2 with
          | .ok (_, some e) => some ((Plm.config io retries s).1, .ok (some e))
          | .ok (c, none) => (PlmLinks.links (Plm.asWriter io) retries fuel (Plm.config io retries s).1 cached).map fun p => (p.1, onlyError p.2)
          | _ => some ((Plm.config io retries s).1, .panic)
        | _ => some (s, .panic)) ?_) fun σ io s => ?_
    · rintro (⟨_ | i, _ | e⟩ | e | _)
      · exact loop_ret _
      · exact loop_ret _
      · refine loop_bind (program_config retries) (g := fun c σ io s => match c with
          | .ok (_, some e) => some (s, .ok (some e))
          | .ok (c, none) => (PlmLinks.links (Plm.asWriter io) retries fuel s cached).map fun p => (p.1, onlyError p.2)
          | _ => some (s, .panic)) ?_
        rintro (⟨c, _ | e⟩ | e | _)
        · exact loop_map (onlyError) (loop_links retries fuel cached)
        all_goals exact loop_ret _
      all_goals exact loop_ret _
    · simp only [ModemUse.tell, plmInfoCmd]
      rcases Plm.info io retries s with ⟨s1, ⟨_ | i, _ | e⟩ | e | _⟩ <;> dsimp only <;> try rfl
      rcases Plm.config io retries s1 with ⟨s2, ⟨c, _ | e⟩ | e | _⟩ <;> dsimp only <;> try rfl
      rcases PlmLinks.links (Plm.asWriter io) retries fuel s2 cached with _ | ⟨s3, ⟨ls, _ | e⟩ | e | _⟩ <;> rfl

theorem modem_call_program (u : ModemUse) (retries fuel : Nat) : ∃ P, IsModemCall u retries fuel P := by
  obtain ⟨P, hP⟩ := loop_tell u retries fuel
  refine ⟨P, fun σ io s s' r => ⟨fun h => ?_, fun h => (hP σ io s).1 s' r h⟩⟩
  rcases hx : u.tell io retries fuel s with _ | ⟨s1, r1⟩
  · have := (hP σ io s).2 hx
    rw [h] at this; simp at this
  · have := (hP σ io s).1 s1 r1 hx
    rw [h] at this
    simp only [Prod.mk.injEq, Option.some.injEq] at this
    rw [this.1, this.2]

/-! ### Doing again what was done -/

/-- A world in which certain steps come out as they did, and after that nothing works any more. -/
def replay : PlmIO (List Own) where
  tx s _ := match s with
    | .wrote _ err :: h => (h, err)
    | _ => (s, some (.other 0))
  rxPacket s := match s with
    | .packet r :: h => (h, r)
    | _ => (s, .timeout)
  rxMsg s := match s with
    | .message r :: h => (h, r)
    | _ => (s, .timeout)

theorem replay_follow {α : Type} (P : Prog α) : ∀ (h : List Own) (R : Prog α) (log : List Bytes), P.follow h = some R →
    P.run (logged replay) (h, log) = R.run (logged replay) ([], log ++ bytesIn h) := by
  induction P with
  | ret a =>
    intro h R log hx
    cases h with
    | nil => simp only [Prog.follow, Option.some.injEq] at hx; rw [← hx]; simp [bytesIn]
    | cons o h => simp [Prog.follow] at hx
  | tx b k ih =>
    intro h R log hx
    rcases h with _ | ⟨b' | r | r, h⟩
    · simp only [Prog.follow, Option.some.injEq] at hx; rw [← hx]; simp [bytesIn]
    · rename_i err
      simp only [Prog.follow] at hx
      by_cases hb : b' = b
      · rw [if_pos hb] at hx
        have := ih err h R (log ++ [b]) hx
        subst hb
        simpa [Prog.run, logged, replay, bytesIn] using this
      · rw [if_neg hb] at hx; simp at hx
    · simp [Prog.follow] at hx
    · simp [Prog.follow] at hx
  | rxPacket k ih =>
    intro h R log hx
    rcases h with _ | ⟨b' | r | r, h⟩
    · simp only [Prog.follow, Option.some.injEq] at hx; rw [← hx]; simp [bytesIn]
    · simp [Prog.follow] at hx
    · exact ih r h R log hx
    · simp [Prog.follow] at hx
  | rxMsg k ih =>
    intro h R log hx
    rcases h with _ | ⟨b' | r | r, h⟩
    · simp only [Prog.follow, Option.some.injEq] at hx; rw [← hx]; simp [bytesIn]
    · simp [Prog.follow] at hx
    · simp [Prog.follow] at hx
    · exact ih r h R log hx

theorem replay_plain {α : Type} (P : Prog α) : ∀ (h : List Own) (a : α), P.follow h = some (.ret a) → P.run replay h = ([], a) := by
  induction P with
  | ret a =>
    intro h b hx
    cases h with
    | nil => simp only [Prog.follow, Option.some.injEq, Prog.ret.injEq] at hx; rw [hx]; rfl
    | cons o h => simp [Prog.follow] at hx
  | tx b k ih =>
    intro h R hx
    rcases h with _ | ⟨b' | r | r, h⟩
    · simp [Prog.follow] at hx
    · rename_i err
      simp only [Prog.follow] at hx
      by_cases hb : b' = b
      · rw [if_pos hb] at hx
        exact ih err h R hx
      · rw [if_neg hb] at hx; simp at hx
    · simp [Prog.follow] at hx
    · simp [Prog.follow] at hx
  | rxPacket k ih =>
    intro h R hx
    rcases h with _ | ⟨b' | r | r, h⟩
    · simp [Prog.follow] at hx
    · simp [Prog.follow] at hx
    · exact ih r h R hx
    · simp [Prog.follow] at hx
  | rxMsg k ih =>
    intro h R hx
    rcases h with _ | ⟨b' | r | r, h⟩
    · simp [Prog.follow] at hx
    · simp [Prog.follow] at hx
    · simp [Prog.follow] at hx
    · exact ih r h R hx

theorem log_grows {α σ : Type} (io : PlmIO σ) (P : Prog α) : ∀ (s : σ) (log : List Bytes), log <+: (P.run (logged io) (s, log)).1.2 := by
  induction P with
  | ret a => exact fun s log => List.prefix_refl _
  | tx b k ih => exact fun s log => (List.prefix_append log [b]).trans (ih _ _ _)
  | rxPacket k ih => exact fun s log => ih _ _ _
  | rxMsg k ih => exact fun s log => ih _ _ _

/-! ### Every call ends when nothing works any more -/

theorem replay_packet (h : List Own) : (replay.rxPacket h).1.length ≤ h.length ∧ ((replay.rxPacket h).1.length < h.length ∨ (replay.rxPacket h).2 = .timeout) := by
  rcases h with _ | ⟨_ | _ | _, h⟩ <;> simp [replay]

theorem replay_write (h : List Own) (pkt : Packet) : (Plm.writePacket replay h pkt).1.length ≤ h.length := by
  have htx : ∀ b, (replay.tx h b).1.length ≤ h.length := fun b => by rcases h with _ | ⟨_ | _ | _, h⟩ <;> simp [replay]
  unfold Plm.writePacket
  rcases hx : replay.tx h pkt.marshalBinary with ⟨h1, _ | e⟩
  · have h1le := htx pkt.marshalBinary
    rw [hx] at h1le
    have hp := replay_packet h1
    rcases hy : replay.rxPacket h1 with ⟨h2, p | _ | _⟩ <;> rw [hy] at hp
    · rcases hc : Plm.checkAck pkt p with e | e | _ <;> dsimp only <;> rw [hy] <;> dsimp only <;> rw [hc] <;> exact hp.1.trans h1le
    all_goals dsimp only; rw [hy]; exact hp.1.trans h1le
  · have h1le := htx pkt.marshalBinary
    rw [hx] at h1le
    exact h1le

theorem replay_retryLoop (ig : Bool) (pkt : Packet) (n : Nat) : ∀ (h : List Own) (cur : PRes), (retryLoop (Plm.writePacket replay) ig pkt n h cur).1.length ≤ h.length := by
  induction n with
  | zero => exact fun h cur => Nat.le_refl _
  | succ n ih =>
    intro h cur
    have h1 := replay_write h pkt
    rw [retryLoop]
    rcases hx : Plm.writePacket replay h pkt with ⟨h2, ⟨a, e⟩ | _⟩ <;> rw [hx] at h1 <;> dsimp only
    · split_ifs
      · exact (ih _ _).trans h1
      · exact h1
    · exact h1

theorem replay_refresh (retries : Int) (fuel : Nat) : ∀ (h : List Own) (acc : List LinkRecord), h.length < fuel →
    PlmLinks.refreshLoop (Plm.asWriter replay) retries fuel h acc ≠ none := by
  induction fuel with
  | zero => intro h acc hl; omega
  | succ n ih =>
    intro h acc hl
    have hp := replay_packet h
    simp only [PlmLinks.refreshLoop, Plm.asWriter, Plm.readPacket]
    rcases hy : replay.rxPacket h with ⟨h1, p | _ | _⟩ <;> rw [hy] at hp <;> dsimp only
    · have hlt : h1.length < n := by simpa using (show h1.length < n from by rcases hp.2 with h | h <;> simp at h <;> omega)
      split_ifs with hc
      · rcases LinkRecord.unmarshalBinary LinkRecord.zero p.payload with ⟨l, _ | e⟩ <;> dsimp only
        · have hr := replay_retryLoop false ⟨PCmd.getNextAllLink, [], 0#8⟩ (retries + 1).toNat h1 (.ret none none)
          rcases hx : retryWrite (Plm.writePacket replay) retries false h1 ⟨PCmd.getNextAllLink, [], 0#8⟩ with ⟨h2, ⟨a, _ | e⟩ | _⟩ <;> dsimp only
          · unfold retryWrite at hx
            rw [hx] at hr
            exact ih h2 _ (Nat.lt_of_le_of_lt hr hlt)
          · simp
          · simp
        · simp
      · exact ih h1 _ hlt
    · simp
    · simp

theorem replay_links (retries : Int) (fuel : Nat) (h : List Own) (cached : List LinkRecord) (hl : h.length < fuel) :
    PlmLinks.links (Plm.asWriter replay) retries fuel h cached ≠ none := by
  have hr := replay_retryLoop true ⟨PCmd.getFirstAllLink, [], 0#8⟩ (retries + 1).toNat h (.ret none none)
  unfold PlmLinks.links PlmLinks.refresh
  rw [show (Plm.asWriter replay).write = Plm.writePacket replay from rfl]
  rcases hx : retryWrite (Plm.writePacket replay) retries true h ⟨PCmd.getFirstAllLink, [], 0#8⟩ with ⟨h2, ⟨a, _ | e⟩ | _⟩ <;> dsimp only
  · unfold retryWrite at hx
    rw [hx] at hr
    have := replay_refresh retries fuel h2 [] (Nat.lt_of_le_of_lt hr hl)
    rcases hy : PlmLinks.refreshLoop (Plm.asWriter replay) retries fuel h2 [] with _ | ⟨h3, ⟨ls, e⟩ | e | _⟩
    · exact absurd hy this
    all_goals simp
  · simp
  · simp

theorem replay_shorter (retries : Int) (ig : Bool) (h : List Own) (pkt : Packet) : (retryWrite (Plm.writePacket replay) retries ig h pkt).1.length ≤ h.length :=
  replay_retryLoop ig pkt _ h _

theorem replay_tell (u : ModemUse) (retries fuel : Nat) (h : List Own) (hl : h.length < fuel) : u.tell replay retries fuel h ≠ none := by
  cases u with
  | single c => simp [ModemUse.tell]
  | address c => simp [ModemUse.tell, DeviceCall.tells]
  | text c => simp [ModemUse.tell]
  | readPacket => simp [ModemUse.tell]
  | links c =>
    have := replay_links retries fuel h c hl
    simpa [ModemUse.tell, DeviceCall.tellsLate] using this
  | writeLinks c g => simp [ModemUse.tell, DeviceCall.tells]
  | linkedDevices c =>
    have := replay_links retries fuel h c hl
    simp only [ModemUse.tell, DeviceCall.tellsLate, PlmLinks.iterateDevices]
    rcases hx : PlmLinks.links (Plm.asWriter replay) retries fuel h c with _ | ⟨h3, ⟨ls, _ | e⟩ | e | _⟩
    · exact absurd hx this
    all_goals simp
  | report sort c =>
    simp only [ModemUse.tell, plmInfoCmd]
    have hi : (Plm.info replay retries h).1.length ≤ h.length := by
      have := replay_shorter retries true h ⟨PCmd.getInfo, [], 0#8⟩
      unfold Plm.info
      rcases hx : retryWrite (Plm.writePacket replay) retries true h ⟨PCmd.getInfo, [], 0#8⟩ with ⟨h2, ⟨_ | a, _ | e⟩ | _⟩ <;> rw [hx] at this <;> dsimp only <;> try exact this
      rcases Info.unmarshalBinary a.payload with i | e | _ <;> exact this
    rcases hx : Plm.info replay retries h with ⟨h1, ⟨_ | i, _ | e⟩ | e | _⟩ <;> rw [hx] at hi <;> dsimp only <;> try (simp; done)
    have hc : (Plm.config replay retries h1).1.length ≤ h1.length := by
      have := replay_shorter retries true h1 ⟨PCmd.getConfig, [], 0#8⟩
      unfold Plm.config
      rcases hx : retryWrite (Plm.writePacket replay) retries true h1 ⟨PCmd.getConfig, [], 0#8⟩ with ⟨h2, ⟨_ | a, _ | e⟩ | _⟩ <;> rw [hx] at this <;> exact this
    rcases hy : Plm.config replay retries h1 with ⟨h2, ⟨cf, _ | e⟩ | e | _⟩ <;> rw [hy] at hc <;> dsimp only <;> try (simp; done)
    have := replay_links retries fuel h2 c (Nat.lt_of_le_of_lt (hc.trans hi) hl)
    rcases hx : PlmLinks.links (Plm.asWriter replay) retries fuel h2 c with _ | ⟨h3, ⟨ls, _ | e⟩ | e | _⟩
    · exact absurd hx this
    all_goals simp

/-! ### C209: what a goroutine writes -/

theorem writes_weaker (retries : Nat) (ok : Prop) (u : ModemUse) (fs : List (List (BitVec 8))) (h : u.Writes retries ok fs) : u.Writes retries False fs := by
  cases u with
  | writeLinks c g =>
    obtain ⟨ds, ws, h1, h2, h3, h4, h5, -, h6⟩ := h
    exact ⟨ds, ws, h1, h2, h3, h4, h5, fun h => h.elim, h6⟩
  | report s c =>
    obtain ⟨a, b, x, d, h1, h2, h3, h4, -, h6⟩ := h
    exact ⟨a, b, x, d, h1, h2, h3, h4, fun h => h.elim, h6⟩
  | _ => exact h

theorem obs_length {α : Type} (dead : α → Bool) (es : List SharedEv) : ∀ s : Team α, (Team.run dead s es).2.length = es.length := by
  induction es with
  | nil => exact fun s => rfl
  | cons e es ih => exact fun s => by simp [Team.run, ih]

/-- C209: a call on the modem made by one of several goroutines that share a PLM, whatever the others do and however the steps are interleaved:
* at every moment it has written the beginning of what the call may write, in the order of the protocol and each request at most as often as the retries allow;
* when it is over it has written what the call writes, and all of it if it reports success;
* and what it comes to is what the call by itself comes to in the world as the goroutine sees it. -/
theorem modem_calls_shared (u : ModemUse) (retries fuel : Nat) :
    (∃ P, IsModemCall u retries fuel P) ∧
    ∀ P, IsModemCall u retries fuel P → ∀ (progs : List (Prog (Option (Out (Option Err))))) (es : List SharedEv) (i : Nat), progs[i]? = some P →
      let t := Team.run panicked (Team.init panicked progs) es
      (es.length < fuel → ∃ fs, u.Writes retries False fs ∧ written i t.2 <+: fs) ∧
      ∀ r, t.1.result i = some (some r) → u.Writes retries (r = .ok none) (written i t.2) ∧
        ∃ w, u.tell (teamView panicked i) retries fuel (Team.init panicked progs, es) = some (w, r) := by
  refine ⟨modem_call_program u retries fuel, fun P hP progs es i hi => ?_⟩
  obtain ⟨R, hR, hf⟩ := Team.follow_own panicked i es (Team.init panicked progs) P hi
  have hrun := replay_follow P _ R [] hf
  rw [List.nil_append, written_own] at hrun
  dsimp only
  refine ⟨fun hl => ?_, fun r hr => ⟨?_, ?_⟩⟩
  · have hlen : (stepsBy i (Team.run panicked (Team.init panicked progs) es).2).length < fuel := by
      refine Nat.lt_of_le_of_lt ?_ hl
      rw [← obs_length panicked es (Team.init panicked progs)]
      exact List.length_filterMap_le _ _
    rcases hx : u.tell replay retries fuel (stepsBy i (Team.run panicked (Team.init panicked progs) es).2) with _ | ⟨w, r⟩
    · exact absurd hx (replay_tell u retries fuel _ hlen)
    · obtain ⟨fs, h1, h2⟩ := modem_writes replay retries fuel _ u w r hx
      rw [← hP] at h2
      rw [h2] at hrun
      refine ⟨fs, writes_weaker retries _ u fs h1, ?_⟩
      have := log_grows replay R [] (written i (Team.run panicked (Team.init panicked progs) es).2)
      rw [← hrun] at this
      exact this
  · have h0 : R = .ret (some r) := by
      have := Team.result_ret _ _ _ hr
      rw [hR] at this
      exact Option.some.inj this
    rw [h0] at hrun hf
    have hplain : P.run replay (stepsBy i (Team.run panicked (Team.init panicked progs) es).2) = ([], some r) := by
      have := replay_plain P _ _ hf
      exact this
    obtain ⟨fs, h1, h2⟩ := modem_writes replay retries fuel _ u [] r ((hP _ _ _ _ _).mp hplain)
    rw [← hP, hrun] at h2
    simp only [Prog.run, Prod.mk.injEq, true_and, and_true] at h2
    rw [h2]; exact h1
  · have := Team.team_alone panicked progs es i P (some r) hi hr
    rcases hx : P.run (teamView panicked i) (Team.init panicked progs, es) with ⟨w, x⟩
    rw [hx] at this
    exact ⟨w, (hP _ _ _ _ _).mp (by rw [hx, ← this])⟩

/-! ### C210: rewriting the links by several goroutines -/

theorem receive_other (k : ModemKind) (m : ModemSt) (f : Bytes) (h : managesLinks f = false) : (k.receive m f).db = m.db := by
  rcases f with _ | ⟨start, _ | ⟨cmd, body⟩⟩
  · rfl
  · rfl
  · unfold ModemKind.receive
    dsimp only
    split_ifs with h1 h2 h3 h4
    · rfl
    · unfold ModemKind.get; split <;> rfl
    · unfold ModemKind.get; split <;> rfl
    · simp only [ne_eq, Decidable.not_not] at h1
      subst h1 h4
      simp [managesLinks] at h
    · rfl

theorem removeFirst_mem (p : Bytes → Bool) (db : List Bytes) (r : Bytes) (h : r ∈ removeFirst p db) : r ∈ db := by
  induction db with
  | nil => exact h
  | cons y ys ih =>
    unfold removeFirst at h
    split_ifs at h
    · exact List.mem_cons_of_mem _ h
    · rcases List.mem_cons.mp h with h | h
      · exact h ▸ List.mem_cons_self ..
      · exact List.mem_cons_of_mem _ (ih h)

theorem upsert_mem (p : Bytes → Bool) (x : Bytes) (db : List Bytes) (r : Bytes) (h : r ∈ upsert p x db) : r ∈ db ∨ r = x := by
  induction db with
  | nil => exact Or.inr (List.mem_singleton.mp h)
  | cons y ys ih =>
    unfold upsert at h
    split_ifs at h
    · rcases List.mem_cons.mp h with h | h
      · exact Or.inr h
      · exact Or.inl (List.mem_cons_of_mem _ h)
    · rcases List.mem_cons.mp h with h | h
      · exact Or.inl (h ▸ List.mem_cons_self ..)
      · rcases ih h with h | h
        · exact Or.inl (List.mem_cons_of_mem _ h)
        · exact Or.inr h

theorem receive_delete (k : ModemKind) (m : ModemSt) (l : LinkRecord) (r : Bytes) (h : r ∈ (k.receive m (ModemUse.deleteFrame l)).db) : r ∈ m.db := by
  have : k.receive m (ModemUse.deleteFrame l) = k.manage m 0x80#8 (ModemUse.recordBytes l) := rfl
  rw [this] at h
  unfold ModemKind.manage at h
  rw [if_pos rfl] at h
  split_ifs at h
  · exact removeFirst_mem _ _ _ h
  · exact h

theorem receive_write (k : ModemKind) (m : ModemSt) (l : LinkRecord) (r : Bytes) (h : r ∈ (k.receive m (ModemUse.writeFrame l)).db) : r ∈ m.db ∨ r = rawOf l := by
  have : ∀ op, (op = 0x40#8 ∨ op = 0x41#8) → r ∈ (k.manage m op (ModemUse.recordBytes l)).db → r ∈ m.db ∨ r = rawOf l := by
    rintro op (rfl | rfl) h
    · exact upsert_mem _ _ _ _ h
    · exact upsert_mem _ _ _ _ h
  by_cases hc : l.flags.toNat / 64 % 2 = 1
  · refine this 0x40#8 (Or.inl rfl) ?_
    rw [ModemUse.writeFrame, if_pos hc] at h
    exact h
  · refine this 0x41#8 (Or.inr rfl) ?_
    rw [ModemUse.writeFrame, if_neg hc] at h
    exact h

theorem receive_call (k : ModemKind) (m : ModemSt) (u : ModemUse) (retries : Nat) (fs : List Bytes) (hw : u.Writes retries False fs) (f : Bytes) (hf : f ∈ fs) (r : Bytes)
    (h : r ∈ (k.receive m f).db) : r ∈ m.db ∨ ∃ l ∈ u.stores, r = rawOf l := by
  have other : managesLinks f = false → r ∈ m.db ∨ ∃ l ∈ u.stores, r = rawOf l := fun hm => Or.inl (by rwa [receive_other k m f hm] at h)
  cases u with
  | single c =>
    obtain ⟨n, -, -, rfl⟩ := hw
    refine other ?_
    rw [List.eq_of_mem_replicate hf]
    cases c <;> rfl
  | address c =>
    refine other ?_
    simp only [ModemUse.Writes] at hw
    split_ifs at hw
    · obtain ⟨n, -, -, rfl⟩ := hw
      rw [List.eq_of_mem_replicate hf]; rfl
    · subst hw; simp at hf
  | text c =>
    refine other ?_
    simp only [ModemUse.Writes] at hw
    split_ifs at hw
    · obtain ⟨n, -, -, rfl⟩ := hw
      rw [List.eq_of_mem_replicate hf]; rfl
    · subst hw; simp at hf
  | readPacket => simp only [ModemUse.Writes] at hw; subst hw; simp at hf
  | links c =>
    obtain ⟨a, b, -, -, rfl⟩ := hw
    refine other ?_
    rcases List.mem_append.mp hf with hf | hf <;> rw [List.eq_of_mem_replicate hf] <;> rfl
  | linkedDevices c =>
    obtain ⟨a, b, -, -, rfl⟩ := hw
    refine other ?_
    rcases List.mem_append.mp hf with hf | hf <;> rw [List.eq_of_mem_replicate hf] <;> rfl
  | report s c =>
    obtain ⟨a, b, x, d, -, -, -, -, -, rfl⟩ := hw
    refine other ?_
    simp only [List.mem_append] at hf
    rcases hf with ((hf | hf) | hf) | hf <;> rw [List.eq_of_mem_replicate hf] <;> rfl
  | writeLinks c g =>
    obtain ⟨ds, ws, -, -, -, -, -, -, rfl⟩ := hw
    rcases List.mem_append.mp hf with hf | hf <;> obtain ⟨x, hx, hf⟩ := List.mem_flatMap.mp hf
    · rw [List.eq_of_mem_replicate hf] at h
      exact Or.inl (receive_delete k m _ r h)
    · have hg : x.1 ∈ g := (List.of_mem_zip hx).1
      have stored : f = ModemUse.writeFrame x.1 → r ∈ m.db ∨ ∃ l ∈ g, r = rawOf l := by
        rintro rfl
        exact (receive_write k m _ r h).imp_right fun h => ⟨x.1, hg, h⟩
      rcases List.mem_append.mp hf with hf | hf
      · exact stored (List.eq_of_mem_replicate hf)
      · rcases x with ⟨l, n, _ | y⟩
        · simp at hf
        · rcases List.mem_append.mp hf with hf | hf
          · rw [List.eq_of_mem_replicate hf] at h
            exact Or.inl (receive_delete k m _ r h)
          · exact stored (List.eq_of_mem_replicate hf)

theorem Team.step_count {α : Type} (dead : α → Bool) (s : Team α) (e : SharedEv) :
    (Team.step dead s e).1.progs.length = s.progs.length ∧ ∀ j b err, (Team.step dead s e).2 = .wrote j b err → j < s.progs.length := by
  have harr : ∀ ev, (Team.arrival s ev).1.progs.length = s.progs.length ∧ ∀ j b err, (Team.arrival s ev).2 = .wrote j b err → j < s.progs.length := by
    intro ev
    unfold Team.arrival
    rcases Port.step s.port ev with ⟨port, _ | _ | _ | _ | _⟩ <;> simp
  cases e with
  | arrive p => simp only [Team.step]; split_ifs; exacts [by simp, harr _]
  | fail => simp only [Team.step]; split_ifs; exacts [by simp, harr _]
  | go i late err =>
    simp only [Team.step]
    split_ifs
    · simp
    · rcases hP : s.progs[i]? with _ | ⟨_ | _ | _ | _⟩
      · simp
      · simp
      · have hi := (List.getElem?_eq_some_iff.mp hP).1
        simp only [Team.set, List.length_set, true_and]
        intro j b e' h
        simp only [SharedObs.wrote.injEq] at h
        omega
      · simp [Team.set]
      · simp [Team.set]

theorem allWritten_by {α : Type} (dead : α → Bool) (es : List SharedEv) : ∀ (s : Team α) (b : Bytes), b ∈ allWritten (Team.run dead s es).2 →
    ∃ i, i < s.progs.length ∧ b ∈ written i (Team.run dead s es).2 := by
  induction es with
  | nil => intro s b hb; simp [Team.run, allWritten] at hb
  | cons e es ih =>
    intro s b hb
    have later : b ∈ allWritten (Team.run dead (Team.step dead s e).1 es).2 → ∃ i, i < s.progs.length ∧ b ∈ written i (Team.run dead s (e :: es)).2 := by
      intro h
      obtain ⟨i, hi, hb⟩ := ih _ b h
      refine ⟨i, by rwa [(Team.step_count dead s e).1] at hi, ?_⟩
      simp only [Team.run, written] at hb ⊢
      obtain ⟨o, ho, hx⟩ := List.mem_filterMap.mp hb
      exact List.mem_filterMap.mpr ⟨o, List.mem_cons_of_mem _ ho, hx⟩
    simp only [Team.run, allWritten, List.filterMap_cons] at hb
    rcases ho : (Team.step dead s e).2 with p | p | ⟨j, b', err⟩ | ⟨j, r⟩ | ⟨j, r⟩ | _ <;> rw [ho] at hb <;> try exact later hb
    rcases List.mem_cons.mp hb with rfl | hb
    · refine ⟨j, (Team.step_count dead s e).2 j b err ho, ?_⟩
      simp [Team.run, written, ho]
    · exact later hb

/-- C210 (what holds): goroutines share a PLM; some of them make calls on the modem, the others write nothing that changes links. Of what is written any part may reach the
modem. Whatever happens and however the steps are interleaved, at every moment each record in the modem's database was there before or is a link given to one of the
calls: no record is mixed up from several, and none is made up. -/
theorem concurrent_links_partial (retries fuel : Nat) (calls : Nat → Option ModemUse) (progs : List (Prog (Option (Out (Option Err))))) (es : List SharedEv) (hlong : es.length < fuel)
    (hcalls : ∀ (i : Nat) P, progs[i]? = some P → match calls i with
      | some u => IsModemCall u retries fuel P
      | none => ∀ b ∈ written i (Team.run panicked (Team.init panicked progs) es).2, managesLinks b = false)
    (k : ModemKind) (before : ModemSt) (got : List (List (BitVec 8))) (hgot : got.Sublist (allWritten (Team.run panicked (Team.init panicked progs) es).2)) :
    ∀ r ∈ (got.foldl k.receive before).db, r ∈ before.db ∨ ∃ i < progs.length, ∃ u, calls i = some u ∧ ∃ l ∈ u.stores, r = rawOf l := by
  have each : ∀ b ∈ got, ∀ (m : ModemSt), ∀ r ∈ (k.receive m b).db, r ∈ m.db ∨ ∃ i < progs.length, ∃ u, calls i = some u ∧ ∃ l ∈ u.stores, r = rawOf l := by
    intro b hb m r hr
    obtain ⟨i, hi, hbi⟩ := allWritten_by panicked es (Team.init panicked progs) b (hgot.subset hb)
    have hi' : i < progs.length := hi
    have hc := hcalls i progs[i] (by simp [hi'])
    rcases hu : calls i with _ | u <;> rw [hu] at hc
    · rw [receive_other k m b (hc b hbi)] at hr
      exact Or.inl hr
    · obtain ⟨fs, h1, h2⟩ := ((modem_calls_shared u retries fuel).2 progs[i] hc progs es i (by simp [hi'])).1 hlong
      exact (receive_call k m u retries fs h1 b (h2.subset hbi) r hr).imp_right fun h => ⟨i, hi', u, hu, h⟩
  clear hgot
  induction got generalizing before with
  | nil => exact fun r hr => Or.inl hr
  | cons b got ih =>
    intro r hr
    rcases ih (k.receive before b) (fun b hb => each b (List.mem_cons_of_mem _ hb)) r hr with h | h
    · exact each b (List.mem_cons_self ..) before r h
    · exact Or.inr h

/-! ### C210: what does not hold -/

/-- What is observed when certain steps are made. -/
def observing : List (Nat × Own) → List SharedObs
  | [] => []
  | (i, .wrote b err) :: l => .wrote i b err :: observing l
  | (i, .packet (.packet p)) :: l => .queued p :: .tookPkt i (.packet p) :: observing l
  | (i, .message (.packet p)) :: l => .queued p :: .tookMsg i (.packet p) :: observing l
  | (i, .packet r) :: l => .tookPkt i r :: observing l
  | (i, .message r) :: l => .tookMsg i r :: observing l

theorem plays_observed {α : Type} (dead : α → Bool) (want : Nat → α) (hw : ∀ i, dead (want i) = false) (l : List (Nat × Own)) : ∀ (s : Team α), s.down = false →
    s.port = Port.init → (∀ x ∈ l, x.1 < s.progs.length) → Playable l → (∀ (i : Nat) (P : Prog α), s.progs[i]? = some P → P.follow (stepsOf i l) = some (.ret (want i))) →
    (Team.run dead s (playing l)).2 = observing l := by
  induction l with
  | nil =>
    exact fun s _ _ _ _ _ => rfl
  | cons x l ih =>
    intro s hd hp hl hpl hf
    obtain ⟨j, o⟩ := x
    have hj : j < s.progs.length := hl (j, o) (List.mem_cons_self ..)
    have hl' : ∀ x ∈ l, x.1 < s.progs.length := fun x hx => hl x (List.mem_cons_of_mem _ hx)
    have hpl' : Playable l := fun x hx => hpl x (List.mem_cons_of_mem _ hx)
    have hPj : s.progs[j]? = some s.progs[j] := by simp [hj]
    have hfj := hf j _ hPj
    have own : stepsOf j ((j, o) :: l) = o :: stepsOf j l := by simp [stepsOf]
    have other : ∀ n, n ≠ j → stepsOf n ((j, o) :: l) = stepsOf n l := fun n hn => by simp [stepsOf, Ne.symm hn]
    rw [own] at hfj
    -- after the step
    have next : ∀ P1, P1.follow (stepsOf j l) = some (.ret (want j)) →
        (Team.run dead (s.set dead j P1 Port.init) (playing l)).2 = observing l := by
      intro P1 h1
      refine ih (s.set dead j P1 Port.init) ?_ rfl (by simpa [Team.set] using hl') hpl' (fun n P hn => ?_)
      · cases P1 with
        | ret a =>
          rcases hs : stepsOf j l with _ | ⟨o', h'⟩ <;> rw [hs] at h1 <;> simp [Prog.follow] at h1
          simp [Team.set, Team.crashed, Prog.value, h1, hw]
        | _ => rfl
      · by_cases hnj : n = j
        · subst hnj
          simp only [Team.set, List.getElem?_set, hj, if_true, Option.some.injEq] at hn
          rw [← hn]; exact h1
        · simp only [Team.set] at hn
          rw [List.getElem?_set_ne (Ne.symm hnj)] at hn
          have := hf n P hn
          rwa [other n hnj] at this
    have hpl0 := hpl (j, o) (List.mem_cons_self ..)
    cases hP : s.progs[j] with
    | ret a => rw [hP] at hfj; simp [Prog.follow] at hfj
    | tx b k =>
      rw [hP] at hfj hPj
      rcases o with ⟨b', err⟩ | r | r
      · simp only [Prog.follow] at hfj
        by_cases hb : b' = b
        · rw [if_pos hb] at hfj
          have hs : Team.step dead s (.go j false err) = (s.set dead j (k err) Port.init, .wrote j b err) := by
            simp only [Team.step, hd, hPj, hp]; rfl
          simp only [playing, Team.run, hs, next _ hfj, observing, hb]
        · rw [if_neg hb] at hfj; simp at hfj
      · simp [Prog.follow] at hfj
      · simp [Prog.follow] at hfj
    | rxPacket k =>
      rw [hP] at hfj hPj
      rcases o with ⟨b', err⟩ | r | r
      · simp [Prog.follow] at hfj
      · simp only [Prog.follow] at hfj
        cases r with
        | packet p =>
          have hm : Port.isMsg p = false := hpl0
          have h1 : Team.step dead s (.arrive p) = ({ s with port := ⟨[], [p], false⟩ }, .queued p) := by
            simp [Team.step, hd, Team.arrival, hp, Port.step, Port.init, hm, Port.cap]
          have h2 : Team.step dead { s with port := ⟨[], [p], false⟩ } (.go j false none) = (s.set dead j (k (.packet p)) Port.init, .tookPkt j (.packet p)) := by
            simp only [Team.step, hd, hPj]; rfl
          simp only [playing, Team.run, h1, h2, next _ hfj, observing]
        | closed => exact absurd hpl0 (by simp)
        | timeout =>
          have h2 : Team.step dead s (.go j true none) = (s.set dead j (k .timeout) Port.init, .tookPkt j .timeout) := by
            simp only [Team.step, hd, hPj, hp]; rfl
          simp only [playing, Team.run, h2, next _ hfj, observing]
      · simp [Prog.follow] at hfj
    | rxMsg k =>
      rw [hP] at hfj hPj
      rcases o with ⟨b', err⟩ | r | r
      · simp [Prog.follow] at hfj
      · simp [Prog.follow] at hfj
      · simp only [Prog.follow] at hfj
        cases r with
        | packet p =>
          have hm : Port.isMsg p = true := hpl0
          have h1 : Team.step dead s (.arrive p) = ({ s with port := ⟨[p], [], false⟩ }, .queued p) := by
            simp [Team.step, hd, Team.arrival, hp, Port.step, Port.init, hm, Port.cap]
          have h2 : Team.step dead { s with port := ⟨[p], [], false⟩ } (.go j false none) = (s.set dead j (k (.packet p)) Port.init, .tookMsg j (.packet p)) := by
            simp only [Team.step, hd, hPj]; rfl
          simp only [playing, Team.run, h1, h2, next _ hfj, observing]
        | closed => exact absurd hpl0 (by simp)
        | timeout =>
          have h2 : Team.step dead s (.go j true none) = (s.set dead j (k .timeout) Port.init, .tookMsg j .timeout) := by
            simp only [Team.step, hd, hPj, hp]; rfl
          simp only [playing, Team.run, h2, next _ hfj, observing]


/-- One goroutine's link, to 11.22.33. -/
def oneLink : LinkRecord := ⟨0xa2#8, 1#8, 0x112233#32, 0#8, 0#8, 0#8⟩
/-- The other's link, to 44.55.66. -/
def otherLink : LinkRecord := ⟨0xa2#8, 1#8, 0x445566#32, 0#8, 0#8, 0#8⟩

/-- Both write before either has read the answer. -/
def bothWrite : List (Nat × Own) :=
  [(0, .wrote [0x02, 0x6f, 0x41, 0xa2, 0x01, 0x11, 0x22, 0x33, 0, 0, 0] none),
   (1, .wrote [0x02, 0x6f, 0x41, 0xa2, 0x01, 0x44, 0x55, 0x66, 0, 0, 0] none),
   (0, .packet (.packet ⟨0x6f#8, [0x41, 0xa2, 0x01, 0x11, 0x22, 0x33, 0, 0, 0], 0x06#8⟩)),
   (1, .packet (.packet ⟨0x6f#8, [0x41, 0xa2, 0x01, 0x44, 0x55, 0x66, 0, 0, 0], 0x06#8⟩))]

theorem both_succeed (P Q : Prog (Option (Out (Option Err)))) (hP : IsModemCall (.writeLinks [] [oneLink]) 3 9 P) (hQ : IsModemCall (.writeLinks [] [otherLink]) 3 9 Q) :
    (∀ i < 2, (Team.run panicked (Team.init panicked [P, Q]) (playing bothWrite)).1.result i = some (some (.ok none))) ∧
    (Team.run panicked (Team.init panicked [P, Q]) (playing bothWrite)).2 = observing bothWrite := by
  have h0 : P.follow (stepsOf 0 bothWrite) = some (.ret (some (.ok none))) := only_follow P _ _ ((hP _ onlySteps (some (stepsOf 0 bothWrite)) (some []) (.ok none)).mpr (by decide +kernel))
  have h1 : Q.follow (stepsOf 1 bothWrite) = some (.ret (some (.ok none))) := only_follow Q _ _ ((hQ _ onlySteps (some (stepsOf 1 bothWrite)) (some []) (.ok none)).mpr (by decide +kernel))
  have alive : Team.crashed panicked P = false ∧ Team.crashed panicked Q = false := by
    constructor
    · cases P with
      | ret a => simp [stepsOf, bothWrite, Prog.follow] at h0
      | _ => rfl
    · cases Q with
      | ret a => simp [stepsOf, bothWrite, Prog.follow] at h1
      | _ => rfl
  have hf : ∀ (i : Nat) (R : Prog (Option (Out (Option Err)))), (Team.init panicked [P, Q]).progs[i]? = some R → R.follow (stepsOf i bothWrite) = some (.ret (some (.ok none))) := by
    intro i R hR
    match i with
    | 0 => simp only [Team.init, List.getElem?_cons_zero, Option.some.injEq] at hR; rw [← hR]; exact h0
    | 1 => simp only [Team.init, List.getElem?_cons_succ, List.getElem?_cons_zero, Option.some.injEq] at hR; rw [← hR]; exact h1
    | n + 2 => simp [Team.init] at hR
  exact ⟨plays panicked (fun _ => some (.ok none)) (fun _ => rfl) bothWrite (Team.init panicked [P, Q])
      (by simp [Team.init, alive]) rfl (by simp [bothWrite, Team.init]) (by simp [Playable, bothWrite]; decide) hf,
    plays_observed panicked (fun _ => some (.ok none)) (fun _ => rfl) bothWrite (Team.init panicked [P, Q])
      (by simp [Team.init, alive]) rfl (by simp [bothWrite, Team.init]) (by simp [Playable, bothWrite]; decide) hf⟩

/-- C210 refuted: two goroutines replace the links of a modem that has none, the modem gets all they write and all its answers arrive; both report success, and the modem
has the links of both: it holds neither list. -/
theorem concurrent_rewrites_refuted : ¬ ∀ (k : ModemKind) (_ : k.lawful) (retries fuel : Nat) (cached : List LinkRecord) (lists : List (List LinkRecord))
    (progs : List (Prog (Option (Out (Option Err))))) (_ : List.Forall₂ (fun given P => IsModemCall (.writeLinks cached given) retries fuel P) lists progs)
    (es : List SharedEv) (after : ModemSt),
    servedBy k ⟨cached.map rawOf, 0, [], 0⟩ (Team.run panicked (Team.init panicked progs) es).2 = some after →
    (∀ i < progs.length, (Team.run panicked (Team.init panicked progs) es).1.result i = some (some (.ok none))) →
    ∃ given ∈ lists, after.db = given.map rawOf := by
  intro h
  obtain ⟨P, hP⟩ := modem_call_program (.writeLinks [] [oneLink]) 3 9
  obtain ⟨Q, hQ⟩ := modem_call_program (.writeLinks [] [otherLink]) 3 9
  obtain ⟨h1, h2⟩ := both_succeed P Q hP hQ
  obtain ⟨g, hg, hdb⟩ := h ⟨fun _ => [], fun a b => a == b⟩ ⟨by simp, by simp⟩ 3 9 [] [[oneLink], [otherLink]] [P, Q] (.cons hP (.cons hQ .nil)) (playing bothWrite)
    ⟨[rawOf oneLink, rawOf otherLink], 0, [], 0⟩ (by rw [h2]; decide +kernel) h1
  simp only [List.mem_cons, List.not_mem_nil, or_false] at hg
  rcases hg with rfl | rfl <;> exact absurd hdb (by decide +kernel)

/-- The hypotheses can be met: the same two goroutines; each of the two records in the modem is one that was given. -/
example (P Q : Prog (Option (Out (Option Err)))) (hP : IsModemCall (.writeLinks [] [oneLink]) 3 9 P) (hQ : IsModemCall (.writeLinks [] [otherLink]) 3 9 Q) :
    allWritten (Team.run panicked (Team.init panicked [P, Q]) (playing bothWrite)).2 = [ModemUse.writeFrame oneLink, ModemUse.writeFrame otherLink] ∧ (playing bothWrite).length < 9 := by
  rw [(both_succeed P Q hP hQ).2]; decide +kernel

end Insteon
