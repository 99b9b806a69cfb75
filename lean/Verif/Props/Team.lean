import Verif.Props.PlmLinks
import Verif.Spec.Team

/-
C157 and C158: programs that share a PLM.
-/

namespace Insteon
open Insteon.Spec

namespace Team
variable {α : Type}

/-! ### C157 -/

theorem run_append (dead : α → Bool) (s : Team α) (a b : List SharedEv) :
    run dead s (a ++ b) = ((run dead (run dead s a).1 b).1, (run dead s a).2 ++ (run dead (run dead s a).1 b).2) := by
  induction a generalizing s with
  | nil => rfl
  | cons e a ih => simp only [List.cons_append, run, ih]

theorem step_down (dead : α → Bool) (s : Team α) (e : SharedEv) (h : s.down = true) : step dead s e = (s, .none) := by
  cases e <;> simp [step, h]

theorem run_down (dead : α → Bool) (s : Team α) (es : List SharedEv) (h : s.down = true) : (run dead s es).1 = s := by
  induction es with
  | nil => rfl
  | cons e es ih => rw [run, step_down dead s e h]; exact ih

/-- Other steps leave a goroutine where it is. -/
theorem step_other (dead : α → Bool) (s : Team α) (e : SharedEv) (i : Nat) (h : ∀ late err, e ≠ .go i late err) :
    (step dead s e).1.progs[i]? = s.progs[i]? := by
  cases e with
  | arrive p =>
    simp only [step]
    split_ifs
    · rfl
    · unfold arrival; split <;> rfl
  | fail =>
    simp only [step]
    split_ifs
    · rfl
    · unfold arrival; split <;> rfl
  | go j late err =>
    have hj : j ≠ i := fun hj => h late err (by rw [hj])
    simp only [step]
    split_ifs
    · rfl
    · split <;> simp [set, hj]

theorem step_ret (dead : α → Bool) (s : Team α) (e : SharedEv) (i : Nat) (a : α) (h : s.progs[i]? = some (.ret a)) :
    (step dead s e).1.progs[i]? = some (.ret a) := by
  by_cases he : ∃ late err, e = .go i late err
  · obtain ⟨late, err, rfl⟩ := he
    simp only [step, h]
    split_ifs <;> exact h
  · rw [step_other dead s e i (fun late err h => he ⟨late, err, h⟩)]; exact h

theorem run_ret (dead : α → Bool) (s : Team α) (es : List SharedEv) (i : Nat) (a : α) (h : s.progs[i]? = some (.ret a)) :
    (run dead s es).1.progs[i]? = some (.ret a) := by
  induction es generalizing s with
  | nil => exact h
  | cons e es ih => exact ih _ (step_ret dead s e i a h)

theorem result_ret (s : Team α) (i : Nat) (a : α) (h : s.result i = some a) : s.progs[i]? = some (.ret a) := by
  unfold result at h
  rcases hp : s.progs[i]? with _ | p
  · rw [hp] at h; simp at h
  · rw [hp] at h
    cases p <;> simp [Prog.value] at h
    rw [h]

/-- A goroutine that is not through but will be has a step ahead. -/
theorem own_step (dead : α → Bool) (i : Nat) (s : Team α) (es : List SharedEv) (P : Prog α) (a : α) (hP : s.progs[i]? = some P)
    (hv : P.value = none) (hr : (run dead s es).1.result i = some a) :
    ∃ late err rest s1, s1.progs[i]? = some P ∧ s1.down = false ∧ i < s1.progs.length ∧
      teamAdvance dead i s es = (((step dead s1 (.go i late err)).1, rest), (step dead s1 (.go i late err)).2) ∧
      (run dead (step dead s1 (.go i late err)).1 rest).1.result i = some a := by
  induction es generalizing s with
  | nil =>
    have := result_ret _ _ _ hr
    simp only [run] at this
    rw [hP] at this
    simp only [Option.some.injEq] at this
    rw [this] at hv
    simp [Prog.value] at hv
  | cons e es ih =>
    by_cases hd : s.down = true
    · have := result_ret _ _ _ hr
      rw [run_down _ _ _ hd, hP] at this
      simp only [Option.some.injEq] at this
      rw [this] at hv
      simp [Prog.value] at hv
    by_cases he : ∃ late err, e = .go i late err
    · obtain ⟨late, err, rfl⟩ := he
      refine ⟨late, err, es, s, hP, by simpa using hd, ?_, by simp [teamAdvance], hr⟩
      rw [List.getElem?_eq_some_iff] at hP
      exact hP.1
    · have h1 := step_other dead s e i (fun late err h => he ⟨late, err, h⟩)
      obtain ⟨late, err, rest, s1, h2, h3, h4, h5, h6⟩ := ih (step dead s e).1 (by rw [h1]; exact hP) hr
      refine ⟨late, err, rest, s1, h2, h3, h4, ?_, h6⟩
      rw [← h5]
      cases e with
      | arrive p => rfl
      | fail => rfl
      | go j late err =>
        have hj : j ≠ i := fun hj => he ⟨late, err, by rw [hj]⟩
        simp [teamAdvance, hj]

theorem alone_from (dead : α → Bool) (i : Nat) (P : Prog α) : ∀ (s : Team α) (es : List SharedEv) (a : α),
    s.progs[i]? = some P → (run dead s es).1.result i = some a → (P.run (teamView dead i) (s, es)).2 = a := by
  induction P with
  | ret b =>
    intro s es a hP hr
    have := result_ret _ _ _ hr
    rw [run_ret dead s es i b hP] at this
    simpa [Prog.run] using this
  | tx b k ih =>
    intro s es a hP hr
    obtain ⟨late, err, rest, s1, h1, h2, h3, h4, h5⟩ := own_step dead i s es _ a hP rfl hr
    have hstep : step dead s1 (.go i late err) = (s1.set dead i (k err) s1.port, .wrote i b err) := by simp [step, h2, h1]
    have hv : (teamView dead i).tx (s, es) b = (((step dead s1 (.go i late err)).1, rest), err) := by
      simp only [teamView, h4, hstep, if_true]
    simp only [Prog.run, hv]
    exact ih err _ rest a (by rw [hstep]; simp [set, h3]) h5
  | rxPacket k ih =>
    intro s es a hP hr
    obtain ⟨late, err, rest, s1, h1, h2, h3, h4, h5⟩ := own_step dead i s es _ a hP rfl hr
    have hstep : step dead s1 (.go i late err) = (s1.set dead i (k (Port.recv s1.port.pktQ s1.port.closed late).2)
        { s1.port with pktQ := (Port.recv s1.port.pktQ s1.port.closed late).1 }, .tookPkt i (Port.recv s1.port.pktQ s1.port.closed late).2) := by
      simp [step, h2, h1]
    have hv : (teamView dead i).rxPacket (s, es) =
        (((step dead s1 (.go i late err)).1, rest), (Port.recv s1.port.pktQ s1.port.closed late).2) := by
      simp only [teamView, h4, hstep]
    simp only [Prog.run, hv]
    exact ih _ _ rest a (by rw [hstep]; simp [set, h3]) h5
  | rxMsg k ih =>
    intro s es a hP hr
    obtain ⟨late, err, rest, s1, h1, h2, h3, h4, h5⟩ := own_step dead i s es _ a hP rfl hr
    have hstep : step dead s1 (.go i late err) = (s1.set dead i (k (Port.recv s1.port.msgQ s1.port.closed late).2)
        { s1.port with msgQ := (Port.recv s1.port.msgQ s1.port.closed late).1 }, .tookMsg i (Port.recv s1.port.msgQ s1.port.closed late).2) := by
      simp [step, h2, h1]
    have hv : (teamView dead i).rxMsg (s, es) =
        (((step dead s1 (.go i late err)).1, rest), (Port.recv s1.port.msgQ s1.port.closed late).2) := by
      simp only [teamView, h4, hstep]
    simp only [Prog.run, hv]
    exact ih _ _ rest a (by rw [hstep]; simp [set, h3]) h5

/-- C157: what a goroutine comes to is what its program comes to by itself in a world in which the steps of the modem and of the others happen
between its own, whatever the programs of the others are and however the steps are interleaved. -/
theorem team_alone (dead : α → Bool) (progs : List (Prog α)) (es : List SharedEv) (i : Nat) (P : Prog α) (a : α) (hP : progs[i]? = some P)
    (hr : (run dead (init dead progs) es).1.result i = some a) :
    (P.run (teamView dead i) (init dead progs, es)).2 = a :=
  alone_from dead i P _ es a hP hr

/-- C157: so whatever is true of a call in every world is true of it when others use the modem at the same time. -/
theorem team_transfer (dead : α → Bool) (f : (σ : Type) → PlmIO σ → σ → σ × α) (Q : α → Prop)
    (hQ : ∀ (σ : Type) (io : PlmIO σ) (s : σ), Q (f σ io s).2) (hf : IsProgram f) :
    ∃ P : Prog α, (∀ (σ : Type) (io : PlmIO σ) (s : σ), P.run io s = f σ io s) ∧
      ∀ (progs : List (Prog α)) (es : List SharedEv) (i : Nat) (a : α), progs[i]? = some P →
        (run dead (init dead progs) es).1.result i = some a → Q a := by
  obtain ⟨P, hP⟩ := hf
  refine ⟨P, hP, fun progs es i a h hr => ?_⟩
  rw [← team_alone dead progs es i P a h hr, hP]
  exact hQ _ _ _

end Team

/-! ### The calls of the library as programs -/

theorem Prog.run_bind {α β σ : Type} (io : PlmIO σ) (P : Prog α) (f : α → Prog β) (s : σ) :
    (P.bind f).run io s = (f (P.run io s).2).run io (P.run io s).1 := by
  induction P generalizing s with
  | ret a => rfl
  | tx b k ih => simp only [Prog.bind, Prog.run, ih]
  | rxPacket k ih => simp only [Prog.bind, Prog.run, ih]
  | rxMsg k ih => simp only [Prog.bind, Prog.run, ih]

theorem program_ret {α : Type} (a : α) : IsProgram fun _ _ s => (s, a) := ⟨.ret a, fun _ _ _ => rfl⟩

theorem program_bind {α β : Type} {f : (σ : Type) → PlmIO σ → σ → σ × α} {g : α → (σ : Type) → PlmIO σ → σ → σ × β} (hf : IsProgram f)
    (hg : ∀ a, IsProgram (g a)) : IsProgram fun σ io s => g (f σ io s).2 σ io (f σ io s).1 := by
  obtain ⟨P, hP⟩ := hf
  choose G hG using hg
  exact ⟨P.bind G, fun σ io s => by rw [Prog.run_bind, hP, hG]⟩

theorem program_map {α β : Type} {f : (σ : Type) → PlmIO σ → σ → σ × α} (h : α → β) (hf : IsProgram f) :
    IsProgram fun σ io s => ((f σ io s).1, h (f σ io s).2) :=
  program_bind (g := fun a _ _ s => (s, h a)) hf fun a => program_ret (h a)

theorem program_congr {α : Type} {f g : (σ : Type) → PlmIO σ → σ → σ × α} (hf : IsProgram f) (h : ∀ σ io s, f σ io s = g σ io s) : IsProgram g := by
  obtain ⟨P, hP⟩ := hf
  exact ⟨P, fun σ io s => by rw [hP, h]⟩

theorem program_if {α : Type} (p : Prop) [Decidable p] {f g : (σ : Type) → PlmIO σ → σ → σ × α} (hf : IsProgram f) (hg : IsProgram g) :
    IsProgram fun σ io s => if p then f σ io s else g σ io s := by
  by_cases h : p
  · exact program_congr hf fun σ io s => by rw [if_pos h]
  · exact program_congr hg fun σ io s => by rw [if_neg h]

theorem program_tx (b : Bytes) : IsProgram fun _ io s => io.tx s b := ⟨.tx b .ret, fun _ _ _ => rfl⟩
theorem program_rxPacket : IsProgram fun _ io s => io.rxPacket s := ⟨.rxPacket .ret, fun _ _ _ => rfl⟩
theorem program_rxMsg : IsProgram fun _ io s => io.rxMsg s := ⟨.rxMsg .ret, fun _ _ _ => rfl⟩

theorem program_readPacket : IsProgram fun _ io s => Plm.readPacket io s := by
  refine program_congr (program_map (fun r : Recv => match r with
    | .packet p => PRes.ret (some p) none
    | .closed => .ret none none
    | .timeout => .ret none (some (.wrapped .plmReadTimeout))) program_rxPacket) fun σ io s => ?_
  unfold Plm.readPacket
  rcases io.rxPacket s with ⟨s', p | _ | _⟩ <;> rfl

theorem program_read : IsProgram fun _ io s => Plm.read io s := by
  refine program_congr (program_map (fun r : Recv => match r with
    | .packet p => MRes.ret (some (Message.zero.unmarshalBinary p.payload).1) (Message.zero.unmarshalBinary p.payload).2
    | .closed => .panic
    | .timeout => .ret none (some (.wrapped .insReadTimeout))) program_rxMsg) fun σ io s => ?_
  unfold Plm.read
  rcases io.rxMsg s with ⟨s', p | _ | _⟩ <;> rfl

theorem Prog.writePacket_run {σ : Type} (io : PlmIO σ) (pkt : Packet) (s : σ) : (Prog.writePacket pkt).run io s = Plm.writePacket io s pkt := by
  unfold Plm.writePacket
  simp only [Prog.writePacket, Prog.run]
  rcases io.tx s pkt.marshalBinary with ⟨s', _ | e⟩
  · simp only [Prog.run]
    rcases io.rxPacket s' with ⟨s', p | _ | _⟩ <;> try rfl
    simp only [Prog.ackOf]
    rcases Plm.checkAck pkt p with e | e | _ <;> rfl
  · rfl

theorem Prog.retryLoop_run {σ : Type} (io : PlmIO σ) (ig : Bool) (pkt : Packet) (n : Nat) (s : σ) (cur : PRes) :
    (Prog.retryLoop ig pkt n cur).run io s = Insteon.retryLoop (Plm.writePacket io) ig pkt n s cur := by
  induction n generalizing s cur with
  | zero => rfl
  | succ n ih =>
    rw [Prog.retryLoop, Prog.run_bind, Prog.writePacket_run, Insteon.retryLoop]
    rcases Plm.writePacket io s pkt with ⟨s', ⟨a, e⟩ | _⟩
    · dsimp only
      split_ifs
      · exact ih _ _
      · rfl
    · rfl

theorem Prog.retry_run {σ : Type} (io : PlmIO σ) (retries : Int) (ig : Bool) (pkt : Packet) (s : σ) :
    (Prog.retry retries ig pkt).run io s = retryWrite (Plm.writePacket io) retries ig s pkt :=
  Prog.retryLoop_run io ig pkt _ s _

theorem program_writePacket (pkt : Packet) : IsProgram fun _ io s => Plm.writePacket io s pkt :=
  ⟨Prog.writePacket pkt, fun _ io s => Prog.writePacket_run io pkt s⟩

theorem program_retry (retries : Int) (ig : Bool) (pkt : Packet) : IsProgram fun _ io s => retryWrite (Plm.writePacket io) retries ig s pkt :=
  ⟨Prog.retry retries ig pkt, fun _ io s => Prog.retry_run io retries ig pkt s⟩

theorem program_info (retries : Int) : IsProgram fun _ io s => Plm.info io retries s := by
  refine program_congr (program_map (fun r : PRes => match r with
    | .panic => (.panic : Out (Option Info × Option Err))
    | .ret _ (some e) => .ok (none, some e)
    | .ret none none => .panic
    | .ret (some ack) none => match Info.unmarshalBinary ack.payload with
      | .ok i => .ok (some i, none)
      | _ => .panic) (program_retry retries true ⟨PCmd.getInfo, [], 0#8⟩)) fun σ io s => ?_
  unfold Plm.info
  rcases retryWrite (Plm.writePacket io) retries true s ⟨PCmd.getInfo, [], 0#8⟩ with ⟨s1, ⟨_ | a, _ | e⟩ | _⟩ <;> try rfl
  dsimp only
  rcases Info.unmarshalBinary a.payload with i | e | _ <;> rfl

theorem program_config (retries : Int) : IsProgram fun _ io s => Plm.config io retries s := by
  refine program_congr (program_map (fun r : PRes => match r with
    | .panic => (.panic : Out (Config × Option Err))
    | .ret _ (some e) => .ok (0#8, some e)
    | .ret none none => .panic
    | .ret (some ack) none => .ok (Config.unmarshalBinary 0#8 ack.payload)) (program_retry retries true ⟨PCmd.getConfig, [], 0#8⟩)) fun σ io s => ?_
  unfold Plm.config
  rcases retryWrite (Plm.writePacket io) retries true s ⟨PCmd.getConfig, [], 0#8⟩ with ⟨s1, ⟨_ | a, _ | e⟩ | _⟩ <;> rfl

theorem program_address (retries : Int) (cached : Address) : IsProgram fun _ io s => Plm.address io retries s cached := by
  refine program_congr (program_if (cached = 0#32) (program_map (fun r : Out (Option Info × Option Err) => match r with
    | .ok (some i, none) => Out.ok i.address
    | .ok (_, _) => .ok cached
    | _ => .panic) (program_info retries)) (program_ret (Out.ok cached))) fun σ io s => ?_
  unfold Plm.address
  split_ifs
  · rcases Plm.info io retries s with ⟨s1, ⟨_ | i, _ | e⟩ | e | _⟩ <;> rfl
  · rfl

/-- C157: the commands to the modem, reading a packet or a message, and asking for the address are programs. -/
theorem commands_are_programs (retries : Int) (c : ModemCall) (cached : Address) :
    IsProgram (fun _ io s => c.exec io retries s) ∧ IsProgram (fun _ io s => Plm.info io retries s) ∧
      IsProgram (fun _ io s => Plm.config io retries s) ∧ IsProgram (fun _ io s => Plm.address io retries s cached) ∧
      IsProgram (fun _ io s => Plm.readPacket io s) ∧ IsProgram (fun _ io s => Plm.read io s) := by
  refine ⟨?_, program_info retries, program_config retries, program_address retries cached, program_readPacket, program_read⟩
  cases c with
  | info => exact program_map Out.second (program_info retries)
  | config => exact program_map Out.second (program_config retries)
  | reset =>
    refine program_congr (program_map PRes.error (program_retry retries true ⟨PCmd.reset, [], 0#8⟩)) fun σ io s => ?_
    simp only [ModemCall.exec, Plm.reset]
    rcases retryWrite (Plm.writePacket io) retries true s ⟨PCmd.reset, [], 0#8⟩ with ⟨s1, ⟨_ | a, _ | e⟩ | _⟩ <;> rfl
  | setConfig c =>
    refine program_congr (program_map PRes.error (program_retry retries true ⟨PCmd.setConfig, c.marshalBinary, 0#8⟩)) fun σ io s => ?_
    simp only [ModemCall.exec, Plm.setConfig]
    rcases retryWrite (Plm.writePacket io) retries true s ⟨PCmd.setConfig, c.marshalBinary, 0#8⟩ with ⟨s1, ⟨_ | a, _ | e⟩ | _⟩ <;> rfl
  | enterLinking g => exact program_map PRes.error (program_writePacket _)
  | exitLinking => exact program_map PRes.error (program_writePacket _)
  | enterUnlinking g => exact program_map PRes.error (program_writePacket _)
  | setCategory _ => exact program_ret _
  | rfSleep => exact program_ret _
  | updateLinks _ => exact program_ret _

theorem loop_ret {α : Type} (a : α) : IsLoopProgram fun _ _ s => some (s, a) :=
  ⟨.ret (some a), fun _ _ s => ⟨fun s' a' h => by cases h; rfl, fun h => by cases h⟩⟩

theorem loop_none {α : Type} : IsLoopProgram (α := α) fun _ _ _ => none :=
  ⟨.ret none, fun _ _ _ => ⟨(fun _ _ h => nomatch h), fun _ => rfl⟩⟩

theorem loop_bind {α β : Type} {f : (σ : Type) → PlmIO σ → σ → σ × α} {g : α → (σ : Type) → PlmIO σ → σ → Option (σ × β)} (hf : IsProgram f)
    (hg : ∀ a, IsLoopProgram (g a)) : IsLoopProgram fun σ io s => g (f σ io s).2 σ io (f σ io s).1 := by
  obtain ⟨P, hP⟩ := hf
  choose G hG using hg
  refine ⟨P.bind G, fun σ io s => ?_⟩
  rw [Prog.run_bind, hP]
  exact hG _ σ io _

theorem loop_congr {α : Type} {f g : (σ : Type) → PlmIO σ → σ → Option (σ × α)} (hf : IsLoopProgram f) (h : ∀ σ io s, f σ io s = g σ io s) :
    IsLoopProgram g := by
  obtain ⟨P, hP⟩ := hf
  exact ⟨P, fun σ io s => by rw [← h]; exact hP σ io s⟩

theorem loop_map {α β : Type} {f : (σ : Type) → PlmIO σ → σ → Option (σ × α)} (h : α → β) (hf : IsLoopProgram f) :
    IsLoopProgram fun σ io s => (f σ io s).map fun p => (p.1, h p.2) := by
  obtain ⟨P, hP⟩ := hf
  refine ⟨P.bind fun a => .ret (a.map h), fun σ io s => ?_⟩
  rw [Prog.run_bind]
  have hq := hP σ io s
  dsimp only
  rcases hx : f σ io s with _ | ⟨s', a⟩
  · rw [hx] at hq
    refine ⟨(fun s' a h => nomatch h), fun _ => ?_⟩
    simp only [Prog.run, hq.2 rfl, Option.map_none]
  · rw [hx] at hq
    refine ⟨fun s'' b hb => ?_, fun h => by cases h⟩
    cases hb
    simp only [Prog.run, hq.1 _ _ rfl, Option.map_some]

theorem loop_awaitAck (dst : Address) (fuel : Nat) : IsLoopProgram fun _ io s => Plm.awaitAck io dst fuel s := by
  induction fuel with
  | zero => exact loop_none
  | succ n ih =>
    refine loop_congr (loop_bind (g := fun r => match r with
      | .panic => fun _ _ s => some (s, MRes.panic)
      | .ret ack (some e) => fun _ _ s => some (s, .ret ack (some e))
      | .ret none none => fun _ _ s => some (s, .panic)
      | .ret (some m) none =>
        if m.src = dst ∧ (m.flags.ack = true ∨ m.flags.nak = true) then
          fun _ _ s => some (s, .ret (some m) (if m.flags.nak then some .devNak else none))
        else fun _ io s => Plm.awaitAck io dst n s) program_read ?_) fun σ io s => ?_
    · rintro (⟨_ | m, _ | e⟩ | _)
      · exact loop_ret _
      · exact loop_ret _
      · dsimp only
        split_ifs
        · exact loop_ret _
        · exact loop_ret _
        · exact ih
      · exact loop_ret _
      · exact loop_ret _
    · rw [Plm.awaitAck]
      rcases Plm.read io s with ⟨s', ⟨_ | m, _ | e⟩ | _⟩ <;> try rfl
      dsimp only
      split_ifs <;> rfl

theorem loop_write (retries : Int) (fuel : Nat) (msg : Message) : IsLoopProgram fun _ io s => Plm.write io retries fuel s msg := by
  refine loop_congr (loop_bind (g := fun r => match r with
      | .panic => fun _ _ s => some (s, MRes.panic)
      | .ret _ (some e) => fun _ _ s => some (s, .ret none (some e))
      | .ret _ none => fun _ io s => Plm.awaitAck io msg.dst fuel s)
    (program_retry retries true ⟨PCmd.sendInsteonMsg, msg.marshalBinary.drop 3, 0#8⟩) ?_) fun σ io s => ?_
  · rintro (⟨_ | m, _ | e⟩ | _)
    · exact loop_awaitAck _ _
    · exact loop_ret _
    · exact loop_awaitAck _ _
    · exact loop_ret _
    · exact loop_ret _
  · unfold Plm.write
    rcases retryWrite (Plm.writePacket io) retries true s ⟨PCmd.sendInsteonMsg, msg.marshalBinary.drop 3, 0#8⟩ with ⟨s1, ⟨_ | a, _ | e⟩ | _⟩ <;> rfl

/-- A program that stands for a call with a loop. -/
def RunsAs {α : Type} (P : Prog (Option α)) (f : (σ : Type) → PlmIO σ → σ → Option (σ × α)) : Prop :=
  ∀ (σ : Type) (io : PlmIO σ) (s : σ),
    (∀ s' a, f σ io s = some (s', a) → P.run io s = (s', some a)) ∧ (f σ io s = none → (P.run io s).2 = none)

theorem refreshLoop_runs (retries : Int) (fuel : Nat) : ∀ links,
    RunsAs (Prog.refreshLoop retries fuel links) fun _ io s => PlmLinks.refreshLoop (Plm.asWriter io) retries fuel s links := by
  induction fuel with
  | zero => exact fun links σ io s => ⟨(fun s' a h => nomatch h), fun _ => rfl⟩
  | succ n ih =>
    intro links σ io s
    simp only [Prog.refreshLoop, Prog.run, PlmLinks.refreshLoop, Plm.asWriter, Plm.readPacket]
    rcases io.rxPacket s with ⟨s1, p | _ | _⟩
    · dsimp only
      by_cases hc : p.command = PCmd.allLinkRecordResp
      · rw [if_pos hc, if_pos hc]
        rcases LinkRecord.unmarshalBinary LinkRecord.zero p.payload with ⟨l, _ | e⟩
        · dsimp only
          rw [Prog.run_bind, Prog.retry_run]
          rcases retryWrite (Plm.writePacket io) retries false s1 ⟨PCmd.getNextAllLink, [], 0#8⟩ with ⟨s2, ⟨a, _ | e⟩ | _⟩
          · exact ih _ σ io s2
          · exact ⟨fun s' a h => by cases h; rfl, fun h => by cases h⟩
          · exact ⟨fun s' a h => by cases h; rfl, fun h => by cases h⟩
        · exact ⟨fun s' a h => by cases h; rfl, fun h => by cases h⟩
      · rw [if_neg hc, if_neg hc]
        exact ih _ σ io s1
    · exact ⟨fun s' a h => by cases h; rfl, fun h => by cases h⟩
    · exact ⟨fun s' a h => by cases h; rfl, fun h => by cases h⟩

theorem links_runs (retries : Int) (fuel : Nat) (cached : List LinkRecord) :
    RunsAs (Prog.links retries fuel cached) fun _ io s => PlmLinks.links (Plm.asWriter io) retries fuel s cached := by
  intro σ io s
  simp only [Prog.links, PlmLinks.links, PlmLinks.refresh, Prog.run_bind, Prog.retry_run]
  rw [show (Plm.asWriter io).write = Plm.writePacket io from rfl]
  rcases retryWrite (Plm.writePacket io) retries true s ⟨PCmd.getFirstAllLink, [], 0#8⟩ with ⟨s1, ⟨a, _ | e⟩ | _⟩
  · dsimp only
    rw [Prog.run_bind]
    have h := refreshLoop_runs retries fuel [] σ io s1
    dsimp only at h
    rcases hx : PlmLinks.refreshLoop (Plm.asWriter io) retries fuel s1 [] with _ | ⟨s2, ⟨ls, e⟩ | e | _⟩ <;> rw [hx] at h
    · refine ⟨(fun s' a h => nomatch h), fun _ => ?_⟩
      simp only [Prog.run, h.2 rfl, Prog.refreshEnd]
    all_goals
      refine ⟨fun s' a ha => ?_, fun h => by cases h⟩
      cases ha
      simp only [Prog.run, h.1 _ _ rfl, Prog.refreshEnd]
  · exact ⟨fun s' a h => by cases h; rfl, fun h => by cases h⟩
  · exact ⟨fun s' a h => by cases h; rfl, fun h => by cases h⟩

theorem loop_links (retries : Int) (fuel : Nat) (cached : List LinkRecord) :
    IsLoopProgram fun _ io s => PlmLinks.links (Plm.asWriter io) retries fuel s cached := ⟨_, links_runs retries fuel cached⟩

theorem loop_iterateDevices (retries : Int) (fuel : Nat) (cached : List LinkRecord) :
    IsLoopProgram fun _ io s => PlmLinks.iterateDevices (Plm.asWriter io) retries fuel s cached := by
  refine loop_congr (loop_map (fun r : Out (List LinkRecord × Option Err) => match r with
    | .ok (ls, none) => Out.ok (PlmLinks.iterate [] ls, none)
    | .ok (_, some e) => .ok ([], some e)
    | _ => .panic) (loop_links retries fuel cached)) fun σ io s => ?_
  unfold PlmLinks.iterateDevices
  rcases PlmLinks.links (Plm.asWriter io) retries fuel s cached with _ | ⟨s1, ⟨ls, _ | e⟩ | e | _⟩ <;> rfl

theorem program_deleteAll (ls : List LinkRecord) : IsProgram fun _ io s => PlmLinks.deleteAll (Plm.asWriter io) s ls := by
  induction ls with
  | nil => exact program_ret _
  | cons l ls ih =>
    refine program_congr (program_bind (g := fun r => match r with
      | .panic => fun _ _ s => (s, Out.panic)
      | .ret _ (some e) => fun _ _ s => (s, .ok (some e))
      | .ret _ none => fun _ io s => PlmLinks.deleteAll (Plm.asWriter io) s ls)
      (program_retry 3 true ⟨PCmd.manageAllLinkRecord, ManageRecord.marshalBinary ⟨0x80#8, l⟩, 0#8⟩) ?_) fun σ io s => ?_
    · rintro (⟨_ | m, _ | e⟩ | _)
      · exact ih
      · exact program_ret _
      · exact ih
      · exact program_ret _
      · exact program_ret _
    · rw [PlmLinks.deleteAll, PlmLinks.deleteLink, show (Plm.asWriter io).write = Plm.writePacket io from rfl]
      rcases retryWrite (Plm.writePacket io) 3 true s _ with ⟨s1, ⟨_ | a, _ | e⟩ | _⟩ <;> rfl

theorem program_writeOne (l : LinkRecord) : IsProgram fun _ io s => PlmLinks.writeOne (Plm.asWriter io) s l := by
  have hw : IsProgram fun _ io s => PlmLinks.writeLink (Plm.asWriter io) s l := program_retry _ _ _
  have hd : ∀ l, IsProgram fun _ io s => PlmLinks.deleteLink (Plm.asWriter io) s l := fun l => program_retry _ _ _
  refine program_congr (program_bind (g := fun r => match r with
      | .panic => fun _ _ s => (s, Out.panic)
      | .ret _ none => fun _ _ s => (s, .ok none)
      | .ret none (some e) => fun _ _ s => (s, if e = .wrongPayload then .panic else .ok (some e))
      | .ret (some ack) (some e) => if e = .wrongPayload then fun _ io s =>
          match PlmLinks.deleteLink (Plm.asWriter io) s (LinkRecord.unmarshalBinary LinkRecord.zero ack.payload).1 with
          | (s, .panic) => (s, .panic)
          | (s, .ret _ (some e)) => (s, .ok (some e))
          | (s, .ret _ none) =>
            match PlmLinks.writeLink (Plm.asWriter io) s l with
            | (s, .panic) => (s, .panic)
            | (s, .ret _ e) => (s, .ok e)
        else fun _ _ s => (s, .ok (some e))) hw ?_) fun σ io s => ?_
  · rintro (⟨_ | m, _ | e⟩ | _)
    · exact program_ret _
    · exact program_ret _
    · exact program_ret _
    · dsimp only
      by_cases he : e = .wrongPayload
      · rw [if_pos he]
        refine program_congr (program_bind (g := fun r => match r with
          | .panic => fun _ _ s => (s, Out.panic)
          | .ret _ (some e) => fun _ _ s => (s, .ok (some e))
          | .ret _ none => fun _ io s => ((PlmLinks.writeLink (Plm.asWriter io) s l).1, match (PlmLinks.writeLink (Plm.asWriter io) s l).2 with
              | .panic => .panic
              | .ret _ e => .ok e)) (hd (LinkRecord.unmarshalBinary LinkRecord.zero m.payload).1) ?_) fun σ io s => ?_
        · rintro (⟨_ | m, _ | e⟩ | _)
          · exact program_map (fun r => match r with | .panic => Out.panic | .ret _ e => .ok e) hw
          · exact program_ret _
          · exact program_map (fun r => match r with | .panic => Out.panic | .ret _ e => .ok e) hw
          · exact program_ret _
          · exact program_ret _
        · rcases PlmLinks.deleteLink (Plm.asWriter io) s (LinkRecord.unmarshalBinary LinkRecord.zero m.payload).1 with ⟨s1, ⟨_ | a, _ | e⟩ | _⟩ <;> try rfl
          · dsimp only; rcases PlmLinks.writeLink (Plm.asWriter io) s1 l with ⟨s1, ⟨_ | a, _ | e⟩ | _⟩ <;> rfl
          · dsimp only; rcases PlmLinks.writeLink (Plm.asWriter io) s1 l with ⟨s1, ⟨_ | a, _ | e⟩ | _⟩ <;> rfl
      · rw [if_neg he]; exact program_ret _
    · exact program_ret _
  · unfold PlmLinks.writeOne
    rcases PlmLinks.writeLink (Plm.asWriter io) s l with ⟨s1, ⟨_ | a, _ | e⟩ | _⟩ <;> try rfl
    · dsimp only; split_ifs <;> rfl
    · dsimp only; split_ifs <;> rfl

theorem program_writeAll (ls : List LinkRecord) : ∀ cached, IsProgram fun _ io s => PlmLinks.writeAll (Plm.asWriter io) s cached ls := by
  induction ls with
  | nil => exact fun cached => program_ret _
  | cons l ls ih =>
    intro cached
    refine program_congr (program_bind (g := fun r => match r with
      | .ok none => fun _ io s => PlmLinks.writeAll (Plm.asWriter io) s (cached ++ [l]) ls
      | .ok (some e) => fun _ _ s => (s, .ok (cached, some e))
      | _ => fun _ _ s => (s, Out.panic)) (program_writeOne l) ?_) fun σ io s => ?_
    · rintro ((_ | e) | _ | _)
      · exact ih _
      · exact program_ret _
      · exact program_ret _
      · exact program_ret _
    · rw [PlmLinks.writeAll]
      rcases PlmLinks.writeOne (Plm.asWriter io) s l with ⟨s1, (_ | e) | _ | _⟩ <;> rfl

theorem program_writeLinks (cached new : List LinkRecord) : IsProgram fun _ io s => PlmLinks.writeLinks (Plm.asWriter io) s cached new := by
  refine program_congr (program_bind (g := fun r => match r with
      | .ok none => fun _ io s => PlmLinks.writeAll (Plm.asWriter io) s [] new
      | .ok (some e) => fun _ _ s => (s, .ok (cached, some e))
      | _ => fun _ _ s => (s, Out.panic)) (program_deleteAll cached) ?_) fun σ io s => ?_
  · rintro ((_ | e) | _ | _)
    · exact program_writeAll _ _
    · exact program_ret _
    · exact program_ret _
    · exact program_ret _
  · unfold PlmLinks.writeLinks
    rcases PlmLinks.deleteAll (Plm.asWriter io) s cached with ⟨s1, (_ | e) | _ | _⟩ <;> rfl

/-- C157: so are sending a message to a device, reading the modem's links, listing its devices, and writing its links. -/
theorem loops_are_programs (retries : Int) (fuel : Nat) (msg : Message) (cached new : List LinkRecord) :
    IsLoopProgram (fun _ io s => Plm.write io retries fuel s msg) ∧
      IsLoopProgram (fun _ io s => PlmLinks.links (Plm.asWriter io) retries fuel s cached) ∧
      IsLoopProgram (fun _ io s => PlmLinks.iterateDevices (Plm.asWriter io) retries fuel s cached) ∧
      IsProgram (fun _ io s => PlmLinks.writeLinks (Plm.asWriter io) s cached new) :=
  ⟨loop_write retries fuel msg, loop_links retries fuel cached, loop_iterateDevices retries fuel cached, program_writeLinks cached new⟩

namespace Team

/-- C157: `team_transfer` for the calls with loops. -/
theorem team_transfer_loop {α : Type} (dead : Option α → Bool) (f : (σ : Type) → PlmIO σ → σ → Option (σ × α)) (Q : α → Prop)
    (hQ : ∀ (σ : Type) (io : PlmIO σ) (s s' : σ) (a : α), f σ io s = some (s', a) → Q a) (hf : IsLoopProgram f) :
    ∃ P : Prog (Option α), (∀ (σ : Type) (io : PlmIO σ) (s s' : σ) (a : α), f σ io s = some (s', a) → P.run io s = (s', some a)) ∧
      ∀ (progs : List (Prog (Option α))) (es : List SharedEv) (i : Nat) (a : α), progs[i]? = some P →
        (run dead (init dead progs) es).1.result i = some (some a) → Q a := by
  obtain ⟨P, hP⟩ := hf
  refine ⟨P, fun σ io s => (hP σ io s).1, fun progs es i a h hr => ?_⟩
  have h1 := team_alone dead progs es i P (some a) h hr
  have h2 := hP _ (teamView dead i) (init dead progs, es)
  rcases hx : f _ (teamView dead i) (init dead progs, es) with _ | ⟨s', b⟩
  · rw [h2.2 hx] at h1; cases h1
  · rw [h2.1 _ _ hx] at h1
    cases h1
    exact hQ _ _ _ _ _ hx

/-- C157, an instance: whatever else goes on, a message sent to a device is reported as acknowledged only with an acknowledgement from that device. -/
theorem write_concurrent (dead : Option MRes → Bool) (retries : Int) (fuel : Nat) (msg : Message) :
    ∃ P : Prog (Option MRes), (∀ (σ : Type) (io : PlmIO σ) (s s' : σ) (r : MRes), Plm.write io retries fuel s msg = some (s', r) → P.run io s = (s', some r)) ∧
      ∀ (progs : List (Prog (Option MRes))) (es : List SharedEv) (i : Nat) (ack : Option Message), progs[i]? = some P →
        (run dead (init dead progs) es).1.result i = some (some (.ret ack none)) → ∃ m, ack = some m ∧ m.src = msg.dst ∧ isAck m.flags := by
  obtain ⟨P, h1, h2⟩ := team_transfer_loop dead (fun _ io s => Plm.write io retries fuel s msg)
    (fun r => ∀ ack, r = .ret ack none → ∃ m, ack = some m ∧ m.src = msg.dst ∧ isAck m.flags)
    (fun σ io s s' a h ack ha => (plm_write_ack_source io retries fuel s s' msg ack none (by rw [← ha]; exact h)).1 rfl) (loop_write retries fuel msg)
  exact ⟨P, h1, fun progs es i ack hP hr => h2 progs es i _ hP hr ack rfl⟩

/-- Two goroutines, one command each: the first takes the confirmation that came first. -/
example : (run (fun _ => false) (init (fun _ => false) [Prog.retry 3 true ⟨0x60, [], 0⟩, Prog.retry 3 true ⟨0x73, [], 0⟩])
    [.go 0 false none, .go 1 false none, .arrive ⟨0x60, [1, 2, 3, 4, 5, 6], 0x06⟩, .arrive ⟨0x73, [0, 0, 0], 0x06⟩,
     .go 0 false none, .go 1 false none]).1.result 1 = some (.ret (some ⟨0x73, [0, 0, 0], 0x06⟩) none) := by decide +kernel

end Team

/-! ### C158 -/

namespace Team
variable {α : Type}

/-- What a program comes to is justified by the packets it was given, whatever those are. -/
def Just {α : Type} (Q : α → List Packet → Prop) : Prog α → List Packet → Prop
  | .ret a, seen => Q a seen
  | .tx _ k, seen => ∀ e, Just Q (k e) seen
  | .rxPacket k, seen => (∀ p, Just Q (k (.packet p)) (seen ++ [p])) ∧ Just Q (k .closed) seen ∧ Just Q (k .timeout) seen
  | .rxMsg k, seen => ∀ r, Just Q (k r) seen

theorem just_bind {α β : Type} (Q : β → List Packet → Prop) (P : Prog α) (f : α → Prog β) (seen : List Packet)
    (h : Just (fun a seen => Just Q (f a) seen) P seen) : Just Q (P.bind f) seen := by
  induction P generalizing seen with
  | ret a => exact h
  | tx b k ih => exact fun e => ih e _ (h e)
  | rxPacket k ih => exact ⟨fun p => ih _ _ (h.1 p), ih _ _ h.2.1, ih _ _ h.2.2⟩
  | rxMsg k ih => exact fun r => ih r _ (h r)

theorem just_mono {α : Type} (Q R : α → List Packet → Prop) (hQ : ∀ a seen, Q a seen → R a seen) (P : Prog α) (seen : List Packet) (h : Just Q P seen) :
    Just R P seen := by
  induction P generalizing seen with
  | ret a => exact hQ _ _ h
  | tx b k ih => exact fun e => ih e _ (h e)
  | rxPacket k ih => exact ⟨fun p => ih _ _ (h.1 p), ih _ _ h.2.1, ih _ _ h.2.2⟩
  | rxMsg k ih => exact fun r => ih r _ (h r)

/-- Every program only adds to what it has been given. -/
theorem just_grows {α : Type} (P : Prog α) (seen : List Packet) : Just (fun _ seen' => seen <+: seen') P seen := by
  have h : ∀ (P : Prog α) (cur : List Packet), seen <+: cur → Just (fun _ seen' => seen <+: seen') P cur := by
    intro P
    induction P with
    | ret a => exact fun cur h => h
    | tx b k ih => exact fun cur h e => ih e cur h
    | rxPacket k ih => exact fun cur h => ⟨fun p => ih _ _ (h.trans (List.prefix_append _ _)), ih _ _ h, ih _ _ h⟩
    | rxMsg k ih => exact fun cur h r => ih r cur h
  exact h P seen (List.prefix_refl _)

theorem just_run (dead : α → Bool) (Q : α → List Packet → Prop) (i : Nat) (es : List SharedEv) : ∀ (s : Team α) (P : Prog α) (seen : List Packet) (a : α),
    s.progs[i]? = some P → Just Q P seen → (run dead s es).1.result i = some a → Q a (seen ++ packetsTaken i (run dead s es).2) := by
  induction es with
  | nil =>
    intro s P seen a hP hJ hr
    cases P <;> simp [run, result, hP, Prog.value] at hr
    subst hr
    simpa [run, packetsTaken, Just] using hJ
  | cons e es ih =>
    intro s P seen a hP hJ hr
    simp only [run] at hr ⊢
    by_cases hd : s.down = true
    · rw [step_down dead s e hd] at hr ⊢
      exact ih s P seen a hP hJ hr
    by_cases he : ∃ late err, e = .go i late err
    · obtain ⟨late, err, rfl⟩ := he
      have hlt : i < s.progs.length := by
        rcases Nat.lt_or_ge i s.progs.length with h | h
        · exact h
        · rw [List.getElem?_eq_none h] at hP; cases hP
      have hd' : s.down = false := by simpa using hd
      cases P with
      | ret b =>
        have hst : step dead s (.go i late err) = (s, .none) := by simp [step, hP, hd']
        rw [hst] at hr ⊢
        exact ih s _ seen a hP hJ hr
      | tx b k =>
        have hst : step dead s (.go i late err) = (s.set dead i (k err) s.port, .wrote i b err) := by simp [step, hP, hd']
        rw [hst] at hr ⊢
        exact ih _ (k err) seen a (by simp [set, hlt]) (hJ err) hr
      | rxPacket k =>
        have hst : step dead s (.go i late err) = (s.set dead i (k (Port.recv s.port.pktQ s.port.closed late).2)
            { s.port with pktQ := (Port.recv s.port.pktQ s.port.closed late).1 }, .tookPkt i (Port.recv s.port.pktQ s.port.closed late).2) := by
          simp [step, hP, hd']
        rw [hst] at hr ⊢
        rcases hq : (Port.recv s.port.pktQ s.port.closed late).2 with p | _ | _ <;> rw [hq] at hr
        · have := ih _ (k (.packet p)) (seen ++ [p]) a (by simp [set, hlt]) (hJ.1 p) hr
          simpa [packetsTaken] using this
        · exact ih _ (k .closed) seen a (by simp [set, hlt]) hJ.2.1 hr
        · exact ih _ (k .timeout) seen a (by simp [set, hlt]) hJ.2.2 hr
      | rxMsg k =>
        have hst : step dead s (.go i late err) = (s.set dead i (k (Port.recv s.port.msgQ s.port.closed late).2)
            { s.port with msgQ := (Port.recv s.port.msgQ s.port.closed late).1 }, .tookMsg i (Port.recv s.port.msgQ s.port.closed late).2) := by
          simp [step, hP, hd']
        rw [hst] at hr ⊢
        exact ih _ (k (Port.recv s.port.msgQ s.port.closed late).2) seen a (by simp [set, hlt]) (hJ _) hr
    · have hpr : (step dead s e).1.progs[i]? = some P := by
        rw [step_other dead s e i fun late err h => he ⟨late, err, h⟩, hP]
      have := ih _ P seen a hpr hJ hr
      rwa [show packetsTaken i ((step dead s e).2 :: (run dead (step dead s e).1 es).2) = packetsTaken i (run dead (step dead s e).1 es).2 from ?_]
      cases e with
      | arrive p =>
        simp only [step, hd]
        unfold arrival
        rcases Port.step s.port (.arrive p) with ⟨_, _ | _ | _⟩ <;> rfl
      | fail =>
        simp only [step, hd]
        unfold arrival
        rcases Port.step s.port .fail with ⟨_, _ | _ | _⟩ <;> rfl
      | go j late err =>
        have hj : j ≠ i := fun hj => he ⟨late, err, by rw [hj]⟩
        simp only [step, hd]
        rcases s.progs[j]? with _ | _ | _ | _ | _ <;> try rfl
        simp only [Bool.false_eq_true, if_false]
        rcases (Port.recv s.port.pktQ s.port.closed late).2 with p | _ | _ <;> simp [packetsTaken, hj]

theorem recordsIn_prefix {a b : List Packet} (h : a <+: b) : recordsIn a <+: recordsIn b := by
  obtain ⟨t, rfl⟩ := h
  simp [recordsIn]

theorem recordsIn_snoc (ps : List Packet) (p : Packet) (hc : p.command = 0x57) (l : LinkRecord)
    (hl : LinkRecord.unmarshalBinary LinkRecord.zero p.payload = (l, none)) : recordsIn (ps ++ [p]) = recordsIn ps ++ [l] := by
  have h8 : 8 ≤ p.payload.length ∧ recordOf p.payload = l := by
    rcases hp : p.payload with _ | ⟨b0, _ | ⟨b1, _ | ⟨b2, _ | ⟨b3, _ | ⟨b4, _ | ⟨b5, _ | ⟨b6, _ | ⟨b7, rest⟩⟩⟩⟩⟩⟩⟩⟩ <;> rw [hp] at hl <;>
      simp only [LinkRecord.unmarshalBinary, Prod.mk.injEq, reduceCtorEq, and_false, and_true] at hl
    refine ⟨by simp, ?_⟩
    have h := unmarshal_raw [b0, b1, b2, b3, b4, b5, b6, b7] rfl
    simp only [LinkRecord.unmarshalBinary, Prod.mk.injEq, and_true] at h
    rw [← hl, h]
    rfl
  simp [recordsIn, hc, h8]

theorem just_refreshLoop (retries : Int) (fuel : Nat) : ∀ (links : List LinkRecord) (seen : List Packet), links.Sublist (recordsIn seen) →
    Just (fun r seen => ∀ ls e, r = some (.ok (ls, e)) → ls.Sublist (recordsIn seen)) (Prog.refreshLoop retries fuel links) seen := by
  induction fuel with
  | zero => exact fun links seen h ls e he => by cases he
  | succ n ih =>
    intro links seen h
    refine ⟨fun p => ?_, ?_, ?_⟩
    case refine_2 => intro ls e he; cases he
    case refine_3 => intro ls e he; cases he; exact h
    have h1 : links.Sublist (recordsIn (seen ++ [p])) := h.trans (recordsIn_prefix (List.prefix_append _ _)).sublist
    dsimp only
    split_ifs with hc
    · rcases hu : LinkRecord.unmarshalBinary LinkRecord.zero p.payload with ⟨l, _ | e⟩
      · dsimp only
        have h2 : (links ++ [l]).Sublist (recordsIn (seen ++ [p])) := by
          rw [recordsIn_snoc seen p hc l hu]
          exact h.append (List.Sublist.refl _)
        refine just_bind _ _ _ _ (just_mono _ _ ?_ _ _ (just_grows _ _))
        intro r seen' hs
        have h3 : (links ++ [l]).Sublist (recordsIn seen') := h2.trans (recordsIn_prefix hs).sublist
        rcases r with ⟨a, _ | e⟩ | _
        · exact ih _ _ h3
        · exact fun ls e he => by cases he; exact h3
        · exact fun ls e he => by cases he
      · exact fun ls e he => by cases he; exact h1
    · exact ih _ _ h1

theorem just_links (retries : Int) (fuel : Nat) (cached : List LinkRecord) :
    Just (fun r seen => ∀ ls, r = some (.ok (ls, none)) → ls.Sublist (recordsIn seen)) (Prog.links retries fuel cached) [] := by
  refine just_bind _ _ _ _ (just_mono _ _ ?_ _ _ (just_grows _ _))
  intro r seen _
  rcases r with ⟨a, _ | e⟩ | _
  · refine just_bind _ _ _ _ (just_mono _ _ ?_ _ _ (just_refreshLoop retries fuel [] seen (List.nil_sublist _)))
    intro r seen h ls hls
    rcases r with _ | ⟨ls', e⟩ | e | _ <;> simp only [Prog.refreshEnd] at hls <;> try cases hls
    split_ifs at hls with he
    · cases hls
      exact h _ _ rfl
    · cases hls
  · intro ls hls
    split_ifs at hls
    · cases hls; exact List.nil_sublist _
    · cases hls
  · exact fun ls hls => by cases hls

/-- C158: when several goroutines use the modem at once and one of them reads the links, a result without error still has nothing in it but records
from the modem, each as often as a response with it was given to this call and in that order. What is missing is that it is the whole of the
modem's database: that is false (`links_concurrent_refuted`). -/
theorem links_concurrent_partial (progs : List (Prog (Option (Out (List LinkRecord × Option Err))))) (es : List SharedEv) (i : Nat) (retries : Int) (fuel : Nat)
    (cached ls : List LinkRecord) (hP : progs[i]? = some (Prog.links retries fuel cached))
    (hr : (run panicked (init panicked progs) es).1.result i = some (some (.ok (ls, none)))) :
    ls.Sublist (recordsIn (packetsTaken i (run panicked (init panicked progs) es).2)) := by
  have := just_run panicked _ i es (init panicked progs) _ [] _ hP (just_links retries fuel cached) hr
  exact this ls rfl

/-- A modem with two records. -/
def twoLinks : List LinkRecord := [⟨0xe2, 1, 0xaabbcc, 1, 2, 3⟩, ⟨0xa2, 7, 0x112233, 4, 5, 6⟩]

/-- Two goroutines read the links of that modem. The modem has given its second record to the first when both ask for the next one. -/
def twoReaders : List SharedEv :=
  [.go 0 false none, .go 1 false none,
   .arrive ⟨0x69, [], 0x06⟩, .arrive ⟨0x57, [0xe2, 1, 0xaa, 0xbb, 0xcc, 1, 2, 3], 0⟩,
   .arrive ⟨0x69, [], 0x06⟩, .arrive ⟨0x57, [0xe2, 1, 0xaa, 0xbb, 0xcc, 1, 2, 3], 0⟩,
   .go 0 false none, .go 0 false none, .go 0 false none,
   .go 1 false none, .go 1 false none, .go 1 false none,
   .arrive ⟨0x6a, [], 0x06⟩, .arrive ⟨0x57, [0xa2, 7, 0x11, 0x22, 0x33, 4, 5, 6], 0⟩,
   .arrive ⟨0x6a, [], 0x15⟩,
   .go 0 false none, .go 0 false none, .go 0 false none,
   .arrive ⟨0x6a, [], 0x15⟩,
   .go 1 false none, .go 0 false none]

/-- C158: two goroutines that read the links of the modem at once may get different lists, both without an error, from a modem that answers each command
properly, although nothing is lost and nothing is late. The second one misses a record. -/
theorem links_concurrent_refuted : ∃ (db : List LinkRecord) (es : List SharedEv),
    let t := run panicked (init panicked [Prog.links 3 10 [], Prog.links 3 10 []]) es
    AnsweredBy db 0 [] t.2 = true ∧ t.1.result 0 = some (some (.ok (db, none))) ∧
      ∃ ls, t.1.result 1 = some (some (.ok (ls, none))) ∧ ls ≠ db :=
  ⟨twoLinks, twoReaders, by decide +kernel, by decide +kernel, twoLinks.take 1, by decide +kernel, by decide +kernel⟩

/-- The partial theorem for that run: it gives the list of the second goroutine a bound that is met. -/
example : recordsIn (packetsTaken 1 (run panicked (init panicked [Prog.links 3 10 [], Prog.links 3 10 []]) twoReaders).2) = twoLinks.take 1 := by
  decide +kernel

end Team

end Insteon
