import Verif.Props.Talk
import Verif.Props.Team
import Verif.Props.Live
import Verif.Props.Failures
import Verif.Spec.DeviceTeam

/-
C203: calls on devices by goroutines that share a PLM.
-/

namespace Insteon
open Insteon.Spec

/-! ### What a goroutine did -/

/-- The rest of a program after these accesses. -/
def Prog.follow {α : Type} : Prog α → List Own → Option (Prog α)
  | P, [] => some P
  | .tx b k, .wrote b' err :: h => if b' = b then follow (k err) h else none
  | .rxPacket k, .packet r :: h => follow (k r) h
  | .rxMsg k, .message r :: h => follow (k r) h
  | _, _ :: _ => none

theorem ownSteps_cons (i : Nat) (o : SharedObs) (os : List SharedObs) : stepsBy i (o :: os) = stepsBy i [o] ++ stepsBy i os := by
  unfold stepsBy
  rw [← List.filterMap_append]; rfl

/-- A goroutine is where its program is after what it did. -/
theorem Team.follow_own {α : Type} (dead : α → Bool) (i : Nat) (es : List SharedEv) : ∀ (s : Team α) (P : Prog α), s.progs[i]? = some P →
    ∃ R, (Team.run dead s es).1.progs[i]? = some R ∧ P.follow (stepsBy i (Team.run dead s es).2) = some R := by
  induction es with
  | nil => exact fun s P h => ⟨P, h, by cases P <;> rfl⟩
  | cons e es ih =>
    intro s P hP
    have key : ∃ P1, (Team.step dead s e).1.progs[i]? = some P1 ∧ ∀ h, P.follow (stepsBy i [(Team.step dead s e).2] ++ h) = P1.follow h := by
      by_cases hd : s.down = true
      · rw [Team.step_down dead s e hd]
        exact ⟨P, hP, fun h => rfl⟩
      by_cases he : ∃ late err, e = .go i late err
      · obtain ⟨late, err, rfl⟩ := he
        have hi : i < s.progs.length := (List.getElem?_eq_some_iff.mp hP).1
        have hd' : s.down = false := by simpa using hd
        cases P with
        | ret a =>
          have hs : Team.step dead s (.go i late err) = (s, .none) := by simp only [Team.step, hd', hP]; rfl
          rw [hs]; exact ⟨.ret a, hP, fun h => rfl⟩
        | tx b k =>
          have hs : Team.step dead s (.go i late err) = (s.set dead i (k err) s.port, .wrote i b err) := by simp only [Team.step, hd', hP]; rfl
          rw [hs]; exact ⟨k err, by simp [Team.set, hi], fun h => by simp [stepsBy, Prog.follow]⟩
        | rxPacket k =>
          have hs : Team.step dead s (.go i late err) = (s.set dead i (k (Port.recv s.port.pktQ s.port.closed late).2)
              { s.port with pktQ := (Port.recv s.port.pktQ s.port.closed late).1 }, .tookPkt i (Port.recv s.port.pktQ s.port.closed late).2) := by
            simp only [Team.step, hd', hP]; rfl
          rw [hs]; exact ⟨_, by simp [Team.set, hi]; rfl, fun h => by simp [stepsBy, Prog.follow]⟩
        | rxMsg k =>
          have hs : Team.step dead s (.go i late err) = (s.set dead i (k (Port.recv s.port.msgQ s.port.closed late).2)
              { s.port with msgQ := (Port.recv s.port.msgQ s.port.closed late).1 }, .tookMsg i (Port.recv s.port.msgQ s.port.closed late).2) := by
            simp only [Team.step, hd', hP]; rfl
          rw [hs]; exact ⟨_, by simp [Team.set, hi]; rfl, fun h => by simp [stepsBy, Prog.follow]⟩
      · refine ⟨P, by rw [Team.step_other dead s e i (fun late err h => he ⟨late, err, h⟩)]; exact hP, fun h => ?_⟩
        suffices hs : stepsBy i [(Team.step dead s e).2] = [] by rw [hs]; rfl
        cases e with
        | arrive p =>
          simp only [Team.step, hd]
          rw [if_neg (by simp)]
          unfold Team.arrival
          split <;> rfl
        | fail =>
          simp only [Team.step, hd]
          rw [if_neg (by simp)]
          unfold Team.arrival
          split <;> rfl
        | go j late err =>
          have hj : j ≠ i := fun hj => he ⟨late, err, by rw [hj]⟩
          simp only [Team.step, hd]
          rw [if_neg (by simp)]
          split <;> simp [stepsBy, hj]
    obtain ⟨P1, h1, h2⟩ := key
    obtain ⟨R, h3, h4⟩ := ih _ P1 h1
    refine ⟨R, h3, ?_⟩
    rw [Team.run, ownSteps_cons, h2]
    exact h4

theorem written_own (i : Nat) (os : List SharedObs) : bytesIn (stepsBy i os) = written i os := by
  induction os with
  | nil => rfl
  | cons o os ih =>
    rw [ownSteps_cons]
    unfold bytesIn at ih ⊢
    rw [List.filterMap_append, ih]
    cases o with
    | wrote j b err => by_cases hj : j = i <;> simp [stepsBy, written, hj]
    | tookPkt j r => by_cases hj : j = i <;> simp [stepsBy, written, hj]
    | tookMsg j r => by_cases hj : j = i <;> simp [stepsBy, written, hj]
    | _ => simp [stepsBy, written]

theorem Prog.follow_bind {α β : Type} (f : α → Prog β) (P : Prog α) : ∀ (h : List Own) (R : Prog β), (P.bind f).follow h = some R →
    (∃ P', P.follow h = some P' ∧ R = P'.bind f) ∨ ∃ h1 h2 a, h = h1 ++ h2 ∧ P.follow h1 = some (.ret a) ∧ (f a).follow h2 = some R := by
  induction P with
  | ret a => exact fun h R hx => Or.inr ⟨[], h, a, rfl, rfl, hx⟩
  | tx b k ih =>
    intro h R hx
    rcases h with _ | ⟨_ | _ | _, h⟩
    · exact Or.inl ⟨_, rfl, by simpa [Prog.follow, Prog.bind] using hx.symm⟩
    · rename_i b' err
      simp only [Prog.bind, Prog.follow] at hx
      by_cases hb : b' = b
      · rw [if_pos hb] at hx
        rcases ih err h R hx with ⟨P', h1, h2⟩ | ⟨h1, h2, a, h3, h4, h5⟩
        · exact Or.inl ⟨P', by rw [Prog.follow, if_pos hb]; exact h1, h2⟩
        · exact Or.inr ⟨.wrote b' err :: h1, h2, a, by rw [h3]; rfl, by rw [Prog.follow, if_pos hb]; exact h4, h5⟩
      · rw [if_neg hb] at hx; simp at hx
    · simp [Prog.bind, Prog.follow] at hx
    · simp [Prog.bind, Prog.follow] at hx
  | rxPacket k ih =>
    intro h R hx
    rcases h with _ | ⟨_ | r | _, h⟩
    · exact Or.inl ⟨_, rfl, by simpa [Prog.follow, Prog.bind] using hx.symm⟩
    · simp [Prog.bind, Prog.follow] at hx
    · simp only [Prog.bind, Prog.follow] at hx
      rcases ih r h R hx with ⟨P', h1, h2⟩ | ⟨h1, h2, a, h3, h4, h5⟩
      · exact Or.inl ⟨P', h1, h2⟩
      · exact Or.inr ⟨.packet r :: h1, h2, a, by rw [h3]; rfl, h4, h5⟩
    · simp [Prog.bind, Prog.follow] at hx
  | rxMsg k ih =>
    intro h R hx
    rcases h with _ | ⟨_ | _ | r, h⟩
    · exact Or.inl ⟨_, rfl, by simpa [Prog.follow, Prog.bind] using hx.symm⟩
    · simp [Prog.bind, Prog.follow] at hx
    · simp [Prog.bind, Prog.follow] at hx
    · simp only [Prog.bind, Prog.follow] at hx
      rcases ih r h R hx with ⟨P', h1, h2⟩ | ⟨h1, h2, a, h3, h4, h5⟩
      · exact Or.inl ⟨P', h1, h2⟩
      · exact Or.inr ⟨.message r :: h1, h2, a, by rw [h3]; rfl, h4, h5⟩

theorem bytesIn_append (a b : List Own) : bytesIn (a ++ b) = bytesIn a ++ bytesIn b := List.filterMap_append

/-! ### Sending a message as a program -/

/-- What `PLM.Read` makes of what the channel gave it. -/
def readOf : Recv → MRes
  | .packet p => .ret (some (Message.zero.unmarshalBinary p.payload).1) (Message.zero.unmarshalBinary p.payload).2
  | .closed => .panic
  | .timeout => .ret none (some (.wrapped .insReadTimeout))

theorem read_of {σ : Type} (io : PlmIO σ) (s : σ) : Plm.read io s = ((io.rxMsg s).1, readOf (io.rxMsg s).2) := by
  unfold Plm.read
  rcases io.rxMsg s with ⟨s', p | _ | _⟩ <;> rfl

/-- The wait for the acknowledgement as a program. -/
def Prog.awaitAck (dst : Address) : Nat → Prog (Option MRes)
  | 0 => .ret none
  | n + 1 => .rxMsg fun r => match readOf r with
    | .panic => .ret (some .panic)
    | .ret ack (some e) => .ret (some (.ret ack (some e)))
    | .ret none none => .ret (some .panic)
    | .ret (some m) none =>
      if m.src = dst ∧ (m.flags.ack = true ∨ m.flags.nak = true) then .ret (some (.ret (some m) (if m.flags.nak then some .devNak else none)))
      else Prog.awaitAck dst n

/-- After the modem's answer. -/
def Prog.afterReply (dst : Address) (fuel : Nat) : PRes → Prog (Option MRes)
  | .panic => .ret (some .panic)
  | .ret _ (some e) => .ret (some (.ret none (some e)))
  | .ret _ none => Prog.awaitAck dst fuel

/-- `PLM.Write` as a program. -/
def Prog.send (retries : Nat) (fuel : Nat) (m : Message) : Prog (Option MRes) :=
  (Prog.retry retries true ⟨0x62#8, afterSource m, 0#8⟩).bind (Prog.afterReply m.dst fuel)

theorem Prog.awaitAck_run {σ : Type} (io : PlmIO σ) (dst : Address) (n : Nat) (s : σ) :
    match Plm.awaitAck io dst n s with
    | some (s', r) => (Prog.awaitAck dst n).run io s = (s', some r)
    | none => ((Prog.awaitAck dst n).run io s).2 = none := by
  induction n generalizing s with
  | zero => rfl
  | succ n ih =>
    rw [Plm.awaitAck, read_of]
    simp only [Prog.awaitAck, Prog.run]
    rcases readOf (io.rxMsg s).2 with ⟨_ | m, _ | e⟩ | _
    · rfl
    · rfl
    · dsimp only
      by_cases hm : m.src = dst ∧ (m.flags.ack = true ∨ m.flags.nak = true)
      · rw [if_pos hm, if_pos hm]; rfl
      · rw [if_neg hm, if_neg hm]; exact ih _
    · rfl
    · rfl

theorem Prog.send_run {σ : Type} (io : PlmIO σ) (retries : Nat) (fuel : Nat) (m : Message) (s : σ) :
    match Plm.write io retries fuel s m with
    | some (s', r) => (Prog.send retries fuel m).run io s = (s', some r)
    | none => ((Prog.send retries fuel m).run io s).2 = none := by
  unfold Plm.write Prog.send
  rw [Prog.run_bind, Prog.retry_run, afterSource_drop]
  simp only [PCmd.sendInsteonMsg]
  rcases retryWrite (Plm.writePacket io) retries true s ⟨0x62#8, afterSource m, 0#8⟩ with ⟨s1, ⟨a, _ | e⟩ | _⟩
  · exact Prog.awaitAck_run io m.dst fuel s1
  · rfl
  · rfl

/-! ### What sending a message shows -/

theorem follow_await (dst : Address) (n : Nat) : ∀ (h : List Own) (R : Prog (Option MRes)), (Prog.awaitAck dst n).follow h = some R →
    bytesIn h = [] ∧ (∀ o ∈ h, ∃ r, o = .message r) ∧ ∀ a, R = .ret (some (.ret a none)) →
      ∃ others q x, h = others ++ [.message (.packet q)] ∧ Received q x ∧ x.src = dst ∧ x.flags.ack = true := by
  induction n with
  | zero =>
    intro h R hx
    cases h with
    | nil =>
      simp only [Prog.awaitAck, Prog.follow, Option.some.injEq] at hx
      exact ⟨rfl, by simp, fun a ha => by rw [← hx] at ha; simp at ha⟩
    | cons o h => simp [Prog.awaitAck, Prog.follow] at hx
  | succ n ih =>
    intro h R hx
    rcases h with _ | ⟨_ | _ | r, h⟩
    · simp only [Prog.awaitAck, Prog.follow, Option.some.injEq] at hx
      exact ⟨rfl, by simp, fun a ha => by rw [← hx] at ha; simp at ha⟩
    · simp [Prog.awaitAck, Prog.follow] at hx
    · simp [Prog.awaitAck, Prog.follow] at hx
    · simp only [Prog.awaitAck, Prog.follow] at hx
      have ends : ∀ v : Option MRes, (Prog.ret v).follow h = some R → h = [] ∧ R = .ret v := by
        intro v hv
        cases h with
        | nil => simp only [Prog.follow, Option.some.injEq] at hv; exact ⟨rfl, hv.symm⟩
        | cons o h => simp [Prog.follow] at hv
      rcases hr : readOf r with ⟨_ | m, _ | e⟩ | _ <;> rw [hr] at hx <;> dsimp only at hx
      · obtain ⟨rfl, rfl⟩ := ends _ hx
        exact ⟨rfl, by simp, fun a ha => by simp at ha⟩
      · obtain ⟨rfl, rfl⟩ := ends _ hx
        exact ⟨rfl, by simp, fun a ha => by simp at ha⟩
      · by_cases hm : m.src = dst ∧ (m.flags.ack = true ∨ m.flags.nak = true)
        · rw [if_pos hm] at hx
          obtain ⟨rfl, rfl⟩ := ends _ hx
          refine ⟨rfl, by simp, fun a ha => ?_⟩
          simp only [Prog.ret.injEq, Option.some.injEq, MRes.ret.injEq, ite_eq_right_iff, reduceCtorEq, imp_false, Bool.not_eq_true] at ha
          cases r with
          | packet p =>
            simp only [readOf, MRes.ret.injEq, Option.some.injEq] at hr
            refine ⟨[], p, m, rfl, Prod.ext hr.1 hr.2, hm.1, ?_⟩
            rcases hm.2 with h | h
            · exact h
            · rw [ha.2] at h; simp at h
          | closed => simp [readOf] at hr
          | timeout => simp [readOf] at hr
        · rw [if_neg hm] at hx
          obtain ⟨h1, h2, h3⟩ := ih h R hx
          refine ⟨h1, fun o ho => ?_, fun a ha => ?_⟩
          · rcases List.mem_cons.mp ho with rfl | ho
            · exact ⟨r, rfl⟩
            · exact h2 o ho
          · obtain ⟨others, q, x, h4, h5⟩ := h3 a ha
            exact ⟨.message r :: others, q, x, by rw [h4]; rfl, h5⟩
      · obtain ⟨rfl, rfl⟩ := ends _ hx
        exact ⟨rfl, by simp, fun a ha => by simp at ha⟩
      · obtain ⟨rfl, rfl⟩ := ends _ hx
        exact ⟨rfl, by simp, fun a ha => by simp at ha⟩

theorem confirmed (m : Message) (p : Packet) (h : Plm.checkAck ⟨0x62#8, afterSource m, 0#8⟩ p = .ok none) : ConfirmsSend m p := by
  rw [checkAck_ok_iff] at h
  obtain ⟨h1, h2, h3, h4⟩ := h
  rcases p with ⟨cmd, payload, ack⟩
  dsimp only at h1 h2 h3 h4
  subst h1 h3
  obtain ⟨a, b, c, h5⟩ := by simpa using h4
  exact ⟨[a, b, c], rfl, by rw [h5]; rfl⟩

theorem follow_retry (m : Message) (n : Nat) : ∀ (cur : PRes) (h : List Own) (R : Prog PRes),
    (Prog.retryLoop true ⟨0x62#8, afterSource m, 0#8⟩ n cur).follow h = some R →
    ∃ k, k ≤ n ∧ bytesIn h = List.replicate k (request m) ∧ ∀ a, R = .ret a → (1 ≤ n → 1 ≤ k) ∧
      ∀ x, a = .ret x none → 1 ≤ n → ∃ tries p, h = tries ++ [.packet (.packet p)] ∧ ConfirmsSend m p := by
  induction n with
  | zero =>
    intro cur h R hx
    cases h with
    | nil => exact ⟨0, le_refl _, rfl, fun a _ => ⟨fun h => absurd h (by omega), fun x _ h => absurd h (by omega)⟩⟩
    | cons o h => simp [Prog.retryLoop, Prog.follow] at hx
  | succ n ih =>
    intro cur h R hx
    rw [Prog.retryLoop] at hx
    have ends : ∀ (v : PRes) (h : List Own), (Prog.ret v).follow h = some R → h = [] ∧ R = .ret v := by
      intro v h hv
      cases h with
      | nil => simp only [Prog.follow, Option.some.injEq] at hv; exact ⟨rfl, hv.symm⟩
      | cons o h => simp [Prog.follow] at hv
    -- after an attempt
    have after : ∀ (x : Option Packet) (e : Option Err) (h : List Own),
        (if retryable true e then Prog.retryLoop true ⟨0x62#8, afterSource m, 0#8⟩ n (.ret x e) else .ret (.ret x e)).follow h = some R →
        ∃ k, k ≤ n ∧ bytesIn h = List.replicate k (request m) ∧ ∀ a y, R = .ret a → a = .ret y none →
          (h = [] ∧ e = none) ∨ ∃ tries p, h = tries ++ [.packet (.packet p)] ∧ ConfirmsSend m p := by
      intro x e h hy
      by_cases hr : retryable true e = true
      · rw [if_pos hr] at hy
        obtain ⟨k, h1, h2, h3⟩ := ih _ h R hy
        refine ⟨k, h1, h2, fun a y ha hay => ?_⟩
        by_cases hn : 1 ≤ n
        · exact Or.inr ((h3 a ha).2 y hay hn)
        · obtain rfl : n = 0 := by omega
          obtain ⟨-, h5⟩ := ends _ h hy
          rw [ha, hay] at h5
          simp only [Prog.ret.injEq, PRes.ret.injEq] at h5
          rw [← h5.2] at hr
          simp [retryable] at hr
      · rw [if_neg hr] at hy
        obtain ⟨h1, h2⟩ := ends _ h hy
        refine ⟨0, by omega, by rw [h1]; rfl, fun a y ha hay => Or.inl ⟨h1, ?_⟩⟩
        rw [ha, hay] at h2
        simp only [Prog.ret.injEq, PRes.ret.injEq] at h2
        exact h2.2.symm
    rcases h with _ | ⟨b | _ | _, h⟩
    · simp only [Prog.writePacket, Prog.bind, Prog.follow, Option.some.injEq] at hx
      exact ⟨0, by omega, rfl, fun a ha => by rw [← hx] at ha; simp at ha⟩
    · rename_i err
      simp only [Prog.writePacket, Prog.bind, Prog.follow] at hx
      by_cases hb : b = (⟨0x62#8, afterSource m, 0#8⟩ : Packet).marshalBinary
      · rw [if_pos hb] at hx
        have hb' : b = request m := hb
        have hbytes : ∀ h, bytesIn (.wrote b err :: h) = request m :: bytesIn h := fun h => by rw [← hb']; rfl
        cases err with
        | some e =>
          obtain ⟨k, h1, h2, h3⟩ := after none (some e) h hx
          refine ⟨k + 1, by omega, by rw [hbytes, h2]; rfl, fun a ha => ⟨fun _ => by omega, fun x hax _ => ?_⟩⟩
          rcases h3 a x ha hax with ⟨-, h4⟩ | ⟨tries, p, h4, h5⟩
          · simp at h4
          · exact ⟨.wrote b (some e) :: tries, p, by rw [h4]; rfl, h5⟩
        | none =>
          rcases h with _ | ⟨_ | r | _, h⟩
          · simp only [Prog.bind, Prog.follow, Option.some.injEq] at hx
            refine ⟨1, by omega, by rw [hbytes]; rfl, fun a ha => by rw [← hx] at ha; simp at ha⟩
          · simp [Prog.bind, Prog.follow] at hx
          · simp only [Prog.bind, Prog.follow] at hx
            rcases hk : Prog.ackOf ⟨0x62#8, afterSource m, 0#8⟩ r with ⟨x, e⟩ | _ <;> rw [hk] at hx <;> dsimp only at hx
            · obtain ⟨k, h1, h2, h3⟩ := after x e h hx
              refine ⟨k + 1, by omega, by rw [hbytes]; exact congrArg _ h2, fun a ha => ⟨fun _ => by omega, fun y hay _ => ?_⟩⟩
              rcases h3 a y ha hay with ⟨h4, h5⟩ | ⟨tries, p, h4, h5⟩
              · rw [h5] at hk
                cases r with
                | packet p =>
                  refine ⟨[.wrote b none], p, by rw [h4]; rfl, confirmed m p ?_⟩
                  simp only [Prog.ackOf] at hk
                  rcases hc : Plm.checkAck ⟨0x62#8, afterSource m, 0#8⟩ p with v | v | _ <;> rw [hc] at hk <;> simp at hk
                  rw [hk.2]
                | closed => simp [Prog.ackOf] at hk
                | timeout => simp [Prog.ackOf] at hk
              · exact ⟨.wrote b none :: .packet r :: tries, p, by rw [h4]; rfl, h5⟩
            · obtain ⟨h1, h2⟩ := ends _ h hx
              refine ⟨1, by omega, by rw [hbytes, h1]; rfl, fun a ha => ⟨fun _ => by omega, fun y hay _ => ?_⟩⟩
              rw [ha, hay] at h2
              simp at h2
          · simp [Prog.bind, Prog.follow] at hx
      · rw [if_neg hb] at hx; simp at hx
    · simp [Prog.writePacket, Prog.bind, Prog.follow] at hx
    · simp [Prog.writePacket, Prog.bind, Prog.follow] at hx

/-- Sending a message writes its request and nothing else. -/
theorem follow_send (retries fuel : Nat) (m : Message) (h : List Own) (R : Prog (Option MRes)) (hx : (Prog.send retries fuel m).follow h = some R) :
    (∃ k, k ≤ retries + 1 ∧ bytesIn h = List.replicate k (request m)) ∧ ∀ a, R = .ret (some (.ret a none)) → Delivered retries m h := by
  have hn : ((retries : Int) + 1).toNat = retries + 1 := by omega
  rcases Prog.follow_bind _ _ h R hx with ⟨P', h1, h2⟩ | ⟨h1, h2, v, h3, h4, h5⟩
  · unfold Prog.retry at h1
    rw [hn] at h1
    obtain ⟨k, h3, h4, -⟩ := follow_retry m _ _ h P' h1
    refine ⟨⟨k, h3, h4⟩, fun a ha => ?_⟩
    rw [h2] at ha
    rcases P' with (⟨x, _ | e⟩ | _) | _ | _ | _
    · cases fuel <;> simp [Prog.bind, Prog.afterReply, Prog.awaitAck] at ha
    all_goals simp [Prog.bind, Prog.afterReply] at ha
  · unfold Prog.retry at h4
    rw [hn] at h4
    obtain ⟨k, h6, h7, h8⟩ := follow_retry m _ _ h1 _ h4
    obtain ⟨h9, h10⟩ := h8 v rfl
    rcases v with ⟨x, _ | e⟩ | _
    · obtain ⟨h11, h12, h13⟩ := follow_await m.dst fuel h2 R h5
      refine ⟨⟨k, h6, by rw [h3, bytesIn_append, h7, h11, List.append_nil]⟩, fun a ha => ?_⟩
      obtain ⟨others, q, y, h14, h15, h16, h17⟩ := h13 a ha
      obtain ⟨tries, p, h18, h19⟩ := h10 x rfl (by omega)
      refine ⟨tries, p, others, q, y, by rw [h3, h18, h14]; simp, h19, h15, h16, h17, ⟨k, h9 (by omega), h6, ?_⟩, fun o ho => h12 o (by rw [h14]; simp [ho])⟩
      rw [← h7, h18, bytesIn_append]; simp [bytesIn]
    · have : h2 = [] ∧ R = .ret (some (.ret none (some e))) := by
        cases h2 with
        | nil => simp only [Prog.afterReply, Prog.follow, Option.some.injEq] at h5; exact ⟨rfl, h5.symm⟩
        | cons o h => simp [Prog.afterReply, Prog.follow] at h5
      refine ⟨⟨k, h6, by rw [h3, bytesIn_append, h7, this.1]; exact List.append_nil _⟩, fun a ha => by rw [this.2] at ha; simp at ha⟩
    · have : h2 = [] ∧ R = .ret (some .panic) := by
        cases h2 with
        | nil => simp only [Prog.afterReply, Prog.follow, Option.some.injEq] at h5; exact ⟨rfl, h5.symm⟩
        | cons o h => simp [Prog.afterReply, Prog.follow] at h5
      refine ⟨⟨k, h6, by rw [h3, bytesIn_append, h7, this.1]; exact List.append_nil _⟩, fun a ha => by rw [this.2] at ha; simp at ha⟩

/-! ### Conversations over the modem -/

/-- A conversation in which messages are sent and received through the PLM. -/
def Spec.Talk.wired {α : Type} (retries fuel : Nat) : Talk (Option α) → Prog (Option α)
  | .ret a => .ret a
  | .read k => .rxMsg fun r => wired retries fuel (k (readOf r))
  | .write m k => (Prog.send retries fuel m).bind fun
    | none => .ret none
    | some r => wired retries fuel (k r)

theorem run_long {σ α : Type} (io : PlmIO σ) (retries : Int) (fuel : Nat) (T : Talk α) : ∀ (w : Waited σ), w.long = true →
    (T.run (overModem io retries fuel) w).1.long = true := by
  induction T with
  | ret a => exact fun w h => h
  | read k ih => exact fun w h => ih _ _ h
  | write m k ih =>
    intro w h
    refine ih _ _ ?_
    unfold overModem
    dsimp only
    split
    · exact h
    · rfl

theorem wired_run {σ α : Type} (io : PlmIO σ) (retries : Nat) (fuel : Nat) (T : Talk (Option α)) : ∀ s : σ,
    if (T.run (overModem io retries fuel) ⟨s, false⟩).1.long then ((T.wired retries fuel).run io s).2 = none
    else (T.wired retries fuel).run io s = ((T.run (overModem io retries fuel) ⟨s, false⟩).1.world, (T.run (overModem io retries fuel) ⟨s, false⟩).2) := by
  induction T with
  | ret a => intro s; simp [Talk.run, Talk.wired, Prog.run]
  | read k ih =>
    intro s
    have := ih (Plm.read io s).2 (Plm.read io s).1
    simp only [Talk.run, Talk.wired, Prog.run]
    rw [read_of] at this
    simpa only [overModem, read_of] using this
  | write m k ih =>
    intro s
    have hs := Prog.send_run io retries fuel m s
    simp only [Talk.run, Talk.wired]
    rw [Prog.run_bind]
    rcases hw : Plm.write io retries fuel s m with _ | ⟨s1, r⟩ <;> rw [hw] at hs <;> dsimp only at hs
    · have hio : (overModem io retries fuel).write ⟨s, false⟩ m = (⟨s, true⟩, .panic) := by unfold overModem; dsimp only; rw [hw]
      rw [hio, if_pos (run_long io retries fuel _ _ rfl), hs]
      rfl
    · have hio : (overModem io retries fuel).write ⟨s, false⟩ m = (⟨s1, false⟩, r) := by unfold overModem; dsimp only; rw [hw]
      rw [hio, hs]
      exact ih r s1

/-- The paths through a conversation: what was written, or read, and the results. -/
inductive Spec.Talk.Path {α : Type} : Talk α → List (Option Message × MRes) → α → Prop
  | ret (a : α) : Path (.ret a) [] a
  | read (k : MRes → Talk α) (r : MRes) (tr : List (Option Message × MRes)) (a : α) : Path (k r) tr a → Path (.read k) ((none, r) :: tr) a
  | write (m : Message) (k : MRes → Talk α) (r : MRes) (tr : List (Option Message × MRes)) (a : α) : Path (k r) tr a → Path (.write m k) ((some m, r) :: tr) a

/-- The steps of a goroutine along a path. -/
inductive Along (retries : Nat) : List (Option Message × MRes) → List Own → Prop
  | done : Along retries [] []
  | read (r : Recv) (tr : List (Option Message × MRes)) (h : List Own) : Along retries tr h → Along retries ((none, readOf r) :: tr) (.message r :: h)
  | write (m : Message) (r : MRes) (tr : List (Option Message × MRes)) (g h : List Own) : (∀ a, r = .ret a none → Delivered retries m g) → Along retries tr h →
      Along retries ((some m, r) :: tr) (g ++ h)

theorem wired_path {α : Type} (retries fuel : Nat) (T : Talk (Option α)) : ∀ (h : List Own) (a : α), (T.wired retries fuel).follow h = some (.ret (some a)) →
    ∃ tr, T.Path tr (some a) ∧ Along retries tr h := by
  induction T with
  | ret b =>
    intro h a hx
    cases h with
    | nil =>
      simp only [Talk.wired, Prog.follow, Option.some.injEq, Prog.ret.injEq] at hx
      subst hx
      exact ⟨[], .ret _, .done⟩
    | cons o h => simp [Talk.wired, Prog.follow] at hx
  | read k ih =>
    intro h a hx
    rcases h with _ | ⟨_ | _ | r, h⟩
    · simp [Talk.wired, Prog.follow] at hx
    · simp [Talk.wired, Prog.follow] at hx
    · simp [Talk.wired, Prog.follow] at hx
    · obtain ⟨tr, h1, h2⟩ := ih (readOf r) h a hx
      exact ⟨_, .read k _ tr _ h1, .read r tr h h2⟩
  | write m k ih =>
    intro h a hx
    simp only [Talk.wired] at hx
    rcases Prog.follow_bind _ _ h _ hx with ⟨P', h1, h2⟩ | ⟨h1, h2, v, h3, h4, h5⟩
    · rcases P' with (_ | r) | _ | _ | _
      · simp [Prog.bind] at h2
      · have h2' : (Talk.wired retries fuel (k r)).follow [] = some (.ret (some a)) := by
          simp only [Prog.bind] at h2; rw [← h2]; rfl
        obtain ⟨tr, h6, h7⟩ := ih r [] a h2'
        refine ⟨_, .write m k r tr _ h6, ?_⟩
        have := Along.write (retries := retries) m r tr h [] (fun x hr => (follow_send retries fuel m h _ h1).2 x (by rw [hr])) h7
        rwa [List.append_nil] at this
      all_goals simp [Prog.bind] at h2
    · rcases v with _ | r
      · cases h2 <;> simp [Prog.follow] at h5
      · obtain ⟨tr, h6, h7⟩ := ih r h2 a h5
        refine ⟨_, .write m k r tr _ h6, ?_⟩
        rw [h3]
        exact Along.write m r tr h1 h2 (fun x hr => (follow_send retries fuel m h1 _ h4).2 x (by rw [hr])) h7

/-- At most so many messages are written, whatever the answers. -/
def Spec.Talk.AtMost {α : Type} : Nat → Talk α → Prop
  | _, .ret _ => True
  | n, .read k => ∀ r, AtMost n (k r)
  | 0, .write _ _ => False
  | n + 1, .write _ k => ∀ r, AtMost n (k r)

theorem at_most {α : Type} [Crash α] (T : Talk (Option α)) : ∀ n, T.Unwinds → (∀ tr a, T.Path tr (some a) → (tr.filterMap Prod.fst).length ≤ n) → T.AtMost n := by
  induction T with
  | ret a => exact fun n _ _ => by cases n <;> trivial
  | read k ih =>
    intro n hu h
    have : ∀ r, (k r).AtMost n := fun r => ih r n (hu.2 r) fun tr a hp => h ((none, r) :: tr) a (.read k r tr _ hp)
    cases n <;> exact this
  | write m k ih =>
    intro n hu h
    obtain ⟨⟨b, h1, h2⟩, h3⟩ := hu
    rcases b with _ | b
    · exact False.elim h2
    have h4 := h [(some m, .panic)] b (.write m k .panic [] _ (by rw [h1]; exact .ret _))
    cases n with
    | zero => simp at h4
    | succ n =>
      intro r
      refine ih r n (h3 r) fun tr a hp => ?_
      have := h ((some m, r) :: tr) a (.write m k r tr _ hp)
      simp at this
      exact this

theorem wired_bytes {α : Type} (retries fuel : Nat) (Q : Message → Prop) (T : Talk (Option α)) : ∀ (n : Nat) (h : List Own) (R : Prog (Option α)),
    T.Says Q → T.AtMost n → (T.wired retries fuel).follow h = some R →
    (∀ b ∈ bytesIn h, ∃ m, Q m ∧ b = request m) ∧ (bytesIn h).length ≤ n * (retries + 1) := by
  induction T with
  | ret b =>
    intro n h R _ _ hx
    cases h with
    | nil => exact ⟨by simp [bytesIn], by simp [bytesIn]⟩
    | cons o h => simp [Talk.wired, Prog.follow] at hx
  | read k ih =>
    intro n h R hs hm hx
    rcases h with _ | ⟨_ | _ | r, h⟩
    · exact ⟨by simp [bytesIn], by simp [bytesIn]⟩
    · simp [Talk.wired, Prog.follow] at hx
    · simp [Talk.wired, Prog.follow] at hx
    · have hm' : (k (readOf r)).AtMost n := by cases n <;> exact hm _
      exact ih (readOf r) n h R (hs _) hm' hx
  | write m k ih =>
    intro n h R hs hm hx
    cases n with
    | zero => exact False.elim hm
    | succ n =>
      have one : ∀ g R, (Prog.send retries fuel m).follow g = some R → (∀ b ∈ bytesIn g, ∃ m, Q m ∧ b = request m) ∧ (bytesIn g).length ≤ retries + 1 := by
        intro g R hg
        obtain ⟨⟨k, h1, h2⟩, -⟩ := follow_send retries fuel m g R hg
        rw [h2]
        exact ⟨fun b hb => ⟨m, hs.1, List.eq_of_mem_replicate hb⟩, by simpa using h1⟩
      have hmul : (n + 1) * (retries + 1) = (retries + 1) + n * (retries + 1) := by rw [Nat.succ_mul, Nat.add_comm]
      simp only [Talk.wired] at hx
      rcases Prog.follow_bind _ _ h _ hx with ⟨P', h1, h2⟩ | ⟨h1, h2, v, h3, h4, h5⟩
      · obtain ⟨h3, h4⟩ := one h P' h1
        exact ⟨h3, by rw [hmul]; omega⟩
      · obtain ⟨h6, h7⟩ := one h1 _ h4
        have rest : (∀ b ∈ bytesIn h2, ∃ m, Q m ∧ b = request m) ∧ (bytesIn h2).length ≤ n * (retries + 1) := by
          rcases v with _ | r
          · cases h2 with
            | nil => exact ⟨by simp [bytesIn], by simp [bytesIn]⟩
            | cons o h => simp [Prog.follow] at h5
          · exact ih r n h2 R (hs.2 r) (hm r) h5
        rw [h3, bytesIn_append]
        refine ⟨fun b hb => ?_, by rw [List.length_append, hmul]; omega⟩
        rcases List.mem_append.mp hb with hb | hb
        · exact h6 b hb
        · exact rest.1 b hb

/-! ### Paths as runs -/

/-- A message writer with given results. -/
def scripted : MsgIO (List MRes) where
  read s := (s.tail, s.headD .panic)
  write s _ := (s.tail, s.headD .panic)

theorem path_record {α : Type} (T : Talk α) (tr : List (Option Message × MRes)) (a : α) (h : T.Path tr a) : ∀ rest ms,
    T.run (record scripted) ⟨tr.map Prod.snd ++ rest, ms⟩ = (⟨rest, ms ++ tr.filterMap Prod.fst⟩, a) := by
  induction h with
  | ret a => intro rest ms; simp [Talk.run]
  | read k r tr a _ ih => intro rest ms; simpa [Talk.run, record, scripted] using ih rest ms
  | write m k r tr a _ ih => intro rest ms; simpa [Talk.run, record, scripted] using ih rest (ms ++ [m])

theorem path_watch {α : Type} (T : Talk α) (tr : List (Option Message × MRes)) (a : α) (h : T.Path tr a) : ∀ rest f more,
    ∃ more', T.run (watch scripted) ⟨tr.map Prod.snd ++ rest, f, more⟩ = (⟨rest, f.or (tr.findSome? fun x => errorOf x.2), more'⟩, a) := by
  induction h with
  | ret a => intro rest f more; exact ⟨more, by simp [Talk.run]⟩
  | read k r tr a _ ih =>
    intro rest f more
    obtain ⟨more', h1⟩ := ih rest (f.or (errorOf r)) (more || f.isSome)
    refine ⟨more', ?_⟩
    simp only [Talk.run, watch, scripted, List.map_cons, List.cons_append, List.headD_cons, List.tail_cons] at h1 ⊢
    rw [h1, List.findSome?_cons]
    cases f <;> cases errorOf r <;> rfl
  | write m k r tr a _ ih =>
    intro rest f more
    obtain ⟨more', h1⟩ := ih rest (f.or (errorOf r)) (more || f.isSome)
    refine ⟨more', ?_⟩
    simp only [Talk.run, watch, scripted, List.map_cons, List.cons_append, List.headD_cons, List.tail_cons] at h1 ⊢
    rw [h1, List.findSome?_cons]
    cases f <;> cases errorOf r <;> rfl

theorem path_unwinds {α : Type} [Crash α] (T : Talk α) (tr : List (Option Message × MRes)) (a : α) (h : T.Path tr a) : T.Unwinds → ¬ Crash.crash a →
    ∀ x ∈ tr, x.2 ≠ .panic := by
  induction h with
  | ret a => intro _ _ x hx; simp at hx
  | read k r tr a hp ih =>
    intro hu hc x hx
    rcases List.mem_cons.mp hx with rfl | hx
    · rintro rfl
      obtain ⟨⟨b, h1, h2⟩, -⟩ := hu
      rw [h1] at hp
      cases hp
      exact hc h2
    · exact ih (hu.2 r) hc x hx
  | write m k r tr a hp ih =>
    intro hu hc x hx
    rcases List.mem_cons.mp hx with rfl | hx
    · rintro rfl
      obtain ⟨⟨b, h1, h2⟩, -⟩ := hu
      rw [h1] at hp
      cases hp
      exact hc h2
    · exact ih (hu.2 r) hc x hx

theorem path_says {α : Type} (Q : Message → Prop) (T : Talk α) (tr : List (Option Message × MRes)) (a : α) (h : T.Path tr a) : T.Says Q →
    ∀ m r, (some m, r) ∈ tr → Q m := by
  induction h with
  | ret a => intro _ m r hx; simp at hx
  | read k r tr a hp ih =>
    intro hs m r' hx
    rcases List.mem_cons.mp hx with hx | hx
    · simp at hx
    · exact ih (hs r) m r' hx
  | write m k r tr a hp ih =>
    intro hs m' r' hx
    rcases List.mem_cons.mp hx with hx | hx
    · simp only [Prod.mk.injEq, Option.some.injEq] at hx
      rw [hx.1]; exact hs.1
    · exact ih (hs.2 r) m' r' hx

/-- The steps along a path without errors. -/
theorem along_parts (retries : Nat) (Q : Message → Prop) (tr : List (Option Message × MRes)) (h : List Own) (ha : Along retries tr h) :
    (∀ x ∈ tr, x.2 ≠ .panic ∧ errorOf x.2 = none) → (∀ m r, (some m, r) ∈ tr → Q m) →
    ∃ parts : List (Option Message × List Own), h = (parts.map Prod.snd).flatten ∧ parts.filterMap Prod.fst = tr.filterMap Prod.fst ∧
      (∀ m g, (some m, g) ∈ parts → Q m ∧ Delivered retries m g) ∧ ∀ g, (none, g) ∈ parts → ∃ p x, g = [.message (.packet p)] ∧ Received p x := by
  induction ha with
  | done => intro _ _; exact ⟨[], rfl, rfl, by simp, by simp⟩
  | read r tr h _ ih =>
    intro he hq
    obtain ⟨parts, h1, h2, h3, h4⟩ := ih (fun x hx => he x (List.mem_cons_of_mem _ hx)) fun m r hx => hq m r (List.mem_cons_of_mem _ hx)
    refine ⟨(none, [.message r]) :: parts, by rw [h1]; rfl, h2, fun m g hx => ?_, fun g hx => ?_⟩
    · rcases List.mem_cons.mp hx with hx | hx
      · simp at hx
      · exact h3 m g hx
    · rcases List.mem_cons.mp hx with hx | hx
      · have h5 := he (none, readOf r) (List.mem_cons_self ..)
        simp only [Prod.mk.injEq, true_and] at hx
        cases r with
        | packet p => exact ⟨p, _, hx, Prod.ext rfl h5.2⟩
        | closed => exact absurd rfl h5.1
        | timeout => simp [readOf, errorOf] at h5
      · exact h4 g hx
  | write m r tr g h hd _ ih =>
    intro he hq
    obtain ⟨parts, h1, h2, h3, h4⟩ := ih (fun x hx => he x (List.mem_cons_of_mem _ hx)) fun m r hx => hq m r (List.mem_cons_of_mem _ hx)
    refine ⟨(some m, g) :: parts, by rw [h1]; rfl, by simp [h2], fun m' g' hx => ?_, fun g' hx => ?_⟩
    · rcases List.mem_cons.mp hx with hx | hx
      · simp only [Prod.mk.injEq, Option.some.injEq] at hx
        rw [hx.1, hx.2]
        refine ⟨hq m r (List.mem_cons_self ..), ?_⟩
        have h5 := he (some m, r) (List.mem_cons_self ..)
        rcases r with ⟨a, e⟩ | _
        · exact hd a (by rw [show e = none from h5.2])
        · exact absurd rfl h5.1
      · exact h3 m' g' hx
    · rcases List.mem_cons.mp hx with hx | hx
      · simp at hx
      · exact h4 g' hx

/-! ### C203 -/

/-- C203: a call on a device made by one of several goroutines that share a PLM, whatever the others do and however the steps are interleaved:
* at every moment, all it has written are requests to send messages to its own device, with the commands documented for the call;
* and not more of them than the call sends messages, times the number of attempts;
* when it reports success, what it did is exactly: for every message, the request, the modem's confirmation of this request, and an acknowledgement from its own device, and
  besides that only reading received messages;
* and what it comes to is what the call by itself comes to in the world as the goroutine sees it. -/
theorem device_calls_shared (info : DeviceInfo) (c : DeviceCall) (retries fuel : Nat) :
    ∃ P : Prog (Option (Out (Option Err))), IsCall info c retries fuel P ∧
      ∀ (progs : List (Prog (Option (Out (Option Err))))) (es : List SharedEv) (i : Nat), progs[i]? = some P →
        let t := Team.run panicked (Team.init panicked progs) es
        (∀ b ∈ written i t.2, ∃ m, (m.dst = c.target info ∧ opcode m ∈ c.vocabulary ∧ (c.Asks → IsQuestion m)) ∧ b = request m) ∧
        (written i t.2).length ≤ c.most * (retries + 1) ∧
        (t.1.result i = some (some (.ok none)) → ∃ parts : List (Option Message × List Own),
          stepsBy i t.2 = (parts.map Prod.snd).flatten ∧ (parts.filterMap Prod.fst).length ≤ c.most ∧
          (∀ m g, (some m, g) ∈ parts → m.dst = c.target info ∧ Delivered retries m g) ∧
          ∀ g, (none, g) ∈ parts → ∃ p x, g = [.message (.packet p)] ∧ Received p x) ∧
        ∀ r, t.1.result i = some (some r) →
          ∃ w, c.report info (overModem (teamView panicked i) retries fuel) fuel ⟨(Team.init panicked progs, es), false⟩ = some (⟨w, false⟩, r) := by
  obtain ⟨T, hs, hu, hr⟩ := calls_are_talks info fuel c
  have hcall : IsCall info c retries fuel (T.wired retries fuel) := by
    intro σ io s s' r
    have hw := wired_run io retries fuel T s
    have ht := hr _ (overModem io retries fuel) ⟨s, false⟩
    rcases hx : c.report info (overModem io retries fuel) fuel ⟨s, false⟩ with _ | ⟨w, r'⟩
    · have h1 := ht.2 hx
      refine ⟨fun h => ?_, fun h => by simp at h⟩
      split_ifs at hw
      · rw [h] at hw; simp at hw
      · rw [h, h1] at hw; simp at hw
    · have h1 := ht.1 _ _ hx
      rw [h1] at hw
      dsimp only at hw
      rcases w with ⟨w, l⟩
      cases l with
      | true =>
        rw [if_pos rfl] at hw
        refine ⟨fun h => by rw [h] at hw; simp at hw, fun h => by simp at h⟩
      | false =>
        rw [if_neg (by simp)] at hw
        rw [hw]
        simp
  have hmost : T.AtMost c.most := by
    refine at_most T _ hu fun tr a hp => ?_
    have h1 := path_record T tr _ hp [] []
    have ht := hr _ (record scripted) ⟨tr.map Prod.snd ++ [], []⟩
    rcases hx : c.report info (record scripted) fuel ⟨tr.map Prod.snd ++ [], []⟩ with _ | ⟨w, r⟩
    · have := ht.2 hx; rw [h1] at this; simp at this
    · have h2 := ht.1 _ _ hx
      rw [h1] at h2
      simp only [Prod.mk.injEq, List.nil_append, Option.some.injEq] at h2
      have h3 := report_run info (record scripted) fuel ⟨tr.map Prod.snd ++ [], []⟩ c
      rw [hx, ← h2.1] at h3
      exact (call_traffic scripted info fuel _ c _ _ h3).1
  refine ⟨T.wired retries fuel, hcall, fun progs es i hP => ?_⟩
  obtain ⟨R, h1, h2⟩ := Team.follow_own panicked i es (Team.init panicked progs) _ hP
  obtain ⟨h3, h4⟩ := wired_bytes retries fuel _ T c.most _ R hs hmost h2
  rw [written_own] at h3 h4
  refine ⟨h3, h4, fun hres => ?_, fun r hres => ?_⟩
  · have h5 := Team.result_ret _ _ _ hres
    rw [h1] at h5
    simp only [Option.some.injEq] at h5
    rw [h5] at h2
    obtain ⟨tr, h6, h7⟩ := wired_path retries fuel T _ _ h2
    have hnopanic := path_unwinds T tr _ h6 hu (fun h => h)
    have herr : ∀ x ∈ tr, errorOf x.2 = none := by
      obtain ⟨more', h8⟩ := path_watch T tr _ h6 [] none false
      have ht := hr _ (watch scripted) ⟨tr.map Prod.snd ++ [], none, false⟩
      rcases hx : c.report info (watch scripted) fuel ⟨tr.map Prod.snd ++ [], none, false⟩ with _ | ⟨w, r⟩
      · have := ht.2 hx; rw [h8] at this; simp at this
      · have h9 := ht.1 _ _ hx
        rw [h8] at h9
        simp only [Prod.mk.injEq, Option.some.injEq] at h9
        rw [← h9.2] at hx
        have h10 := success_means_success scripted info fuel _ c w hx
        rw [← h9.1] at h10
        simpa using h10
    obtain ⟨parts, h8, h9, h10, h11⟩ := along_parts retries _ tr _ h7 (fun x hx => ⟨hnopanic x hx, herr x hx⟩) (path_says _ T tr _ h6 hs)
    refine ⟨parts, h8, ?_, fun m g hx => ⟨(h10 m g hx).1.1, (h10 m g hx).2⟩, h11⟩
    rw [h9]
    have h12 := path_record T tr _ h6 [] []
    have ht := hr _ (record scripted) ⟨tr.map Prod.snd ++ [], []⟩
    rcases hx : c.report info (record scripted) fuel ⟨tr.map Prod.snd ++ [], []⟩ with _ | ⟨w, r⟩
    · have := ht.2 hx; rw [h12] at this; simp at this
    · have h13 := ht.1 _ _ hx
      rw [h12] at h13
      simp only [Prod.mk.injEq, List.nil_append, Option.some.injEq] at h13
      have h14 := report_run info (record scripted) fuel ⟨tr.map Prod.snd ++ [], []⟩ c
      rw [hx, ← h13.1] at h14
      exact (call_traffic scripted info fuel _ c _ _ h14).1
  · have h5 := Team.team_alone panicked progs es i _ (some r) hP hres
    refine ⟨((T.wired retries fuel).run (teamView panicked i) (Team.init panicked progs, es)).1, ?_⟩
    rw [← hcall]
    exact Prod.ext rfl h5

/-! ### Runs that succeed -/

/-- A world that lets a program do certain steps only; nothing if it does others. -/
def onlySteps : PlmIO (Option (List Own)) where
  tx s b := match s with
    | some (.wrote b' err :: h) => if b' = b then (some h, err) else (none, none)
    | _ => (none, none)
  rxPacket s := match s with
    | some (.packet r :: h) => (some h, r)
    | _ => (none, .timeout)
  rxMsg s := match s with
    | some (.message r :: h) => (some h, r)
    | _ => (none, .timeout)

theorem only_none {α : Type} (P : Prog α) : (P.run onlySteps none).1 = none := by
  induction P with
  | ret a => rfl
  | tx b k ih => exact ih _
  | rxPacket k ih => exact ih _
  | rxMsg k ih => exact ih _

theorem only_follow {α : Type} (P : Prog α) : ∀ h a, P.run onlySteps (some h) = (some [], a) → P.follow h = some (.ret a) := by
  induction P with
  | ret b =>
    intro h a hx
    simp only [Prog.run, Prod.mk.injEq, Option.some.injEq] at hx
    rw [hx.1, hx.2]; rfl
  | tx b k ih =>
    intro h a hx
    have bad : ∀ r, (k r).run onlySteps none = (some [], a) → False := fun r hr => by have := only_none (k r); rw [hr] at this; simp at this
    rcases h with _ | ⟨b' | _ | _, h⟩
    · exact (bad _ hx).elim
    · simp only [Prog.run, onlySteps] at hx
      by_cases hb : b' = b
      · rw [if_pos hb] at hx
        rw [Prog.follow, if_pos hb]
        exact ih _ h a hx
      · rw [if_neg hb] at hx
        exact (bad _ hx).elim
    · exact (bad _ hx).elim
    · exact (bad _ hx).elim
  | rxPacket k ih =>
    intro h a hx
    have bad : ∀ r, (k r).run onlySteps none = (some [], a) → False := fun r hr => by have := only_none (k r); rw [hr] at this; simp at this
    rcases h with _ | ⟨_ | r | _, h⟩
    · exact (bad _ hx).elim
    · exact (bad _ hx).elim
    · exact ih r h a hx
    · exact (bad _ hx).elim
  | rxMsg k ih =>
    intro h a hx
    have bad : ∀ r, (k r).run onlySteps none = (some [], a) → False := fun r hr => by have := only_none (k r); rw [hr] at this; simp at this
    rcases h with _ | ⟨_ | _ | r, h⟩
    · exact (bad _ hx).elim
    · exact (bad _ hx).elim
    · exact (bad _ hx).elim
    · exact ih r h a hx

/-- The events with which goroutines do certain steps, one after the other. -/
def playing : List (Nat × Own) → List SharedEv
  | [] => []
  | (i, .wrote _ err) :: l => .go i false err :: playing l
  | (i, .packet (.packet p)) :: l => .arrive p :: .go i false none :: playing l
  | (i, .message (.packet p)) :: l => .arrive p :: .go i false none :: playing l
  | (i, _) :: l => .go i true none :: playing l

/-- The steps of one goroutine among them. -/
def stepsOf (i : Nat) (l : List (Nat × Own)) : List Own := l.filterMap fun x => if x.1 = i then some x.2 else none

/-- Packets are read from where they are kept. -/
def Playable (l : List (Nat × Own)) : Prop := ∀ x ∈ l, match x.2 with
  | .wrote _ _ => True
  | .packet (.packet p) => Port.isMsg p = false
  | .message (.packet p) => Port.isMsg p = true
  | .packet r => r = .timeout
  | .message r => r = .timeout

theorem plays {α : Type} (dead : α → Bool) (want : Nat → α) (hw : ∀ i, dead (want i) = false) (l : List (Nat × Own)) : ∀ (s : Team α), s.down = false →
    s.port = Port.init → (∀ x ∈ l, x.1 < s.progs.length) → Playable l → (∀ (i : Nat) (P : Prog α), s.progs[i]? = some P → P.follow (stepsOf i l) = some (.ret (want i))) →
    ∀ i : Nat, i < s.progs.length → (Team.run dead s (playing l)).1.result i = some (want i) := by
  induction l with
  | nil =>
    intro s _ _ _ _ hf i hi
    have := hf i s.progs[i] (by simp [hi])
    simp only [stepsOf, List.filterMap_nil, Prog.follow, Option.some.injEq] at this
    simp only [playing, Team.run, Team.result, List.getElem?_eq_getElem hi, Option.bind_some, this, Prog.value]
  | cons x l ih =>
    intro s hd hp hl hpl hf i hi
    obtain ⟨j, o⟩ := x
    have hj : j < s.progs.length := hl (j, o) (List.mem_cons_self ..)
    have hl' : ∀ x ∈ l, x.1 < s.progs.length := fun x hx => hl x (List.mem_cons_of_mem _ hx)
    have hpl' : Playable l := fun x hx => hpl x (List.mem_cons_of_mem _ hx)
    have hPj : s.progs[j]? = some s.progs[j] := by simp [hj]
    have hfj := hf j _ hPj
    have own : stepsOf j ((j, o) :: l) = o :: stepsOf j l := by simp [stepsOf]
    have other : ∀ n, n ≠ j → stepsOf n ((j, o) :: l) = stepsOf n l := fun n hn => by simp [stepsOf, Ne.symm hn]
    rw [own] at hfj
    -- after the step
    have next : ∀ P1, P1.follow (stepsOf j l) = some (.ret (want j)) →
        (Team.run dead (s.set dead j P1 Port.init) (playing l)).1.result i = some (want i) := by
      intro P1 h1
      refine ih (s.set dead j P1 Port.init) ?_ rfl (by simpa [Team.set] using hl') hpl' (fun n P hn => ?_) i (by simpa [Team.set] using hi)
      · cases P1 with
        | ret a =>
          rcases hs : stepsOf j l with _ | ⟨o', h'⟩ <;> rw [hs] at h1 <;> simp [Prog.follow] at h1
          simp [Team.set, Team.crashed, Prog.value, h1, hw]
        | _ => rfl
      · by_cases hnj : n = j
        · subst hnj
          simp only [Team.set, List.getElem?_set, hj, if_true, Option.some.injEq] at hn
          rw [← hn]; exact h1
        · simp only [Team.set] at hn
          rw [List.getElem?_set_ne (Ne.symm hnj)] at hn
          have := hf n P hn
          rwa [other n hnj] at this
    have hpl0 := hpl (j, o) (List.mem_cons_self ..)
    cases hP : s.progs[j] with
    | ret a => rw [hP] at hfj; simp [Prog.follow] at hfj
    | tx b k =>
      rw [hP] at hfj hPj
      rcases o with ⟨b', err⟩ | r | r
      · simp only [Prog.follow] at hfj
        by_cases hb : b' = b
        · rw [if_pos hb] at hfj
          have hs : Team.step dead s (.go j false err) = (s.set dead j (k err) Port.init, .wrote j b err) := by
            simp only [Team.step, hd, hPj, hp]; rfl
          simp only [playing, Team.run, hs]
          exact next _ hfj
        · rw [if_neg hb] at hfj; simp at hfj
      · simp [Prog.follow] at hfj
      · simp [Prog.follow] at hfj
    | rxPacket k =>
      rw [hP] at hfj hPj
      rcases o with ⟨b', err⟩ | r | r
      · simp [Prog.follow] at hfj
      · simp only [Prog.follow] at hfj
        cases r with
        | packet p =>
          have hm : Port.isMsg p = false := hpl0
          have h1 : Team.step dead s (.arrive p) = ({ s with port := ⟨[], [p], false⟩ }, .queued p) := by
            simp [Team.step, hd, Team.arrival, hp, Port.step, Port.init, hm, Port.cap]
          have h2 : Team.step dead { s with port := ⟨[], [p], false⟩ } (.go j false none) = (s.set dead j (k (.packet p)) Port.init, .tookPkt j (.packet p)) := by
            simp only [Team.step, hd, hPj]; rfl
          simp only [playing, Team.run, h1, h2]
          exact next _ hfj
        | closed => exact absurd hpl0 (by simp)
        | timeout =>
          have h2 : Team.step dead s (.go j true none) = (s.set dead j (k .timeout) Port.init, .tookPkt j .timeout) := by
            simp only [Team.step, hd, hPj, hp]; rfl
          simp only [playing, Team.run, h2]
          exact next _ hfj
      · simp [Prog.follow] at hfj
    | rxMsg k =>
      rw [hP] at hfj hPj
      rcases o with ⟨b', err⟩ | r | r
      · simp [Prog.follow] at hfj
      · simp [Prog.follow] at hfj
      · simp only [Prog.follow] at hfj
        cases r with
        | packet p =>
          have hm : Port.isMsg p = true := hpl0
          have h1 : Team.step dead s (.arrive p) = ({ s with port := ⟨[p], [], false⟩ }, .queued p) := by
            simp [Team.step, hd, Team.arrival, hp, Port.step, Port.init, hm, Port.cap]
          have h2 : Team.step dead { s with port := ⟨[p], [], false⟩ } (.go j false none) = (s.set dead j (k (.packet p)) Port.init, .tookMsg j (.packet p)) := by
            simp only [Team.step, hd, hPj]; rfl
          simp only [playing, Team.run, h1, h2]
          exact next _ hfj
        | closed => exact absurd hpl0 (by simp)
        | timeout =>
          have h2 : Team.step dead s (.go j true none) = (s.set dead j (k .timeout) Port.init, .tookMsg j .timeout) := by
            simp only [Team.step, hd, hPj, hp]; rfl
          simp only [playing, Team.run, h2]
          exact next _ hfj

/-- Two goroutines: one turns the light 11.22.33 on, the other turns 44.55.66 off. -/
def onOff : List (Nat × Own) :=
  [(0, .wrote [0x02, 0x62, 0x11, 0x22, 0x33, 0x0f, 0x11, 0x7f] none),
   (1, .wrote [0x02, 0x62, 0x44, 0x55, 0x66, 0x0f, 0x13, 0x00] none),
   (0, .packet (.packet ⟨0x62#8, [0, 0, 0, 0x11, 0x22, 0x33, 0x0f, 0x11, 0x7f], 0x06#8⟩)),
   (1, .packet (.packet ⟨0x62#8, [0, 0, 0, 0x44, 0x55, 0x66, 0x0f, 0x13, 0x00], 0x15#8⟩)),
   (1, .wrote [0x02, 0x62, 0x44, 0x55, 0x66, 0x0f, 0x13, 0x00] none),
   (0, .message (.packet ⟨0x50#8, [0x77, 0x22, 0x33, 0x01, 0x02, 0x03, 0x2b, 0x11, 0x7f], 0#8⟩)),
   (1, .packet (.packet ⟨0x62#8, [0, 0, 0, 0x44, 0x55, 0x66, 0x0f, 0x13, 0x00], 0x06#8⟩)),
   (0, .message (.packet ⟨0x50#8, [0x11, 0x22, 0x33, 0x01, 0x02, 0x03, 0x2b, 0x11, 0x7f], 0#8⟩)),
   (1, .message (.packet ⟨0x50#8, [0x44, 0x55, 0x66, 0x01, 0x02, 0x03, 0x2b, 0x13, 0x00], 0#8⟩))]

/-- The hypotheses can be met with several goroutines whose steps are interleaved, a modem that is busy and messages from other devices: both calls report success. -/
example : ∀ P Q : Prog (Option (Out (Option Err))), IsCall ⟨0x112233#32, (1, 0), 0, 1⟩ (.turnOn 0x7f) (3 : Nat) 5 P → IsCall ⟨0x445566#32, (1, 0), 0, 1⟩ .turnOff (3 : Nat) 5 Q →
    ∀ i < 2, (Team.run panicked (Team.init panicked [P, Q]) (playing onOff)).1.result i = some (some (.ok none)) := by
  intro P Q hP hQ
  have h0 : P.follow (stepsOf 0 onOff) = some (.ret (some (.ok none))) := only_follow P _ _ ((hP _ onlySteps (some (stepsOf 0 onOff)) (some []) (.ok none)).mpr (by decide +kernel))
  have h1 : Q.follow (stepsOf 1 onOff) = some (.ret (some (.ok none))) := only_follow Q _ _ ((hQ _ onlySteps (some (stepsOf 1 onOff)) (some []) (.ok none)).mpr (by decide +kernel))
  have alive : Team.crashed panicked P = false ∧ Team.crashed panicked Q = false := by
    constructor
    · cases P with
      | ret a => simp [stepsOf, onOff, Prog.follow] at h0
      | _ => rfl
    · cases Q with
      | ret a => simp [stepsOf, onOff, Prog.follow] at h1
      | _ => rfl
  refine plays panicked (fun _ => some (.ok none)) (fun _ => rfl) onOff (Team.init panicked [P, Q])
    (by simp [Team.init, alive]) rfl (by simp [onOff, Team.init]) (by simp [Playable, onOff]; decide) ?_
  intro i R hR
  match i with
  | 0 => simp only [Team.init, List.getElem?_cons_zero, Option.some.injEq] at hR; rw [← hR]; exact h0
  | 1 => simp only [Team.init, List.getElem?_cons_succ, List.getElem?_cons_zero, Option.some.injEq] at hR; rw [← hR]; exact h1
  | n + 2 => simp [Team.init] at hR

end Insteon
