import Verif.Spec.ModemCmd
import Verif.Props.Plm
import Verif.Props.IcDevice
import Verif.Props.Names

/-
C152 to C156: the commands to the modem.
-/

namespace Insteon
open Spec

/-! ### C152: what is sent -/

theorem logged_write {σ : Type} (io : PlmIO σ) (s : σ) (log : List Bytes) (pkt : Packet) :
    Plm.writePacket (logged io) (s, log) pkt =
      (((Plm.writePacket io s pkt).1, log ++ [pkt.marshalBinary]), (Plm.writePacket io s pkt).2) := by
  simp only [Plm.writePacket, logged]
  rcases io.tx s pkt.marshalBinary with ⟨s1, _ | e⟩
  · dsimp only
    rcases io.rxPacket s1 with ⟨s2, p | _ | _⟩
    · dsimp only
      rcases Plm.checkAck pkt p with e | e | _ <;> rfl
    · rfl
    · rfl
  · rfl

theorem logged_retryLoop {σ : Type} (io : PlmIO σ) (ig : Bool) (pkt : Packet) (n : Nat) : ∀ (s : σ) (log : List Bytes) (cur : PRes),
    ∃ k ≤ n, (0 < n → 1 ≤ k) ∧ retryLoop (Plm.writePacket (logged io)) ig pkt n (s, log) cur =
      (((retryLoop (Plm.writePacket io) ig pkt n s cur).1, log ++ List.replicate k pkt.marshalBinary),
        (retryLoop (Plm.writePacket io) ig pkt n s cur).2) := by
  induction n with
  | zero => intro s log cur; exact ⟨0, Nat.le_refl _, by omega, by simp [retryLoop]⟩
  | succ n ih =>
    intro s log cur
    simp only [retryLoop, logged_write]
    rcases Plm.writePacket io s pkt with ⟨s1, ⟨a, e⟩ | _⟩
    · dsimp only
      by_cases h : retryable ig e = true
      · rw [if_pos h, if_pos h]
        obtain ⟨k, hk, -, h2⟩ := ih s1 (log ++ [pkt.marshalBinary]) (.ret a e)
        refine ⟨k + 1, by omega, by omega, ?_⟩
        rw [h2, List.append_assoc]
        rfl
      · rw [if_neg h, if_neg h]
        exact ⟨1, by omega, by omega, rfl⟩
    · exact ⟨1, by omega, by omega, rfl⟩

theorem logged_retry {σ : Type} (io : PlmIO σ) (retries : Nat) (ig : Bool) (pkt : Packet) (s : σ) (log : List Bytes) :
    ∃ k, 1 ≤ k ∧ k ≤ retries + 1 ∧ retryWrite (Plm.writePacket (logged io)) retries ig (s, log) pkt =
      (((retryWrite (Plm.writePacket io) retries ig s pkt).1, log ++ List.replicate k pkt.marshalBinary),
        (retryWrite (Plm.writePacket io) retries ig s pkt).2) := by
  have : ((retries : Int) + 1).toNat = retries + 1 := by omega
  obtain ⟨k, h1, h2, h3⟩ := logged_retryLoop io ig pkt (retries + 1) s log (.ret none none)
  refine ⟨k, h2 (by omega), h1, ?_⟩
  simp only [retryWrite, this]
  exact h3

theorem config_mask (c : Config) : c.marshalBinary = [BitVec.ofNat 8 (c.toNat / 16 * 16)] := by
  revert c; decide +kernel

/-- C152: a command to the modem writes its documented bytes and nothing else, as often as the command is sent: at least once, not more than the number
of retries allows, and once only for the linking modes. Calls that are not implemented write nothing and say so. Writing the record does not
change what happens. -/
theorem modem_command_bytes {σ : Type} (io : PlmIO σ) (retries : Nat) (c : ModemCall) (s : σ) (log : List Bytes) :
    ∃ k ≤ attempts retries c, (0 < attempts retries c → 1 ≤ k) ∧
      c.exec (logged io) retries (s, log) =
        (((c.exec io retries s).1, log ++ List.replicate k ((frameOf c).getD [])), (c.exec io retries s).2) ∧
      (frameOf c = none → (c.exec io retries s).1 = s ∧ ∃ e, (c.exec io retries s).2 = .ok (some e)) := by
  cases c with
  | info =>
    obtain ⟨k, h1, h2, h3⟩ := logged_retry io retries true ⟨PCmd.getInfo, [], 0#8⟩ s log
    refine ⟨k, h2, fun _ => h1, ?_, by simp [frameOf]⟩
    simp only [ModemCall.exec, Plm.info, h3]
    rcases retryWrite (Plm.writePacket io) retries true s ⟨PCmd.getInfo, [], 0#8⟩ with ⟨s1, ⟨_ | a, _ | e⟩ | _⟩ <;> try rfl
    dsimp only
    rcases Info.unmarshalBinary a.payload with i | e | _ <;> rfl
  | reset =>
    obtain ⟨k, h1, h2, h3⟩ := logged_retry io retries true ⟨PCmd.reset, [], 0#8⟩ s log
    refine ⟨k, h2, fun _ => h1, ?_, by simp [frameOf]⟩
    simp only [ModemCall.exec, Plm.reset, h3]
    rcases retryWrite (Plm.writePacket io) retries true s ⟨PCmd.reset, [], 0#8⟩ with ⟨s1, ⟨_ | a, _ | e⟩ | _⟩ <;> rfl
  | config =>
    obtain ⟨k, h1, h2, h3⟩ := logged_retry io retries true ⟨PCmd.getConfig, [], 0#8⟩ s log
    refine ⟨k, h2, fun _ => h1, ?_, by simp [frameOf]⟩
    simp only [ModemCall.exec, Plm.config, h3]
    rcases retryWrite (Plm.writePacket io) retries true s ⟨PCmd.getConfig, [], 0#8⟩ with ⟨s1, ⟨_ | a, _ | e⟩ | _⟩ <;> rfl
  | setConfig c =>
    obtain ⟨k, h1, h2, h3⟩ := logged_retry io retries true ⟨PCmd.setConfig, c.marshalBinary, 0#8⟩ s log
    refine ⟨k, h2, fun _ => h1, ?_, by simp [frameOf]⟩
    simp only [ModemCall.exec, Plm.setConfig, h3, frameOf, Option.getD_some]
    have hb : Packet.marshalBinary ⟨PCmd.setConfig, c.marshalBinary, 0#8⟩ = [0x02, 0x6b, BitVec.ofNat 8 (c.toNat / 16 * 16)] := by
      show 0x02#8 :: 0x6b#8 :: c.marshalBinary = _
      rw [config_mask]; rfl
    rw [hb]
    rcases retryWrite (Plm.writePacket io) retries true s ⟨PCmd.setConfig, c.marshalBinary, 0#8⟩ with ⟨s1, ⟨_ | a, _ | e⟩ | _⟩ <;> rfl
  | enterLinking g =>
    refine ⟨1, Nat.le_refl _, fun _ => Nat.le_refl _, ?_, by simp [frameOf]⟩
    simp only [ModemCall.exec, PlmLinks.enterLinkingMode, Plm.asWriter, logged_write]
    rfl
  | exitLinking =>
    refine ⟨1, Nat.le_refl _, fun _ => Nat.le_refl _, ?_, by simp [frameOf]⟩
    simp only [ModemCall.exec, PlmLinks.exitLinkingMode, Plm.asWriter, logged_write]
    rfl
  | enterUnlinking g =>
    refine ⟨1, Nat.le_refl _, fun _ => Nat.le_refl _, ?_, by simp [frameOf]⟩
    simp only [ModemCall.exec, PlmLinks.enterUnlinkingMode, Plm.asWriter, logged_write]
    rfl
  | setCategory _ => exact ⟨0, Nat.le_refl _, by simp [attempts], by simp [ModemCall.exec], fun _ => ⟨rfl, _, rfl⟩⟩
  | rfSleep => exact ⟨0, Nat.le_refl _, by simp [attempts], by simp [ModemCall.exec], fun _ => ⟨rfl, _, rfl⟩⟩
  | updateLinks _ => exact ⟨0, Nat.le_refl _, by simp [attempts], by simp [ModemCall.exec], fun _ => ⟨rfl, _, rfl⟩⟩

/-- C177: `ic plm reset` without the user's consent writes nothing, changes nothing and reports no error; with it the reset command is
written, at least once and not more often than the retries allow, and nothing else. -/
theorem reset_command {σ : Type} (io : PlmIO σ) (retries : Nat) (s : σ) (log : List Bytes) :
    Ic.resetCmd (logged io) retries false (s, log) = ((s, log), .ok none) ∧
    ∃ k, 1 ≤ k ∧ k ≤ retries + 1 ∧ (Ic.resetCmd (logged io) retries true (s, log)).1.2 = log ++ List.replicate k [0x02, 0x67] := by
  refine ⟨rfl, ?_⟩
  obtain ⟨k, h1, h2, h3, -⟩ := modem_command_bytes io retries .reset s log
  refine ⟨k, h2 (by simp [attempts]), h1, ?_⟩
  have : Ic.resetCmd (logged io) retries true (s, log) = ModemCall.reset.exec (logged io) retries (s, log) := rfl
  rw [this, h3]
  rfl

/-- A modem that answers everything with its echo and a positive status. -/
example : (((ModemCall.enterLinking 0x05#8).exec (logged echoIO) 3 ([], [])).1.2 = [[0x02, 0x64, 0x03, 0x05]]) ∧
    ((ModemCall.enterLinking 0x05#8).exec (logged echoIO) 3 ([], [])).2 = .ok none := by decide

/-- A modem that is silent: the command is sent once, since the timeout is not one that is tried again (C31). -/
example : ((ModemCall.setConfig 0x4f#8).exec (logged (σ := Unit) ⟨fun _ _ => ((), none), fun _ => ((), .timeout), fun _ => ((), .timeout)⟩) 3 ((), [])).1.2 =
    [[0x02, 0x6b, 0x40]] := by decide

/-- A modem that refuses: the command is sent four times. -/
example : ((ModemCall.reset).exec (logged (σ := Unit) ⟨fun _ _ => ((), none), fun _ => ((), .packet ⟨0x67, [], 0x15⟩), fun _ => ((), .timeout)⟩) 3 ((), [])) =
    (((), List.replicate 4 [0x02, 0x67]), .ok (some .plmNak)) := by decide

/-! ### C153: what success and failure mean -/

theorem retry_success {σ : Type} (w : σ → Packet → σ × PRes) (retries : Nat) (ig : Bool) (pkt : Packet) (s s' : σ) (a : Option Packet)
    (h : retryWrite w retries ig s pkt = (s', .ret a none)) : ∃ s0, w s0 pkt = (s', .ret a none) := by
  obtain ⟨k, -, h1, -⟩ := retry_bounded w retries ig pkt s
  rw [h1] at h
  refine ⟨after w pkt s k, ?_⟩
  rw [← h]
  rfl

theorem retry_at_once {σ : Type} (w : σ → Packet → σ × PRes) (retries : Nat) (ig : Bool) (pkt : Packet) (s s' : σ) (a : Option Packet)
    (h : w s pkt = (s', .ret a none)) : retryWrite w retries ig s pkt = (s', .ret a none) := by
  have : ((retries : Int) + 1).toNat = retries + 1 := by omega
  simp [retryWrite, this, retryLoop, h, retryable]

theorem retry_refused {σ : Type} (w : σ → Packet → σ × PRes) (retries : Nat) (pkt : Packet) (s : σ)
    (h : ∀ s, ∃ a, (w s pkt).2 = .ret a (some .plmNak)) : ∃ a, (retryWrite w retries true s pkt).2 = .ret a (some .plmNak) := by
  obtain ⟨k, -, h1, -⟩ := retry_bounded w retries true pkt s
  rw [h1]
  exact h _

theorem confirms_iff (pkt p : Packet) (h : pkt.command ≠ 0x62#8) (h60 : 0x60 ≤ pkt.command.toNat) :
    FaithfulAck pkt p ↔ Confirms (0x02#8 :: pkt.command :: pkt.payload) p := by
  simp only [FaithfulAck, Confirms, List.getElem?_cons_succ, List.getElem?_cons_zero, List.drop_succ_cons, List.drop_zero, Option.some.injEq]
  constructor
  · rintro ⟨h1, -, h3, h4⟩
    refine ⟨h3, h1.symm, fun h5 h6 => ?_⟩
    have := h4 h5 h6
    rwa [if_neg (by rw [h1]; exact h)] at this
  · rintro ⟨h1, h2, h3⟩
    refine ⟨h2.symm, h2 ▸ h60, h1, fun h5 h6 => ?_⟩
    rw [if_neg (by rw [← h2]; exact h)]
    exact h3 h5 h6

theorem write_confirmed {σ : Type} (io : PlmIO σ) (s s' : σ) (pkt : Packet) (a : Option Packet) (h : pkt.command ≠ 0x62#8)
    (h60 : 0x60 ≤ pkt.command.toNat) :
    Plm.writePacket io s pkt = (s', .ret a none) ↔ ∃ s1 p, io.tx s (0x02#8 :: pkt.command :: pkt.payload) = (s1, none) ∧
      io.rxPacket s1 = (s', .packet p) ∧ a = some p ∧ Confirms (0x02#8 :: pkt.command :: pkt.payload) p := by
  rw [writePacket_success]
  simp only [confirms_iff pkt _ h h60]

/-- The packet of a command. -/
def ModemCall.pkt : ModemCall → Option Packet
  | .info => some ⟨PCmd.getInfo, [], 0#8⟩
  | .reset => some ⟨PCmd.reset, [], 0#8⟩
  | .config => some ⟨PCmd.getConfig, [], 0#8⟩
  | .setConfig c => some ⟨PCmd.setConfig, c.marshalBinary, 0#8⟩
  | .enterLinking g => some ⟨PCmd.startAllLink, [0x03#8, g], 0#8⟩
  | .exitLinking => some ⟨PCmd.cancelAllLink, [], 0#8⟩
  | .enterUnlinking g => some ⟨PCmd.startAllLink, [0xff#8, g], 0#8⟩
  | _ => none

theorem pkt_frame (c : ModemCall) (pkt : Packet) (h : c.pkt = some pkt) :
    frameOf c = some (0x02#8 :: pkt.command :: pkt.payload) ∧ pkt.command ≠ 0x62#8 ∧ 0x60 ≤ pkt.command.toNat := by
  cases c <;> simp only [ModemCall.pkt, Option.some.injEq, reduceCtorEq] at h <;> subst h <;>
    first
    | exact ⟨rfl, by dsimp only; decide, by dsimp only; decide⟩
    | exact ⟨by simp only [frameOf, config_mask]; rfl, by dsimp only; decide, by dsimp only; decide⟩

theorem pkt_of_frame (c : ModemCall) (f : Bytes) (h : frameOf c = some f) : ∃ pkt, c.pkt = some pkt := by
  cases c <;> first | exact ⟨_, rfl⟩ | simp [frameOf] at h

theorem exec_success {σ : Type} (io : PlmIO σ) (retries : Nat) (c : ModemCall) (pkt : Packet) (hp : c.pkt = some pkt) (s s' : σ)
    (h : c.exec io retries s = (s', .ok none)) : ∃ s0 a, Plm.writePacket io s0 pkt = (s', .ret a none) := by
  have key : ∀ {s : σ} {s' : σ} {a}, retryWrite (Plm.writePacket io) retries true s pkt = (s', .ret a none) →
      ∃ s0 a, Plm.writePacket io s0 pkt = (s', .ret a none) := fun h => by
    obtain ⟨s0, h⟩ := retry_success _ _ _ _ _ _ _ h
    exact ⟨s0, _, h⟩
  cases c <;> simp only [ModemCall.pkt, Option.some.injEq, reduceCtorEq] at hp <;> subst hp
  · simp only [ModemCall.exec, Plm.info] at h
    rcases hw : retryWrite (Plm.writePacket io) retries true s ⟨PCmd.getInfo, [], 0#8⟩ with ⟨s1, ⟨_ | a, _ | e⟩ | _⟩ <;> rw [hw] at h <;>
      simp [Out.second] at h
    rcases hi : Info.unmarshalBinary a.payload with i | e | _ <;> rw [hi] at h <;> simp at h
    subst h
    exact key hw
  · simp only [ModemCall.exec, Plm.reset] at h
    rcases hw : retryWrite (Plm.writePacket io) retries true s ⟨PCmd.reset, [], 0#8⟩ with ⟨s1, ⟨a, _ | e⟩ | _⟩ <;> rw [hw] at h <;> simp at h
    subst h
    exact key hw
  · simp only [ModemCall.exec, Plm.config] at h
    rcases hw : retryWrite (Plm.writePacket io) retries true s ⟨PCmd.getConfig, [], 0#8⟩ with ⟨s1, ⟨_ | a, _ | e⟩ | _⟩ <;> rw [hw] at h <;>
      simp [Out.second] at h
    rcases h with ⟨rfl, -⟩
    exact key hw
  · rename_i c
    simp only [ModemCall.exec, Plm.setConfig] at h
    rcases hw : retryWrite (Plm.writePacket io) retries true s ⟨PCmd.setConfig, c.marshalBinary, 0#8⟩ with ⟨s1, ⟨a, _ | e⟩ | _⟩ <;>
      rw [hw] at h <;> simp at h
    subst h
    exact key hw
  all_goals
    simp only [ModemCall.exec, PlmLinks.enterLinkingMode, PlmLinks.exitLinkingMode, PlmLinks.enterUnlinkingMode, Plm.asWriter, allLinkReq,
      Prod.mk.injEq] at h
    obtain ⟨h1, h2⟩ := h
    refine ⟨s, ?_⟩
    rcases hw : Plm.writePacket io s _ with ⟨s1, ⟨a, e⟩ | _⟩ <;> rw [hw] at h1 h2 <;> simp [PRes.error] at h1 h2
    subst h1 h2
    exact ⟨a, rfl⟩

/-- C153: a command reports success only if the modem confirmed it: the last thing written was the documented frame, and the answer to it was the
same command with a positive status and, unless it is a question, the same contents. -/
theorem modem_command_success {σ : Type} (io : PlmIO σ) (retries : Nat) (c : ModemCall) (s s' : σ)
    (h : c.exec io retries s = (s', .ok none)) :
    ∃ frame s0 s1 p, frameOf c = some frame ∧ io.tx s0 frame = (s1, none) ∧ io.rxPacket s1 = (s', .packet p) ∧ Confirms frame p := by
  rcases hf : frameOf c with _ | frame
  · cases c <;> first | (simp [frameOf] at hf; done) | simp [ModemCall.exec, PlmLinks.updateLinks] at h
  · obtain ⟨pkt, hp⟩ := pkt_of_frame c frame hf
    obtain ⟨h1, h2, h3⟩ := pkt_frame c pkt hp
    rw [h1, Option.some.injEq] at hf
    subst hf
    obtain ⟨s0, a, hw⟩ := exec_success io retries c pkt hp s s' h
    obtain ⟨s1, p, h4, h5, -, h6⟩ := (write_confirmed io s0 s' pkt a h2 h3).mp hw
    exact ⟨_, s0, s1, p, rfl, h4, h5, h6⟩

/-- C177: with the user's consent the command reports success only if the modem confirmed the reset. -/
theorem reset_confirmed {σ : Type} (io : PlmIO σ) (retries : Nat) (s s' : σ) (h : Ic.resetCmd io retries true s = (s', .ok none)) :
    ∃ s0 s1 p, io.tx s0 [0x02, 0x67] = (s1, none) ∧ io.rxPacket s1 = (s', .packet p) ∧ Confirms [0x02, 0x67] p := by
  obtain ⟨frame, s0, s1, p, hf, h1, h2, h3⟩ := modem_command_success io retries .reset s s' h
  cases hf
  exact ⟨s0, s1, p, h1, h2, h3⟩

example : ∃ s', Ic.resetCmd echoIO 3 true [] = (s', .ok none) := ⟨_, rfl⟩

/-- C153: and it does report success if the modem confirms at once; the answers to questions have to carry something. -/
theorem modem_command_confirmed {σ : Type} (io : PlmIO σ) (retries : Nat) (c : ModemCall) (s s1 s' : σ) (frame : List (BitVec 8)) (p : Packet)
    (hf : frameOf c = some frame) (h1 : io.tx s frame = (s1, none)) (h2 : io.rxPacket s1 = (s', .packet p)) (h3 : Confirms frame p)
    (hi : c = .info → 6 ≤ p.payload.length) (hc : c = .config → 1 ≤ p.payload.length) :
    c.exec io retries s = (s', .ok none) := by
  obtain ⟨pkt, hp⟩ := pkt_of_frame c frame hf
  obtain ⟨g1, g2, g3⟩ := pkt_frame c pkt hp
  rw [g1, Option.some.injEq] at hf
  subst hf
  have hw := (write_confirmed io s s' pkt (some p) g2 g3).mpr ⟨s1, p, h1, h2, rfl, h3⟩
  have hr := retry_at_once _ retries true _ _ _ _ hw
  cases c <;> simp only [ModemCall.pkt, Option.some.injEq, reduceCtorEq] at hp <;> subst hp
  · simp only [ModemCall.exec, Plm.info, hr]
    have := hi rfl
    rcases hq : p.payload with _ | ⟨a0, _ | ⟨a1, _ | ⟨a2, _ | ⟨a3, _ | ⟨a4, _ | ⟨a5, l⟩⟩⟩⟩⟩⟩ <;> rw [hq] at this <;>
      simp only [List.length_cons, List.length_nil] at this <;> first | omega | rfl
  · simp only [ModemCall.exec, Plm.reset, hr]
  · simp only [ModemCall.exec, Plm.config, hr]
    have := hc rfl
    rcases hq : p.payload with _ | ⟨a0, l⟩
    · rw [hq] at this
      simp at this
    · rfl
  · simp only [ModemCall.exec, Plm.setConfig, hr]
  all_goals
    simp only [ModemCall.exec, PlmLinks.enterLinkingMode, PlmLinks.exitLinkingMode, PlmLinks.enterUnlinkingMode, Plm.asWriter, allLinkReq, hw,
      PRes.error]

theorem write_refused {σ : Type} (io : PlmIO σ) (s : σ) (pkt p : Packet) (h62 : pkt.command ≠ 0x62#8) (h60 : 0x60 ≤ pkt.command.toNat)
    (h1 : (io.tx s (0x02#8 :: pkt.command :: pkt.payload)).2 = none)
    (h2 : (io.rxPacket (io.tx s (0x02#8 :: pkt.command :: pkt.payload)).1).2 = .packet p) (h3 : p.command = pkt.command) (h4 : p.ack = 0x15#8) :
    (Plm.writePacket io s pkt).2 = .ret (some p) (some .plmNak) := by
  have hm : pkt.marshalBinary = 0x02#8 :: pkt.command :: pkt.payload := rfl
  unfold Plm.writePacket
  rw [hm]
  rcases htx : io.tx s (0x02#8 :: pkt.command :: pkt.payload) with ⟨s1, e⟩
  rw [htx] at h1 h2
  dsimp only at h1 h2
  subst h1
  dsimp only
  rcases hrx : io.rxPacket s1 with ⟨s2, r⟩
  rw [hrx] at h2
  dsimp only at h2
  subst h2
  dsimp only
  have hn : p.isNAK = true := (isNAK_iff p).mpr ⟨by rw [h3]; exact h60, h4⟩
  have : Plm.checkAck pkt p = .ok (some .plmNak) := by
    unfold Plm.checkAck
    have h62' : p.command ≠ PCmd.sendInsteonMsg := by rw [h3]; exact h62
    simp only [hn, Bool.not_true, Bool.and_false, Bool.false_eq_true, if_false, h3, ne_eq, not_true_eq_false, if_true]
    rw [h3] at h62'
    rw [if_neg h62']
    split_ifs <;> rfl
  rw [this]

/-- C153: if the modem refuses a command every time it is sent, the refusal is reported. -/
theorem modem_command_refused {σ : Type} (io : PlmIO σ) (retries : Nat) (c : ModemCall) (s : σ) (frame : List (BitVec 8))
    (hf : frameOf c = some frame) (h1 : ∀ s, (io.tx s frame).2 = none)
    (h2 : ∀ s, ∃ p, (io.rxPacket (io.tx s frame).1).2 = .packet p ∧ frame[1]? = some p.command ∧ p.ack = 0x15#8) :
    (c.exec io retries s).2 = .ok (some .plmNak) := by
  obtain ⟨pkt, hp⟩ := pkt_of_frame c frame hf
  obtain ⟨g1, g2, g3⟩ := pkt_frame c pkt hp
  rw [g1, Option.some.injEq] at hf
  subst hf
  have hw : ∀ s, ∃ a, (Plm.writePacket io s pkt).2 = .ret a (some .plmNak) := fun s => by
    obtain ⟨p, h3, h4, h5⟩ := h2 s
    exact ⟨_, write_refused io s pkt p g2 g3 (h1 s) h3 (by simpa using h4.symm) h5⟩
  have hr := retry_refused (Plm.writePacket io) retries pkt s hw
  obtain ⟨a, hr⟩ := hr
  obtain ⟨b, hw'⟩ := hw s
  clear hw
  cases c <;> simp only [ModemCall.pkt, Option.some.injEq, reduceCtorEq] at hp <;> subst hp
  · simp only [ModemCall.exec, Plm.info]
    rcases hq : retryWrite (Plm.writePacket io) retries true s ⟨PCmd.getInfo, [], 0#8⟩ with ⟨s1, r⟩
    rw [hq] at hr; dsimp only at hr; subst hr; cases a <;> rfl
  · simp only [ModemCall.exec, Plm.reset]
    rcases hq : retryWrite (Plm.writePacket io) retries true s ⟨PCmd.reset, [], 0#8⟩ with ⟨s1, r⟩
    rw [hq] at hr; dsimp only at hr; subst hr; cases a <;> rfl
  · simp only [ModemCall.exec, Plm.config]
    rcases hq : retryWrite (Plm.writePacket io) retries true s ⟨PCmd.getConfig, [], 0#8⟩ with ⟨s1, r⟩
    rw [hq] at hr; dsimp only at hr; subst hr; cases a <;> rfl
  · rename_i c
    simp only [ModemCall.exec, Plm.setConfig]
    rcases hq : retryWrite (Plm.writePacket io) retries true s ⟨PCmd.setConfig, c.marshalBinary, 0#8⟩ with ⟨s1, r⟩
    rw [hq] at hr; dsimp only at hr; subst hr; cases a <;> rfl
  all_goals
    simp only [ModemCall.exec, PlmLinks.enterLinkingMode, PlmLinks.exitLinkingMode, PlmLinks.enterUnlinkingMode, Plm.asWriter, allLinkReq, hw',
      PRes.error]

example : ((ModemCall.exitLinking).exec (σ := Unit) ⟨fun _ _ => ((), none), fun _ => ((), .packet ⟨0x65, [], 0x06⟩), fun _ => ((), .timeout)⟩ 3 ()).2 =
    .ok none := by decide

/-! ### C154: what the modem says about itself -/

theorem info_parsed (body : Bytes) (i : Info) (h : Info.unmarshalBinary body = .ok i) : Describes i body := by
  rcases body with _ | ⟨a0, _ | ⟨a1, _ | ⟨a2, _ | ⟨c0, _ | ⟨c1, _ | ⟨f, l⟩⟩⟩⟩⟩⟩ <;> simp [Info.unmarshalBinary] at h
  subst h
  exact ⟨a0, a1, a2, rfl, (address_put_bytes a0 a1 a2 []).2⟩

theorem framed_info (f : Frame) (hf : f.wellFormed) (h : f.packet.command = 0x60#8) : ∃ i, Info.unmarshalBinary f.packet.payload = .ok i := by
  have hc : f.cmd = 0x60#8 := by
    unfold Frame.packet at h
    split_ifs at h <;> exact h
  have hl : f.packet.payload.length = 6 := by
    unfold Frame.wellFormed at hf
    rw [hc] at hf
    have : f.body.length = 7 := by
      simpa [lengthTable] using hf
    simp [Frame.packet, hc, this]
  rcases hq : f.packet.payload with _ | ⟨a0, _ | ⟨a1, _ | ⟨a2, _ | ⟨c0, _ | ⟨c1, _ | ⟨x, l⟩⟩⟩⟩⟩⟩ <;> rw [hq] at hl <;>
    simp only [List.length_cons, List.length_nil] at hl <;> first | omega | exact ⟨_, rfl⟩

/-- C154: what `Info` returns is what the modem answered to the question: its address, category and firmware, byte by byte. -/
theorem modem_info {σ : Type} (io : PlmIO σ) (retries : Nat) (s s' : σ) (i : Info)
    (h : Plm.info io retries s = (s', .ok (some i, none))) :
    ∃ s0 s1 p, io.tx s0 [0x02, 0x60] = (s1, none) ∧ io.rxPacket s1 = (s', .packet p) ∧ p.command = 0x60#8 ∧ p.ack = 0x06#8 ∧
      Describes i p.payload := by
  simp only [Plm.info] at h
  rcases hw : retryWrite (Plm.writePacket io) retries true s ⟨PCmd.getInfo, [], 0#8⟩ with ⟨s1, ⟨_ | a, _ | e⟩ | _⟩ <;> rw [hw] at h <;> simp at h
  rcases hi : Info.unmarshalBinary a.payload with j | e | _ <;> rw [hi] at h <;> simp at h
  obtain ⟨rfl, rfl⟩ := h
  obtain ⟨s0, hw⟩ := retry_success _ _ _ _ _ _ _ hw
  obtain ⟨s2, p, h1, h2, h3, h4⟩ := (write_confirmed io s0 s1 _ _ (by decide) (by decide)).mp hw
  simp only [Option.some.injEq] at h3
  subst h3
  exact ⟨s0, s2, a, h1, h2, by simpa using h4.2.1.symm, h4.1, info_parsed _ _ hi⟩

theorem framed_writes {σ : Type} (io : PlmIO σ) (hio : Framed io) (s : σ) (pkt : Packet) :
    ∃ a e, (Plm.writePacket io s pkt).2 = .ret a e ∧ (e = none → ∃ f : Frame, f.wellFormed ∧ a = some f.packet ∧ f.packet.command = pkt.command) := by
  rcases hw : Plm.writePacket io s pkt with ⟨s', ⟨a, e⟩ | _⟩
  · refine ⟨a, e, rfl, ?_⟩
    rintro rfl
    obtain ⟨s1, p, -, h2, h3, h4⟩ := (writePacket_success io s s' pkt a).mp hw
    obtain ⟨f, hf, rfl⟩ := hio.frame s1 p (by rw [h2])
    exact ⟨f, hf, h3, h4.1⟩
  · exfalso
    unfold Plm.writePacket at hw
    rcases htx : io.tx s pkt.marshalBinary with ⟨s1, _ | e⟩ <;> rw [htx] at hw
    · dsimp only at hw
      have hr := hio.frame s1
      have ho := hio.opened s1
      rcases hrx : io.rxPacket s1 with ⟨s2, p | _ | _⟩ <;> rw [hrx] at hw hr ho
      · obtain ⟨f, -, rfl⟩ := hr p rfl
        obtain ⟨e, he⟩ := writePacket_no_panic pkt f
        dsimp only at hw
        rw [he] at hw
        simp at hw
      · exact ho rfl
      · simp at hw
    · simp at hw

theorem framed_retry {σ : Type} (io : PlmIO σ) (hio : Framed io) (retries : Nat) (ig : Bool) (s : σ) (pkt : Packet) :
    ∃ a e, (retryWrite (Plm.writePacket io) retries ig s pkt).2 = .ret a e ∧
      (e = none → ∃ f : Frame, f.wellFormed ∧ a = some f.packet ∧ f.packet.command = pkt.command) := by
  obtain ⟨k, -, h1, -⟩ := retry_bounded (Plm.writePacket io) retries ig pkt s
  rw [h1]
  exact framed_writes io hio _ pkt

/-- C154: with a modem that keeps to the protocol `Info` returns either a description or an error, and does not crash. -/
theorem modem_info_total {σ : Type} (io : PlmIO σ) (hio : Framed io) (retries : Nat) (s : σ) :
    (∃ i, (Plm.info io retries s).2 = .ok (some i, none)) ∨ ∃ e, (Plm.info io retries s).2 = .ok (none, some e) := by
  obtain ⟨a, e, h1, h2⟩ := framed_retry io hio retries true s ⟨PCmd.getInfo, [], 0#8⟩
  simp only [Plm.info]
  rcases hw : retryWrite (Plm.writePacket io) retries true s ⟨PCmd.getInfo, [], 0#8⟩ with ⟨s1, r⟩
  rw [hw] at h1
  dsimp only at h1
  subst h1
  rcases e with _ | e
  · obtain ⟨f, hf, rfl, hc⟩ := h2 rfl
    obtain ⟨i, hi⟩ := framed_info f hf hc
    dsimp only
    rw [hi]
    exact Or.inl ⟨i, rfl⟩
  · right
    exact ⟨e, by cases a <;> rfl⟩

/-- C154: the configuration returned is the byte the modem answered. -/
theorem modem_config {σ : Type} (io : PlmIO σ) (retries : Nat) (s s' : σ) (c : Config)
    (h : Plm.config io retries s = (s', .ok (c, none))) :
    ∃ s0 s1 p, io.tx s0 [0x02, 0x73] = (s1, none) ∧ io.rxPacket s1 = (s', .packet p) ∧ p.command = 0x73#8 ∧ p.ack = 0x06#8 ∧
      p.payload[0]? = some c := by
  simp only [Plm.config] at h
  rcases hw : retryWrite (Plm.writePacket io) retries true s ⟨PCmd.getConfig, [], 0#8⟩ with ⟨s1, ⟨_ | a, _ | e⟩ | _⟩ <;> rw [hw] at h <;> simp at h
  obtain ⟨rfl, h⟩ := h
  obtain ⟨s0, hw⟩ := retry_success _ _ _ _ _ _ _ hw
  obtain ⟨s2, p, h1, h2, h3, h4⟩ := (write_confirmed io s0 s1 _ _ (by decide) (by decide)).mp hw
  simp only [Option.some.injEq] at h3
  subst h3
  refine ⟨s0, s2, a, h1, h2, by simpa using h4.2.1.symm, h4.1, ?_⟩
  rcases hp : a.payload with _ | ⟨b, l⟩ <;> rw [hp] at h <;> simp [Config.unmarshalBinary] at h
  rw [h]
  rfl

/-- A modem at 4b.9a.23. -/
def describingIO : PlmIO Unit where
  tx := fun _ _ => ((), none)
  rxPacket := fun _ => ((), .packet (Frame.packet ⟨0x60#8, [0x4b, 0x9a, 0x23, 0x03, 0x15, 0x9e, 0x06]⟩))
  rxMsg := fun _ => ((), .timeout)

example : Framed describingIO :=
  ⟨fun _ p h => ⟨_, show Frame.wellFormed ⟨0x60#8, [0x4b, 0x9a, 0x23, 0x03, 0x15, 0x9e, 0x06]⟩ by simp [Frame.wellFormed, lengthTable], by
    simpa [describingIO] using h.symm⟩, fun _ h => by simp [describingIO] at h⟩

example : Plm.info describingIO 3 () = ((), .ok (some ⟨0x4b9a23#32, 0x03, 0x15, 0x9e⟩, none)) := by decide

/-- C154 (partial): the address of the modem is asked for until it is known: when a call gives a non-zero address, either it was known before or the modem
has just said so, and all later calls give the same address without asking. Not guaranteed: that the address is the one of the modem. -/
theorem modem_address_partial {σ : Type} (io : PlmIO σ) (retries : Nat) (s s' : σ) (cached a : Address)
    (h : Plm.address io retries s cached = (s', .ok a)) (ha : a ≠ 0#32) :
    ((s' = s ∧ a = cached) ∨ (cached = 0#32 ∧ ∃ i, Plm.info io retries s = (s', .ok (some i, none)) ∧ i.address = a)) ∧
      ∀ n, askAddress io retries n s' a = List.replicate n (s', .ok a) := by
  constructor
  · unfold Plm.address at h
    by_cases hc : cached = 0#32
    · rw [if_pos hc] at h
      right
      refine ⟨hc, ?_⟩
      rcases hi : Plm.info io retries s with ⟨s1, ⟨_ | i, _ | e⟩ | e | _⟩ <;> rw [hi] at h <;> simp at h
      · exact absurd (by rw [← h.2, hc]) ha
      · exact absurd (by rw [← h.2, hc]) ha
      · exact ⟨i, by rw [h.1], h.2⟩
      · exact absurd (by rw [← h.2, hc]) ha
    · rw [if_neg hc] at h
      simp at h
      exact Or.inl ⟨h.1.symm, h.2.symm⟩
  · intro n
    induction n with
    | zero => rfl
    | succ n ih =>
      have : Plm.address io retries s' a = (s', .ok a) := by
        unfold Plm.address
        rw [if_neg ha]
      simp only [askAddress, this, List.replicate_succ, List.cons.injEq, true_and]
      exact ih

/-- C154: a modem that has not answered yet, or refuses, has the address 00.00.00, and there is no error to tell it from a modem that really has. -/
theorem modem_address_refuted : ∃ io : PlmIO Unit, Framed io ∧ Plm.address io 3 () 0#32 = ((), .ok 0#32) ∧
    Plm.string io 3 () 0#32 = ((), 0#32, .ok (ascii "PLM (00.00.00)")) ∧ (Plm.info io 3 ()).2 = .ok (none, some (.wrapped .plmReadTimeout)) :=
  ⟨⟨fun _ _ => ((), none), fun _ => ((), .timeout), fun _ => ((), .timeout)⟩, ⟨fun _ _ h => by simp at h, fun _ h => by simp at h⟩,
    by decide, by decide, by decide⟩

example : askAddress describingIO 3 3 () 0#32 = List.replicate 3 ((), .ok 0x4b9a23#32) := by decide

/-! ### C155: `ic plm info` -/

/-- C155: `ic plm info` prints what the modem says about itself, its configuration and its links; what could not be had is not printed, nor anything after
it, and the error is reported. -/
theorem plm_info_shown {σ : Type} (sort : List LinkRecord → List LinkRecord) (io : PlmIO σ) (retries : Nat) (fuel : Nat) (s s' : σ)
    (cached : List LinkRecord) (text : Bytes) (err : Option Err) (h : plmInfoCmd sort io retries fuel s cached = some (s', text, .ok err)) :
    (∃ e, err = some e ∧ (Plm.info io retries s).2.second = .ok (some e) ∧ text = lines [ascii "PLM Info"]) ∨
    ∃ s1 i, Plm.info io retries s = (s1, .ok (some i, none)) ∧
      let about := [ascii "PLM Info",
        ascii "      Address: " ++ addressText lowerDigits (ascii ".") (i.address.toNat % 2 ^ 24),
        ascii "     Category: " ++ hexPair i.devCat0.toNat ++ ascii " Sub-Category: " ++ hexPair i.devCat1.toNat,
        ascii "     Firmware: " ++ decimal i.firmware.toNat]
      (∃ e, err = some e ∧ (Plm.config io retries s1).2.second = .ok (some e) ∧ text = lines about) ∨
      ∃ s2 c, Plm.config io retries s1 = (s2, .ok (c, none)) ∧ ∃ links,
        PlmLinks.links (Plm.asWriter io) retries fuel s2 cached = some (s', .ok (links, err)) ∧
        text = lines (about ++ [ascii "       Config: " ++ c.string]) ++ (if err = none then printLinks sort links else []) := by
  unfold plmInfoCmd at h
  have hnl : lit "\n" = [0x0a#8] := rfl
  have hdr : lit "PLM Info\n" = ascii "PLM Info" ++ [0x0a#8] := by decide
  have hdec : ∀ b : Byte, decByte b = decimal b.toNat := by decide +kernel
  rcases hi : Plm.info io retries s with ⟨s1, ⟨i, _ | e⟩ | e | _⟩
  · rcases i with _ | i
    · rw [hi] at h; simp at h
    · right
      rw [hi] at h
      refine ⟨s1, i, rfl, ?_⟩
      dsimp only at h ⊢
      rcases hc : Plm.config io retries s1 with ⟨s2, ⟨c, _ | e⟩ | e | _⟩
      · right
        rw [hc] at h
        refine ⟨s2, c, rfl, ?_⟩
        dsimp only at h
        rcases hl : PlmLinks.links (Plm.asWriter io) retries fuel s2 cached with _ | ⟨s3, ⟨ls, _ | e⟩ | e | _⟩ <;> rw [hl] at h <;> simp at h
        · obtain ⟨rfl, h, rfl⟩ := h
          refine ⟨ls, rfl, ?_⟩
          rw [← h]
          simp only [lines, hdr, hnl, address_text_format, hex2_pair, hdec, List.map_cons, List.map_nil, List.flatten_cons, List.flatten_nil,
            List.append_assoc, List.append_nil, if_true, List.cons_append, List.nil_append, show ∀ t, ascii t = lit t from fun _ => rfl]
        · obtain ⟨rfl, h, rfl⟩ := h
          refine ⟨ls, rfl, ?_⟩
          rw [← h]
          simp only [lines, hdr, hnl, address_text_format, hex2_pair, hdec, List.map_cons, List.map_nil, List.flatten_cons, List.flatten_nil,
            List.append_assoc, List.append_nil, if_false, List.cons_append, List.nil_append, reduceCtorEq,
            show ∀ t, ascii t = lit t from fun _ => rfl]
      · left
        rw [hc] at h
        simp at h
        obtain ⟨rfl, h, rfl⟩ := h
        refine ⟨e, rfl, rfl, ?_⟩
        rw [← h]
        simp only [lines, hdr, hnl, address_text_format, hex2_pair, hdec, List.map_cons, List.map_nil, List.flatten_cons, List.flatten_nil,
          List.append_assoc, List.append_nil, List.cons_append, List.nil_append, show ∀ t, ascii t = lit t from fun _ => rfl]
      · rw [hc] at h; simp at h
      · rw [hc] at h; simp at h
  · left
    rw [hi] at h
    have : err = some e ∧ text = lines [ascii "PLM Info"] := by
      rcases i with _ | i <;> simp at h <;> exact ⟨h.2.2.symm, by rw [← h.2.1]; decide⟩
    exact ⟨e, this.1, rfl, this.2⟩
  · rw [hi] at h; simp at h
  · rw [hi] at h; simp at h

/-- A modem with no links: the state is the last command byte. -/
def emptyModemIO : PlmIO Byte where
  tx := fun _ b => (b.getD 1 0, none)
  rxPacket := fun c => (c, .packet (if c = 0x60 then ⟨0x60, [0x4b, 0x9a, 0x23, 0x03, 0x15, 0x9e], 6⟩
    else if c = 0x73 then ⟨0x73, [0x60, 0, 0], 6⟩ else ⟨c, [], 0x15⟩))
  rxMsg := fun c => (c, .timeout)

example : plmInfoCmd id emptyModemIO 3 5 0 [] = some (0x69,
    lines [ascii "PLM Info", ascii "      Address: 4b.9a.23", ascii "     Category: 03 Sub-Category: 15", ascii "     Firmware: 158",
      ascii "       Config: .MA."] ++ printLinks id [], .ok none) := by decide +kernel

/-! ### C156: requests and descriptions on the wire -/

/-- C156: the description of a modem survives being written and read, and no two descriptions are printed alike. -/
theorem info_wire (i j : Info) (rest : Bytes) (hi : i.address.toNat < 2 ^ 24) (hj : j.address.toNat < 2 ^ 24) :
    Info.unmarshalBinary (i.marshalBinary ++ rest) = .ok i ∧ Describes i i.marshalBinary ∧ i.marshalBinary.length = 6 ∧
      (i.string = j.string → i = j) := by
  have hp := put_bytes i.address
  rw [and_ffffff_of_lt _ hi] at hp
  have h1 : Info.unmarshalBinary (i.marshalBinary ++ rest) = .ok i := by
    show Out.ok (Info.mk (Address.put i.address.bytes) _ _ _) = _
    rw [hp]
  refine ⟨h1, ?_, rfl, ?_⟩
  · have : Info.unmarshalBinary i.marshalBinary = .ok i := by
      show Out.ok (Info.mk (Address.put i.address.bytes) _ _ _) = _
      rw [hp]
    exact info_parsed _ _ this
  · intro h
    simp only [Info.string, devCatString, plmVersionString, List.append_assoc] at h
    obtain ⟨h1, h⟩ := List.append_inj h (by rw [address_text_length, address_text_length])
    have h := List.append_cancel_left h
    obtain ⟨h2, h⟩ := List.append_inj h rfl
    have h := List.append_cancel_left h
    obtain ⟨h3, h⟩ := List.append_inj h rfl
    have h4 := decByte_inj (List.append_cancel_left h)
    obtain ⟨a, b, c, d⟩ := i
    obtain ⟨a', b', c', d'⟩ := j
    have := address_text_inj hi hj h1
    have := hex2_inj h2
    have := hex2_inj h3
    simp_all

/-- C156: six bytes are read as a description and written back the same; fewer crash the reader. -/
theorem wire_info (body : Bytes) :
    (6 ≤ body.length → ∃ i, Info.unmarshalBinary body = .ok i ∧ i.marshalBinary = body.take 6) ∧
      (body.length < 6 → Info.unmarshalBinary body = .panic) := by
  rcases body with _ | ⟨a0, _ | ⟨a1, _ | ⟨a2, _ | ⟨c0, _ | ⟨c1, _ | ⟨f, l⟩⟩⟩⟩⟩⟩ <;>
    refine ⟨fun h => ?_, fun h => ?_⟩ <;> simp only [List.length_cons, List.length_nil] at h <;> first | omega | rfl | skip
  refine ⟨_, rfl, ?_⟩
  simp [Info.marshalBinary, (address_put_bytes a0 a1 a2 []).1]

/-- C156: requests to change a record or to start linking survive being written and read. -/
theorem request_wire (m : ManageRecord) (h : m.link.address.toNat < 2 ^ 24) (mode : Byte) (g : Group) :
    ManageRecord.unmarshalBinary m.marshalBinary = .ok (m, none) ∧ m.marshalBinary.length = 9 ∧
      parseAllLinkReq (allLinkReq mode g) = .ok (mode, g) := by
  refine ⟨?_, by simp [ManageRecord.marshalBinary, LinkRecord.marshalBinary, Address.bytes], rfl⟩
  have := link_wire_roundtrip_valid m.link LinkRecord.zero h
  simp only [ManageRecord.marshalBinary, ManageRecord.unmarshalBinary, this]

example : Info.string ⟨0x4b9a23#32, 0x03, 0x15, 0x9e⟩ = ascii "4b.9a.23 category 03.15 version 158" := by decide
example : Info.unmarshalBinary [0x4b, 0x9a] = .panic := rfl
example : ManageRecord.string ⟨0x80#8, ⟨0xe2#8, 1#8, 0x010203#32, 4, 5, 6⟩⟩ = ascii "80 UC 1 01.02.03 0x04 0x05 0x06" := by decide
example : allLinkReqString 0x03 200 = ascii "03 200" := by decide

end Insteon
