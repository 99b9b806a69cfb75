import Verif.Spec.ModemCalls
import Verif.Props.Calls

/-
Property C195: calls on the modem return.
-/

namespace Insteon
open Spec

/-! ### What is in the queue of answers -/

/-- A description of a modem is long enough. -/
def FullInfo (p : Packet) : Prop := p.command = 0x60#8 → 6 ≤ p.payload.length

theorem readMany_info (fuel n : Nat) (b : Buf) : ∀ p ∈ readMany false fuel n b, FullInfo p := by
  induction n generalizing b with
  | zero => simp [readMany]
  | succ n ih =>
    rw [readMany]
    rcases hp : readPacket false fuel b with _ | ⟨p | e | _, b'⟩ <;> dsimp only
    · simp
    · intro q hq
      rcases List.mem_cons.mp hq with rfl | hq
      · unfold readPacket at hp
        rcases hf : readFrame false fuel b with _ | ⟨f | e | _, b2⟩ <;> rw [hf] at hp <;> simp at hp
        rcases readFrame_sound false fuel b _ _ hf with ⟨noise, c, n, body, -, h2, h3, h4⟩ | h | h
        · simp only [Out.ok.injEq] at h3
          subst h3
          have hc : q.command = c := by
            have := hp.1
            unfold Packet.unmarshalBinary at this
            simp only [ne_eq, not_true_eq_false, if_false] at this
            split_ifs at this <;> simp only [Out.ok.injEq] at this <;> rw [← this]
          intro h60
          rw [h60] at hc
          subst hc
          have hn : n = 7 := by simpa [commandLen] using h2.symm
          subst hn
          have hb : body.length = 7 := by simpa [syncLen] using h4
          have := hp.1
          unfold Packet.unmarshalBinary at this
          simp only [ne_eq, not_true_eq_false, if_false] at this
          split_ifs at this <;> simp only [Out.ok.injEq] at this <;> rw [← this] <;> simp <;> omega
        · simp at h
        · simp at h
      · exact ih _ q hq
    · simp
    · simp

theorem run_answers (ps : List Packet) (s : PortSt) (hr : s.pktQ.length ≤ 10) (hq : ∀ p ∈ s.pktQ, FullInfo p) (hp : ∀ p ∈ ps, FullInfo p) :
    (Port.run s (ps.map .arrive)).1.pktQ.length ≤ 10 ∧ ∀ p ∈ (Port.run s (ps.map .arrive)).1.pktQ, FullInfo p := by
  induction ps generalizing s with
  | nil => exact ⟨hr, hq⟩
  | cons p ps ih =>
    simp only [List.map_cons, Port.run]
    have hcap : Port.cap = 10 := rfl
    apply ih
    · simp only [Port.step]
      split_ifs <;> simp <;> omega
    · simp only [Port.step]
      split_ifs
      · exact hq
      · exact hq
      · exact hq
      · intro q hm
        simp only [List.mem_append, List.mem_singleton] at hm
        rcases hm with hm | rfl
        · exact hq q hm
        · exact hp _ (by simp)
      · exact hq
    · exact fun q hq => hp q (by simp [hq])

/-- What a running PLM still has to give in answers. -/
def answersLeft (s : Live) : Nat := 11 * s.slots.length + s.port.pktQ.length

/-- The state between calls as far as answers are concerned: at most `n` are left. -/
structure Furnished (n : Nat) (s : Live) : Prop where
  room : s.port.pktQ.length ≤ 10
  full : ∀ p ∈ s.port.pktQ, FullInfo p
  left : answersLeft s ≤ n

theorem feed_furnished (n : Nat) (s : Live) (h : Furnished n s) : Furnished n s.feed ∧ answersLeft s.feed ≤ answersLeft s := by
  rcases hs : s.slots with _ | ⟨b, rest⟩
  · have : s.feed = s := by unfold Live.feed; rw [hs]
    rw [this]
    exact ⟨h, Nat.le_refl _⟩
  · have hf : s.feed = { s with port := (Port.run s.port ((Live.arrivals b).map .arrive)).1, slots := rest } := by unfold Live.feed; rw [hs]
    have hrun := run_answers (Live.arrivals b) s.port h.room h.full (readMany_info _ _ _)
    have hle : answersLeft s.feed ≤ answersLeft s := by
      unfold answersLeft
      rw [hf, hs]
      simp only [List.length_cons]
      have := hrun.1
      omega
    have := h.left
    exact ⟨⟨by rw [hf]; exact hrun.1, by rw [hf]; exact hrun.2, by omega⟩, hle⟩

/-- The state between calls. -/
structure Ready (G : Packet → Prop) (n : Nat) (s : Live) : Prop where
  steady : Steady G s
  furnished : Furnished n s

/-- Fewer messages and answers are left than before. -/
def Goes (s s' : Live) : Prop := messagesLeft s' ≤ messagesLeft s ∧ answersLeft s' ≤ answersLeft s

theorem Goes.refl (s : Live) : Goes s s := ⟨Nat.le_refl _, Nat.le_refl _⟩

theorem Goes.trans {a b c : Live} (h : Goes a b) (g : Goes b c) : Goes a c := ⟨Nat.le_trans g.1 h.1, Nat.le_trans g.2 h.2⟩

section
variable {G : Packet → Prop} {n : Nat} {fails : List Bytes → Option Nat}

theorem rxPacket_ready (s : Live) (h : Ready G n s) :
    (∃ s' p, (Live.faulty fails).rxPacket s = (s', .packet p) ∧ Ready G n s' ∧ Goes s s' ∧ answersLeft s' < answersLeft s ∧ FullInfo p) ∨
    ∃ s', (Live.faulty fails).rxPacket s = (s', .timeout) ∧ Ready G n s' ∧ Goes s s' := by
  obtain ⟨hf, hle⟩ := feed_furnished n s h.furnished
  obtain ⟨hs, hms, -⟩ := feed_steady G s h.steady
  have hleft := hf.left
  rcases recv_open s.feed.port.pktQ with ⟨p, t, hq, hr⟩ | ⟨hq, hr⟩
  · left
    have hlt : answersLeft { s.feed with port := { s.feed.port with pktQ := t } } + 1 = answersLeft s.feed := by
      unfold answersLeft; rw [hq]; simp; omega
    have hm : messagesLeft { s.feed with port := { s.feed.port with pktQ := t } } = messagesLeft s.feed := rfl
    refine ⟨{ s.feed with port := { s.feed.port with pktQ := t } }, p, by simp only [Live.faulty, hs.sane.1, hr], ⟨⟨⟨hs.sane.1, ?_⟩, hs.room, hs.queued, hs.coming⟩, ?_, ?_, by omega⟩,
      ⟨by omega, by omega⟩, by omega, hf.full p (by rw [hq]; simp)⟩
    · exact fun q hx => hs.sane.2 q (by rw [hq]; exact List.mem_cons_of_mem _ hx)
    · have := hf.room; rw [hq] at this; simp at this ⊢; omega
    · exact fun q hx => hf.full q (by rw [hq]; exact List.mem_cons_of_mem _ hx)
  · right
    have hlt : answersLeft { s.feed with port := { s.feed.port with pktQ := [] } } = answersLeft s.feed := by
      unfold answersLeft; rw [hq]
    have hm : messagesLeft { s.feed with port := { s.feed.port with pktQ := [] } } = messagesLeft s.feed := rfl
    exact ⟨{ s.feed with port := { s.feed.port with pktQ := [] } }, by simp only [Live.faulty, hs.sane.1, hr],
      ⟨⟨⟨hs.sane.1, by simp⟩, hs.room, hs.queued, hs.coming⟩, by simp, by simp, by omega⟩, by omega, by omega⟩

theorem checkAck_command (pkt p : Packet) (h : Plm.checkAck pkt p = .ok none) : p.command = pkt.command := by
  unfold Plm.checkAck at h
  dsimp only at h
  split_ifs at h <;> simp_all

theorem write_ready (s : Live) (h : Ready G n s) (pkt : Packet) :
    ∃ s' a e, Plm.writePacket (Live.faulty fails) s pkt = (s', .ret a e) ∧ Ready G n s' ∧ Goes s s' ∧
      (e = none → ∃ p, a = some p ∧ FullInfo p ∧ p.command = pkt.command) ∧ (e = some .wrongPayload → a ≠ none) := by
  obtain ⟨s1, a, e, hw, -⟩ := writePacket_steady (fails := fails) G s h.steady pkt
  have htx : (Live.faulty fails).tx s pkt.marshalBinary = ({ s with sent := s.sent ++ [0x02#8 :: pkt.command :: pkt.payload] },
      (fails (s.sent ++ [0x02#8 :: pkt.command :: pkt.payload])).map .other) := rfl
  have h0 : Ready G n { s with sent := s.sent ++ [0x02#8 :: pkt.command :: pkt.payload] } :=
    ⟨⟨h.steady.sane, h.steady.room, h.steady.queued, h.steady.coming⟩, h.furnished.room, h.furnished.full, h.furnished.left⟩
  have hg : Goes s { s with sent := s.sent ++ [0x02#8 :: pkt.command :: pkt.payload] } := Goes.refl s
  refine ⟨s1, a, e, hw, ?_⟩
  unfold Plm.writePacket at hw
  rw [htx] at hw
  rcases hk : fails (s.sent ++ [0x02#8 :: pkt.command :: pkt.payload]) with _ | k <;> rw [hk] at hw
  case some =>
    simp at hw
    obtain ⟨rfl, rfl, rfl⟩ := hw
    exact ⟨h0, hg, by simp, by simp⟩
  dsimp only [Option.map_none] at hw
  rcases rxPacket_ready (fails := fails) _ h0 with ⟨s2, p, h1, h2, h3, -, h5⟩ | ⟨s2, h1, h2, h3⟩
  · rw [h1] at hw
    dsimp only at hw
    rcases hc : Plm.checkAck pkt p with e' | e' | _ <;> rw [hc] at hw <;> simp at hw
    obtain ⟨rfl, rfl, rfl⟩ := hw
    refine ⟨h2, hg.trans h3, ?_, by simp⟩
    rintro rfl
    exact ⟨p, rfl, h5, checkAck_command pkt p hc⟩
  · rw [h1] at hw
    simp at hw
    obtain ⟨rfl, rfl, rfl⟩ := hw
    exact ⟨h2, hg.trans h3, by simp, by simp⟩

theorem retryLoop_ready (ig : Bool) (pkt : Packet) (k : Nat) (s : Live) (h : Ready G n s) (cur : PRes) :
    ∃ s' a e, retryLoop (Plm.writePacket (Live.faulty fails)) ig pkt (k + 1) s cur = (s', .ret a e) ∧ Ready G n s' ∧ Goes s s' ∧
      (e = none → ∃ p, a = some p ∧ FullInfo p ∧ p.command = pkt.command) ∧ (e = some .wrongPayload → a ≠ none) := by
  induction k generalizing s cur with
  | zero =>
    obtain ⟨s1, a, e, h1, h2, h3, h4, h5⟩ := write_ready (fails := fails) s h pkt
    refine ⟨s1, a, e, ?_, h2, h3, h4, h5⟩
    rw [retryLoop, h1]
    dsimp only
    split_ifs <;> rfl
  | succ k ih =>
    obtain ⟨s1, a, e, h1, h2, h3, h4, h5⟩ := write_ready (fails := fails) s h pkt
    rw [retryLoop, h1]
    dsimp only
    split_ifs
    · obtain ⟨s2, a', e', g1, g2, g3, g4⟩ := ih s1 h2 (.ret a e)
      exact ⟨s2, a', e', g1, g2, h3.trans g3, g4⟩
    · exact ⟨s1, a, e, rfl, h2, h3, h4, h5⟩

theorem retry_ready (retries : Nat) (ig : Bool) (s : Live) (h : Ready G n s) (pkt : Packet) :
    ∃ s' a e, retryWrite (Plm.writePacket (Live.faulty fails)) retries ig s pkt = (s', .ret a e) ∧ Ready G n s' ∧ Goes s s' ∧
      (e = none → ∃ p, a = some p ∧ FullInfo p ∧ p.command = pkt.command) ∧ (e = some .wrongPayload → a ≠ none) := by
  unfold retryWrite
  rw [show ((retries : Int) + 1).toNat = retries + 1 by omega]
  exact retryLoop_ready (fails := fails) ig pkt retries s h _

/-! ### The calls -/

/-- The call has returned, and the next can be made. -/
def Back {α : Type} (G : Packet → Prop) (n : Nat) (s : Live) (r : Live × Out α) : Prop :=
  Ready G n r.1 ∧ Goes s r.1 ∧ ∃ x, r.2 = .ok x

theorem info_back (retries : Nat) (s : Live) (h : Ready G n s) :
    ∃ s' i e, Plm.info (Live.faulty fails) retries s = (s', .ok (i, e)) ∧ Ready G n s' ∧ Goes s s' ∧ (e = none → i ≠ none) := by
  obtain ⟨s1, a, e, h1, h2, h3, h4, -⟩ := retry_ready (fails := fails) retries true s h ⟨PCmd.getInfo, [], 0#8⟩
  unfold Plm.info
  rw [h1]
  rcases e with _ | e
  · obtain ⟨p, rfl, h5, h6⟩ := h4 rfl
    have hl := h5 h6
    dsimp only
    rcases hp : p.payload with _ | ⟨a0, _ | ⟨a1, _ | ⟨a2, _ | ⟨c0, _ | ⟨c1, _ | ⟨x, l⟩⟩⟩⟩⟩⟩ <;> rw [hp] at hl <;> simp at hl
    exact ⟨_, _, _, rfl, h2, h3, by simp⟩
  · exact ⟨_, _, _, by cases a <;> rfl, h2, h3, by simp⟩

theorem config_back (retries : Nat) (s : Live) (h : Ready G n s) : Back G n s (Plm.config (Live.faulty fails) retries s) := by
  obtain ⟨s1, a, e, h1, h2, h3, h4, -⟩ := retry_ready (fails := fails) retries true s h ⟨PCmd.getConfig, [], 0#8⟩
  unfold Plm.config
  rw [h1]
  rcases e with _ | e
  · obtain ⟨p, rfl, -⟩ := h4 rfl
    exact ⟨h2, h3, _, rfl⟩
  · cases a <;> exact ⟨h2, h3, _, rfl⟩

theorem single_back (retries : Nat) (s : Live) (h : Ready G n s) (c : ModemCall) : Back G n s (c.exec (Live.faulty fails) retries s) := by
  have hw : ∀ pkt, Back G n s ((Plm.writePacket (Live.faulty fails) s pkt).1, (Plm.writePacket (Live.faulty fails) s pkt).2.error) := by
    intro pkt
    obtain ⟨s1, a, e, h1, h2, h3, -⟩ := write_ready (fails := fails) s h pkt
    rw [h1]
    exact ⟨h2, h3, _, rfl⟩
  cases c with
  | info =>
    obtain ⟨s1, i, e, h1, h2, h3, -⟩ := info_back (fails := fails) retries s h
    simp only [ModemCall.exec, h1]
    exact ⟨h2, h3, _, rfl⟩
  | config =>
    obtain ⟨h1, h2, x, h3⟩ := config_back (fails := fails) retries s h
    simp only [ModemCall.exec]
    refine ⟨h1, h2, x.2, ?_⟩
    rw [h3]
    rfl
  | reset =>
    obtain ⟨s1, a, e, h1, h2, h3, -⟩ := retry_ready (fails := fails) retries true s h ⟨PCmd.reset, [], 0#8⟩
    simp only [ModemCall.exec, Plm.reset, h1]
    exact ⟨h2, h3, _, rfl⟩
  | setConfig c =>
    obtain ⟨s1, a, e, h1, h2, h3, -⟩ := retry_ready (fails := fails) retries true s h ⟨PCmd.setConfig, c.marshalBinary, 0#8⟩
    simp only [ModemCall.exec, Plm.setConfig, h1]
    exact ⟨h2, h3, _, rfl⟩
  | enterLinking g => exact hw _
  | exitLinking => exact hw _
  | enterUnlinking g => exact hw _
  | setCategory c => exact ⟨h, Goes.refl s, _, rfl⟩
  | rfSleep => exact ⟨h, Goes.refl s, _, rfl⟩
  | updateLinks ls => exact ⟨h, Goes.refl s, _, rfl⟩

theorem address_back (retries : Nat) (s : Live) (h : Ready G n s) (cached : Address) : Back G n s (Plm.address (Live.faulty fails) retries s cached) := by
  unfold Plm.address
  split_ifs
  · obtain ⟨s1, i, e, h1, h2, h3, h4⟩ := info_back (fails := fails) retries s h
    rw [h1]
    rcases e with _ | e
    · rcases i with _ | i
      · exact absurd rfl (h4 rfl)
      · exact ⟨h2, h3, _, rfl⟩
    · cases i <;> exact ⟨h2, h3, _, rfl⟩
  · exact ⟨h, Goes.refl s, _, rfl⟩

theorem refreshLoop_back (retries : Nat) (fuel : Nat) (s : Live) (h : Ready G n s) (hl : answersLeft s < fuel) (acc : List LinkRecord) :
    ∃ s' x, PlmLinks.refreshLoop (Plm.asWriter (Live.faulty fails)) retries fuel s acc = some (s', .ok x) ∧ Ready G n s' ∧ Goes s s' := by
  induction fuel generalizing s acc with
  | zero => omega
  | succ fuel ih =>
    have hread : (Plm.asWriter (Live.faulty fails)).read = Plm.readPacket (Live.faulty fails) := rfl
    have hwrite : (Plm.asWriter (Live.faulty fails)).write = Plm.writePacket (Live.faulty fails) := rfl
    rw [PlmLinks.refreshLoop, hread, hwrite]
    rcases rxPacket_ready (fails := fails) s h with ⟨s1, p, h1, h2, h3, h4, -⟩ | ⟨s1, h1, h2, h3⟩
    · have hr : Plm.readPacket (Live.faulty fails) s = (s1, .ret (some p) none) := by unfold Plm.readPacket; rw [h1]
      rw [hr]
      dsimp only
      split_ifs
      · rcases hu : LinkRecord.unmarshalBinary LinkRecord.zero p.payload with ⟨link, _ | e⟩
        · dsimp only
          obtain ⟨s2, a, e, g1, g2, g3, -⟩ := retry_ready (fails := fails) retries false s1 h2 ⟨PCmd.getNextAllLink, [], 0#8⟩
          rw [g1]
          rcases e with _ | e
          · dsimp only
            obtain ⟨s3, x, k1, k2, k3⟩ := ih s2 g2 (by have := g3.2; omega) (acc ++ [link])
            exact ⟨s3, x, k1, k2, (h3.trans g3).trans k3⟩
          · exact ⟨s2, _, rfl, g2, h3.trans g3⟩
        · exact ⟨s1, _, rfl, h2, h3⟩
      · obtain ⟨s3, x, k1, k2, k3⟩ := ih s1 h2 (by omega) acc
        exact ⟨s3, x, k1, k2, h3.trans k3⟩
    · have hr : Plm.readPacket (Live.faulty fails) s = (s1, .ret none (some (.wrapped .plmReadTimeout))) := by unfold Plm.readPacket; rw [h1]
      rw [hr]
      exact ⟨s1, _, rfl, h2, h3⟩

theorem links_back (retries : Nat) (fuel : Nat) (s : Live) (h : Ready G n s) (hl : n < fuel) (cached : List LinkRecord) :
    ∃ s' x, PlmLinks.links (Plm.asWriter (Live.faulty fails)) retries fuel s cached = some (s', .ok x) ∧ Ready G n s' ∧ Goes s s' := by
  have hwrite : (Plm.asWriter (Live.faulty fails)).write = Plm.writePacket (Live.faulty fails) := rfl
  obtain ⟨s1, a, e, h1, h2, h3, -⟩ := retry_ready (fails := fails) retries true s h ⟨PCmd.getFirstAllLink, [], 0#8⟩
  unfold PlmLinks.links PlmLinks.refresh
  rw [hwrite, h1]
  rcases e with _ | e
  · dsimp only
    obtain ⟨s2, x, g1, g2, g3⟩ := refreshLoop_back (fails := fails) retries fuel s1 h2 (by have := h2.furnished.left; omega) []
    rw [g1]
    exact ⟨s2, _, rfl, g2, h3.trans g3⟩
  · exact ⟨s1, _, rfl, h2, h3⟩

theorem devices_back (retries : Nat) (fuel : Nat) (s : Live) (h : Ready G n s) (hl : n < fuel) (cached : List LinkRecord) :
    ∃ s' x, PlmLinks.iterateDevices (Plm.asWriter (Live.faulty fails)) retries fuel s cached = some (s', .ok x) ∧ Ready G n s' ∧ Goes s s' := by
  obtain ⟨s1, ⟨ls, e⟩, h1, h2, h3⟩ := links_back (fails := fails) retries fuel s h hl cached
  unfold PlmLinks.iterateDevices
  rw [h1]
  cases e <;> exact ⟨s1, _, rfl, h2, h3⟩

theorem manage_ready (s : Live) (h : Ready G n s) (pkt : Packet) :
    ∃ s' a e, retryWrite (Plm.asWriter (Live.faulty fails)).write 3 true s pkt = (s', .ret a e) ∧ Ready G n s' ∧ Goes s s' ∧ (e = some .wrongPayload → a ≠ none) := by
  obtain ⟨s1, a, e, h1, h2, h3, -, h4⟩ := retry_ready (fails := fails) 3 true s h pkt
  exact ⟨s1, a, e, h1, h2, h3, h4⟩

theorem deleteAll_back (ls : List LinkRecord) (s : Live) (h : Ready G n s) : Back G n s (PlmLinks.deleteAll (Plm.asWriter (Live.faulty fails)) s ls) := by
  induction ls generalizing s with
  | nil => exact ⟨h, Goes.refl s, _, rfl⟩
  | cons l ls ih =>
    obtain ⟨s1, a, e, h1, h2, h3, -⟩ := manage_ready s h ⟨PCmd.manageAllLinkRecord, ManageRecord.marshalBinary ⟨0x80#8, l⟩, 0#8⟩
    rw [PlmLinks.deleteAll, PlmLinks.deleteLink, h1]
    rcases e with _ | e
    · obtain ⟨g1, g2, g3⟩ := ih s1 h2
      exact ⟨g1, h3.trans g2, g3⟩
    · exact ⟨h2, h3, _, rfl⟩

theorem writeOne_back (s : Live) (h : Ready G n s) (l : LinkRecord) : Back G n s (PlmLinks.writeOne (Plm.asWriter (Live.faulty fails)) s l) := by
  have hw : ∀ (s : Live) (h : Ready G n s), ∃ s' a e, PlmLinks.writeLink (Plm.asWriter (Live.faulty fails)) s l = (s', .ret a e) ∧ Ready G n s' ∧ Goes s s' ∧
      (e = some .wrongPayload → a ≠ none) := fun s h => manage_ready s h _
  have hd : ∀ (s : Live) (h : Ready G n s) (l : LinkRecord), ∃ s' a e, PlmLinks.deleteLink (Plm.asWriter (Live.faulty fails)) s l = (s', .ret a e) ∧ Ready G n s' ∧ Goes s s' ∧
      (e = some .wrongPayload → a ≠ none) := fun s h l => manage_ready s h _
  obtain ⟨s1, a, e, h1, h2, h3, h4⟩ := hw s h
  unfold PlmLinks.writeOne
  rw [h1]
  rcases e with _ | e
  · exact ⟨h2, h3, _, rfl⟩
  · dsimp only
    split_ifs with he
    · rcases a with _ | a
      · exact absurd rfl (h4 (by rw [he]))
      · dsimp only
        obtain ⟨s2, b, e2, g1, g2, g3, -⟩ := hd s1 h2 (LinkRecord.unmarshalBinary LinkRecord.zero a.payload).1
        rw [g1]
        rcases e2 with _ | e2
        · dsimp only
          obtain ⟨s3, c, e3, k1, k2, k3, -⟩ := hw s2 g2
          rw [k1]
          exact ⟨k2, (h3.trans g3).trans k3, _, rfl⟩
        · exact ⟨g2, h3.trans g3, _, rfl⟩
    · exact ⟨h2, h3, _, rfl⟩

theorem writeAll_back (ls cached : List LinkRecord) (s : Live) (h : Ready G n s) : Back G n s (PlmLinks.writeAll (Plm.asWriter (Live.faulty fails)) s cached ls) := by
  induction ls generalizing s cached with
  | nil => exact ⟨h, Goes.refl s, _, rfl⟩
  | cons l ls ih =>
    obtain ⟨h1, h2, e, h3⟩ := writeOne_back (fails := fails) s h l
    rw [PlmLinks.writeAll]
    rcases hx : PlmLinks.writeOne (Plm.asWriter (Live.faulty fails)) s l with ⟨s1, r⟩
    rw [hx] at h1 h2 h3
    dsimp only at h1 h2 h3
    subst h3
    rcases e with _ | e
    · obtain ⟨g1, g2, g3⟩ := ih (cached ++ [l]) s1 h1
      exact ⟨g1, h2.trans g2, g3⟩
    · exact ⟨h1, h2, _, rfl⟩

theorem rewrite_back (cached ls : List LinkRecord) (s : Live) (h : Ready G n s) : Back G n s (PlmLinks.writeLinks (Plm.asWriter (Live.faulty fails)) s cached ls) := by
  obtain ⟨h1, h2, e, h3⟩ := deleteAll_back (fails := fails) cached s h
  unfold PlmLinks.writeLinks
  rcases hx : PlmLinks.deleteAll (Plm.asWriter (Live.faulty fails)) s cached with ⟨s1, r⟩
  rw [hx] at h1 h2 h3
  dsimp only at h1 h2 h3
  subst h3
  rcases e with _ | e
  · obtain ⟨g1, g2, g3⟩ := writeAll_back (fails := fails) ls [] s1 h1
    exact ⟨g1, h2.trans g2, g3⟩
  · exact ⟨h1, h2, _, rfl⟩

theorem report_back (sort : List LinkRecord → List LinkRecord) (retries fuel : Nat) (s : Live) (h : Ready G n s) (hl : n < fuel) (cached : List LinkRecord) :
    ∃ s' t x, plmInfoCmd sort (Live.faulty fails) retries fuel s cached = some (s', t, .ok x) ∧ Ready G n s' ∧ Goes s s' := by
  obtain ⟨s1, i, e, h1, h2, h3, h4⟩ := info_back (fails := fails) retries s h
  unfold plmInfoCmd
  dsimp only
  rw [h1]
  rcases e with _ | e
  · rcases i with _ | i
    · exact absurd rfl (h4 rfl)
    · dsimp only
      obtain ⟨g1, g2, ⟨c, e⟩, g3⟩ := config_back (fails := fails) retries s1 h2
      rcases hx : Plm.config (Live.faulty fails) retries s1 with ⟨s2, r⟩
      rw [hx] at g1 g2 g3
      dsimp only at g1 g2 g3
      subst g3
      rcases e with _ | e
      · dsimp only
        obtain ⟨s3, ⟨ls, e⟩, k1, k2, k3⟩ := links_back (fails := fails) retries fuel s2 g1 hl cached
        rw [k1]
        cases e <;> exact ⟨s3, _, _, rfl, k2, (h3.trans g2).trans k3⟩
      · exact ⟨s2, _, _, rfl, g1, h3.trans g2⟩
  · cases i <;> exact ⟨s1, _, _, rfl, h2, h3⟩

theorem use_returns (retries fuel : Nat) (s : Live) (h : Ready G n s) (hl : n < fuel) (u : ModemUse) :
    ∃ s', u.run (Live.faulty fails) retries fuel s = some (s', .returned) ∧ Ready G n s' ∧ Goes s s' := by
  have once : ∀ {α : Type} (r : Live × Out α), Back G n s r → ∃ s', DeviceCall.once r = some (s', .returned) ∧ Ready G n s' ∧ Goes s s' := by
    rintro α ⟨s1, r⟩ ⟨h1, h2, x, h3⟩
    dsimp only at h1 h2 h3
    subst h3
    exact ⟨s1, rfl, h1, h2⟩
  cases u with
  | single c => exact once _ (single_back (fails := fails) retries s h c)
  | address cached => exact once _ (address_back (fails := fails) retries s h cached)
  | text cached =>
    obtain ⟨h1, h2, x, h3⟩ := address_back (fails := fails) retries s h cached
    rcases hx : Plm.address (Live.faulty fails) retries s cached with ⟨s1, r⟩
    rw [hx] at h1 h2 h3
    dsimp only at h1 h2 h3
    subst h3
    refine ⟨s1, ?_, h1, h2⟩
    simp only [ModemUse.run, Plm.string, hx]
    rfl
  | readPacket =>
    simp only [ModemUse.run, Plm.readPacket]
    rcases rxPacket_ready (fails := fails) s h with ⟨s1, p, h1, h2, h3, h4, -⟩ | ⟨s1, h1, h2, h3⟩ <;> rw [h1] <;> exact ⟨s1, rfl, h2, h3⟩
  | links cached =>
    obtain ⟨s1, x, h1, h2, h3⟩ := links_back (fails := fails) retries fuel s h hl cached
    exact ⟨s1, by simp only [ModemUse.run, h1]; rfl, h2, h3⟩
  | writeLinks cached given => exact once _ (rewrite_back (fails := fails) cached given s h)
  | linkedDevices cached =>
    obtain ⟨s1, x, h1, h2, h3⟩ := devices_back (fails := fails) retries fuel s h hl cached
    exact ⟨s1, by simp only [ModemUse.run, h1]; rfl, h2, h3⟩
  | report sort cached =>
    obtain ⟨s1, t, x, h1, h2, h3⟩ := report_back (fails := fails) sort retries fuel s h hl cached
    exact ⟨s1, by simp only [ModemUse.run, h1]; rfl, h2, h3⟩

/-! ### Among calls on devices -/

theorem read_furnished (s : Live) (h : Ready G n s) : Furnished n (Plm.read (Live.faulty fails) s).1 := by
  obtain ⟨hf, -⟩ := feed_furnished n s h.furnished
  have : ∀ q, Furnished n { s.feed with port := { s.feed.port with msgQ := q } } := fun q => ⟨hf.room, hf.full, hf.left⟩
  have hst : (Plm.read (Live.faulty fails) s).1 = ((Live.faulty fails).rxMsg s).1 := by
    unfold Plm.read
    rcases (Live.faulty fails).rxMsg s with ⟨s1, _ | _ | _⟩ <;> rfl
  rw [hst]
  exact this _

theorem await_furnished (dst : Address) (fuel : Nat) (s : Live) (h : Ready G n s) (r : Live × MRes) (hr : Plm.awaitAck (Live.faulty fails) dst fuel s = some r) :
    Furnished n r.1 := by
  induction fuel generalizing s with
  | zero => simp [Plm.awaitAck] at hr
  | succ fuel ih =>
    have hf := read_furnished (fails := fails) s h
    obtain ⟨s1, m, e, h1, h2, -⟩ := read_steady (fails := fails) G s h.steady
    rw [h1] at hf
    dsimp only at hf
    rw [Plm.awaitAck, h1] at hr
    rcases e with _ | e
    · rcases m with _ | m
      · simp at hr; subst hr; exact hf
      · dsimp only at hr
        split_ifs at hr
        · simp at hr; subst hr; exact hf
        · simp at hr; subst hr; exact hf
        · exact ih s1 ⟨h2, hf⟩ hr
    · simp at hr; subst hr; exact hf

theorem live_orderly_ready (G : Packet → Prop) (n retries fuel : Nat) (Hears : Message → Prop)
    (h : Orderly (Live.faultyMsgIO fails retries fuel) (fun s => Steady G s ∧ messagesLeft s < fuel) messagesLeft Hears) :
    Orderly (Live.faultyMsgIO fails retries fuel) (fun s => Ready G n s ∧ messagesLeft s < fuel) messagesLeft Hears where
  read := by
    rintro s ⟨hs, hl⟩
    obtain ⟨s1, m, e, h1, h2, h3⟩ := h.read s ⟨hs.steady, hl⟩
    have hf := read_furnished (fails := fails) s hs
    have : Plm.read (Live.faulty fails) s = (s1, .ret m e) := h1
    rw [this] at hf
    exact ⟨s1, m, e, h1, ⟨⟨h2.1, hf⟩, h2.2⟩, h3⟩
  write := by
    rintro s msg ⟨hs, hl⟩
    obtain ⟨s1, m, e, h1, h2, h3⟩ := h.write s msg ⟨hs.steady, hl⟩
    refine ⟨s1, m, e, h1, ⟨⟨h2.1, ?_⟩, h2.2⟩, h3⟩
    have hw : (Live.faultyMsgIO fails retries fuel).write s msg = match Plm.write (Live.faulty fails) retries fuel s msg with
      | some r => r
      | none => (s, .panic) := rfl
    rw [hw] at h1
    obtain ⟨t, a, e', g1, g2, g3, -⟩ := retry_ready (fails := fails) retries true s hs ⟨PCmd.sendInsteonMsg, msg.marshalBinary.drop 3, 0#8⟩
    unfold Plm.write at h1
    rw [g1] at h1
    rcases e' with _ | e'
    · dsimp only at h1
      rcases hx : Plm.awaitAck (Live.faulty fails) msg.dst fuel t with _ | r <;> rw [hx] at h1 <;> dsimp only at h1
      · simp at h1
      · have := await_furnished msg.dst fuel t g2 r hx
        rw [h1] at this
        exact this
    · simp at h1
      rw [← h1.1]
      exact g2.furnished

theorem uses_returned (retries fuel : Nat) (hn : n < fuel) (Hears : Message → Prop)
    (ho : Orderly (Live.faultyMsgIO fails retries fuel) (fun s => Ready G n s ∧ messagesLeft s < fuel) messagesLeft Hears)
    (us : List Use) (hq : (∃ u ∈ us, u.Downloads) → Orderly (Live.faultyMsgIO fails retries fuel) (fun s => Ready G n s ∧ messagesLeft s < fuel) messagesLeft NoReadRequests)
    (hs : ∀ u ∈ us, u.Sensible) (s : Live) (h : Ready G n s) (hl : messagesLeft s < fuel) :
    ∃ s', Use.runAll fails retries fuel us s = some (s', us.map fun _ => .returned) := by
  induction us generalizing s with
  | nil => exact ⟨s, rfl⟩
  | cons u us ih =>
    have hone : ∃ s1, u.run fails retries fuel s = some (s1, .returned) ∧ Ready G n s1 ∧ messagesLeft s1 < fuel := by
      cases u with
      | device info c =>
        obtain ⟨s1, h1, h2, -⟩ := call_returns ho info fuel s ⟨h, hl⟩ hl c (hs (.device info c) (by simp)) (fun hx => hq ⟨.device info c, by simp, hx⟩)
        exact ⟨s1, h1, h2⟩
      | modem m =>
        obtain ⟨s1, h1, h2, h3⟩ := use_returns (fails := fails) retries fuel s h hn m
        exact ⟨s1, h1, h2, by have := h3.1; omega⟩
    obtain ⟨s1, h1, h2, h3⟩ := hone
    obtain ⟨s2, g⟩ := ih (fun ⟨x, hx, hy⟩ => hq ⟨x, by simp [hx], hy⟩) (fun x hx => hs x (by simp [hx])) s1 h2 h3
    refine ⟨s2, ?_⟩
    rw [Use.runAll, h1]
    dsimp only
    rw [g]
    rfl

end

theorem init_ready (G : Packet → Prop) (slots : List Bytes) (hg : ∀ b ∈ slots, ∀ p ∈ Live.arrivals b, G p) :
    Ready G (11 * slots.length) (Live.init slots) ∧ messagesLeft (Live.init slots) = 11 * slots.length :=
  ⟨⟨⟨⟨rfl, by simp [Live.init, Port.init]⟩, by simp [Live.init, Port.init], by simp [Live.init, Port.init], hg⟩,
    by simp [Live.init, Port.init], by simp [Live.init, Port.init], by simp [answersLeft, Live.init, Port.init]⟩, by simp [messagesLeft, Live.init, Port.init]⟩

/-- C195: whatever bytes the serial line brings, in whatever portions, and whichever writes to it fail, every call on the modem returns once the line is silent: with a result or an error, never by
crashing the program and never by waiting for ever (`fuel` is any bound on the packets waited for, larger than what fits the line). -/
theorem modem_calls_return (fails : List Bytes → Option Nat) (slots : List Bytes) (retries fuel : Nat) (hf : 11 * slots.length < fuel) (uses : List ModemUse) :
    ∃ live', Use.runAll fails retries fuel (uses.map .modem) (Live.init slots) = some (live', uses.map fun _ => .returned) := by
  obtain ⟨h1, h2⟩ := init_ready (fun _ => True) slots (by simp)
  obtain ⟨s, hs⟩ := uses_returned (n := 11 * slots.length) retries fuel hf _ (live_orderly_ready _ _ _ _ _ (live_orderly (fails := fails) (fun _ => True) retries fuel)) (uses.map .modem)
    (by rintro ⟨u, hu, hd⟩; simp only [List.mem_map] at hu; obtain ⟨m, -, rfl⟩ := hu; exact hd.elim)
    (by intro u hu; simp only [List.mem_map] at hu; obtain ⟨m, -, rfl⟩ := hu; trivial) _ h1 (by omega)
  exact ⟨s, by rw [hs, List.map_map]; rfl⟩

/-- C195: so they do among calls on devices, in any order, and those on devices return as well (with the exceptions of `calls_return_partial`). -/
theorem mixed_calls_return (fails : List Bytes → Option Nat) (slots : List Bytes) (retries fuel : Nat) (hf : 11 * slots.length < fuel) (uses : List Use) (hs : ∀ u ∈ uses, u.Sensible)
    (hr : (∃ u ∈ uses, u.Downloads) → ∀ b ∈ slots, ∀ p ∈ packetsIn false b, ¬ AsksForLinks p) :
    ∃ live', Use.runAll fails retries fuel uses (Live.init slots) = some (live', uses.map fun _ => .returned) := by
  by_cases hd : ∃ u ∈ uses, u.Downloads
  · have hq := live_orderly (fails := fails) (fun p => ¬ AsksForLinks p) retries fuel
    have hq' : Orderly (Live.faultyMsgIO fails retries fuel) (fun s => Steady (fun p => ¬ AsksForLinks p) s ∧ messagesLeft s < fuel) messagesLeft NoReadRequests :=
      ⟨fun s h => by
        obtain ⟨s1, m, e, h1, h2, h3, h4⟩ := hq.read s h
        exact ⟨s1, m, e, h1, h2, h3, fun he => ⟨(h4 he).1.imp fun x hx => ⟨hx.1, from_packet_quiet x hx.2⟩, (h4 he).2⟩⟩, hq.write⟩
    obtain ⟨h1, h2⟩ := init_ready (fun p => ¬ AsksForLinks p) slots (hr hd)
    have hq2 := live_orderly_ready _ (11 * slots.length) _ _ _ hq'
    exact uses_returned retries fuel hf _ hq2 uses (fun _ => hq2) hs _ h1 (by omega)
  · obtain ⟨h1, h2⟩ := init_ready (fun _ => True) slots (by simp)
    exact uses_returned retries fuel hf _ (live_orderly_ready _ (11 * slots.length) _ _ _ (live_orderly (fails := fails) (fun _ => True) retries fuel)) uses (fun h => absurd h hd) hs _ h1 (by omega)

/-- A program that asks the modem for its address and links, deletes one of them and switches a light on, over a line with fragments on it and a port that
breaks down. -/
example : ∃ live', Use.runAll exBreaks 3 100 [.modem (.address 0), .modem (.links []), .device exDimmer (.turnOn 255), .modem (.writeLinks [exControl] [exRespond]),
      .modem (.report id [])]
      (Live.init [[0x02, 0x60, 0x04, 0x05, 0x06, 0x03, 0x15, 0x9e, 0x06], [0x02, 0x69, 0x06], [0x50, 0x02, 0x02, 0x57, 0xe2, 0x01], [0x02, 0x6f]]) =
    some (live', [.returned, .returned, .returned, .returned, .returned]) := by
  refine mixed_calls_return exBreaks _ 3 100 (by decide) _ ?_ ?_
  · intro u hu
    simp only [List.mem_cons, List.not_mem_nil, or_false] at hu
    rcases hu with rfl | rfl | rfl | rfl | rfl <;> trivial
  · rintro ⟨u, hu, hd⟩
    simp only [List.mem_cons, List.not_mem_nil, or_false] at hu
    rcases hu with rfl | rfl | rfl | rfl | rfl <;> exact hd.elim

/-- The modem answers to the first two calls: the answers are what the calls return. -/
example : (Plm.address Live.io 3 (Live.init [[0x02, 0x60, 0x04, 0x05, 0x06, 0x03, 0x15, 0x9e, 0x06]]) 0).2 = .ok 0x040506#32 := rfl

end Insteon
