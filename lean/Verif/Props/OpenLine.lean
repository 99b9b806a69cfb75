import Verif.Props.Remote

/-
Property C189: opening a device over a busy serial line.
-/

namespace Insteon
open Spec

theorem flatMap_length_traffic (ts : List Traffic) : (ts.flatMap Traffic.messages).length = (ts.map List.length).sum := by
  rw [List.length_flatMap]
  congr 1
  apply List.map_congr_left
  intro t _
  simp [Traffic.messages]

theorem proper_heard (unread : List Message) (ws : List Waiting) (ts : List Traffic) (hproper : ∀ m ∈ unread, Proper m) (hok : ∀ w ∈ ws, w.ok)
    (hlater : ∀ t ∈ ts, t.ok) : ∀ m ∈ unread ++ ws.flatMap Waiting.messages ++ ts.flatMap Traffic.messages, Proper m := by
  intro m this
  simp only [List.mem_append, List.mem_flatMap] at this
  rcases this with (h | ⟨w, hw, h⟩) | ⟨t, ht, h⟩
  · exact hproper m h
  · simp only [Waiting.messages, Traffic.messages, List.mem_append, List.mem_map] at h
    have hwo := hok w hw
    rcases h with ⟨x, hx, rfl⟩ | ⟨x, hx, rfl⟩
    · exact (hwo.1 x hx).2
    · exact (hwo.2.2 x hx).2
  · simp only [Traffic.messages, List.mem_map] at h
    obtain ⟨x, hx, rfl⟩ := h
    exact (hlater t ht x hx).2

/-- What is left in the queue after a message was awaited: everything that came, less what was taken. -/
theorem left_length (all skipped u : List Message) (a : Message) (later : List Traffic) (k : Nat) (more : List Message)
    (hall : all ++ later.flatMap Traffic.messages = skipped ++ a :: more) (hu : u ++ (later.drop k).flatMap Traffic.messages = more)
    (hk : k = skipped.length + 1) : u.length = all.length + ((later.map List.length).take k).sum - k := by
  have e1 := congrArg List.length hall
  have e2 := congrArg List.length hu
  have e3 : (later.flatMap Traffic.messages).length = ((later.take k).flatMap Traffic.messages).length
      + ((later.drop k).flatMap Traffic.messages).length := by
    conv => lhs; rw [← List.take_append_drop k later]
    rw [List.flatMap_append, List.length_append]
  rw [flatMap_length_traffic (later.take k), List.map_take] at e3
  simp only [List.length_append, List.length_cons] at e1 e2
  omega

/-- The question for the engine version. -/
def Spec.versionQuery (a : BitVec 32) : Message := ⟨0, a, 0x0a#8, 0x000d00#64, []⟩

/-- The question for the identity. -/
def Spec.identityQuery (a : BitVec 32) : Message := ⟨0, a, 0x0a#8, 0x001000#64, []⟩

/-- C189: opening a device through a running PLM. Whatever else is on the line (old unread messages, traffic of other devices, noise, refusals of the modem
up to the retry count), if the modem accepts the two questions, the device acknowledges both and announces itself, and the messages are read before a timeout
and before more than ten pile up, then `Open` returns a device with the address asked for, the engine version of the first acknowledgement and the category and
firmware announced. The two questions are all that is sent, and the messages after the announcement are still there. -/
theorem open_serial (dst : Address) (retries fuel : Nat) (live : Live)
    (unread left tail : List Message)
    (naks1 : List Waiting) (ack1 : Waiting) (later1 : List Traffic) (skipped1 : List Message) (version : Message)
    (naks2 : List Waiting) (ack2 : Waiting) (later2 : List Traffic) (skipped2 : List Message) (yes : Message)
    (others : List Message) (announcement : Message)
    (hopen : live.port.closed = false) (hpkt : live.port.pktQ = []) (hunread : live.port.msgQ = asPackets unread) (hproper : ∀ m ∈ unread, Proper m)
    (hslots : live.slots = naks1.map (fun w => line (w.items (versionQuery dst) 0x15#8)) ++ [line (ack1.items (versionQuery dst) 0x06#8)]
      ++ later1.map (fun t : Traffic => line t.items)
      ++ (naks2.map (fun w => line (w.items (identityQuery dst) 0x15#8)) ++ [line (ack2.items (identityQuery dst) 0x06#8)]
      ++ later2.map (fun t : Traffic => line t.items)))
    (hok : ∀ w ∈ naks1 ++ [ack1] ++ naks2 ++ [ack2], w.ok) (hlater : ∀ t ∈ later1 ++ later2, t.ok)
    (hnaks : naks1.length ≤ retries ∧ naks2.length ≤ retries)
    (hall1 : unread ++ (naks1 ++ [ack1]).flatMap Waiting.messages ++ later1.flatMap Traffic.messages = skipped1 ++ version :: left)
    (hskip1 : ∀ m ∈ skipped1, ¬ AnswerFrom dst m) (hans1 : AnswerFrom dst version) (hack1 : ¬ isNak version.flags)
    (hreads : later1.length = skipped1.length + 1)
    (hall2 : left ++ (naks2 ++ [ack2]).flatMap Waiting.messages ++ later2.flatMap Traffic.messages =
      skipped2 ++ yes :: (others ++ announcement :: tail))
    (hskip2 : ∀ m ∈ skipped2, ¬ AnswerFrom dst m) (hans2 : AnswerFrom dst yes) (hack2 : ¬ isNak yes.flags)
    (hothers : ∀ m ∈ others, cmd1 m ≠ 1 ∧ cmd1 m ≠ 2) (hann : cmd1 announcement = 1 ∨ cmd1 announcement = 2)
    (hroom1 : (unread ++ (naks1 ++ [ack1]).flatMap Waiting.messages).length ≤ 10)
    (htime1 : InTime (unread ++ (naks1 ++ [ack1]).flatMap Waiting.messages).length (skipped1.length + 1) (later1.map List.length))
    (hroom2 : (left ++ (naks2 ++ [ack2]).flatMap Waiting.messages).length ≤ 10)
    (htime2 : InTime (left ++ (naks2 ++ [ack2]).flatMap Waiting.messages).length (skipped2.length + 1 + (others.length + 1)) (later2.map List.length))
    (hfuel : skipped1.length < fuel ∧ skipped2.length < fuel ∧ others.length < fuel) :
    ∃ live' info, Dev.open (Live.msgIO retries fuel) fuel live dst = some (live', .ok (true, info, none))
      ∧ info.address = dst ∧ info.engineVersion.toNat = cmd2 version
      ∧ info.devCat.1.toNat = announcement.dst.toNat / 65536 % 256 ∧ info.devCat.2.toNat = announcement.dst.toNat / 256 % 256
      ∧ info.firmwareVersion.toNat = announcement.dst.toNat % 256
      ∧ live'.sent = live.sent ++ List.replicate (naks1.length + 1) (request (versionQuery dst))
        ++ List.replicate (naks2.length + 1) (request (identityQuery dst))
      ∧ live'.port.pktQ = []
      ∧ ∃ unread', live'.port.msgQ = asPackets unread' ∧
          unread' ++ (later2.drop (skipped2.length + 1 + (others.length + 1))).flatMap Traffic.messages = tail := by
  have hd : later1.drop (skipped1.length + 1) = [] := List.drop_eq_nil_of_le (by omega)
  obtain ⟨live1, u1, h1, h2, h3, h4, h5, h6, h7⟩ := write_end_to_end (versionQuery dst) version retries fuel live unread skipped1 left naks1 ack1 later1 _
    hopen hpkt hunread hslots (Or.inr (by omega)) hnaks.1 (fun w hw => hok w (by simp at hw ⊢; tauto)) (fun t ht => hlater t (by simp [ht])) hproper hall1
    hskip1 hans1 hroom1 htime1 hfuel.1
  rw [hd] at h6 h7
  simp only [List.flatMap_nil, List.append_nil] at h7
  subst h7
  have hleft : ∀ m ∈ u1, Proper m := fun m hm => proper_heard unread (naks1 ++ [ack1]) later1 hproper (fun w hw => hok w (by simp at hw ⊢; tauto))
    (fun t ht => hlater t (by simp [ht])) m (by rw [hall1]; simp [hm])
  obtain ⟨ht1, ht2, hle⟩ := inTime_split _ _ _ _ htime2
  obtain ⟨live2, u2, g1, g2, g3, g4, g5, g6, g7⟩ := write_end_to_end (identityQuery dst) yes retries fuel live1 u1 skipped2 (others ++ announcement :: tail)
    naks2 ack2 later2 [] h4 h3 h5 (by simpa using h6) (Or.inl rfl) hnaks.2 (fun w hw => hok w (by simp at hw ⊢; tauto)) (fun t ht => hlater t (by simp [ht]))
    hleft hall2 hskip2 hans2 hroom2 ht1 hfuel.2.1
  have hu2 := left_length _ skipped2 u2 yes later2 (skipped2.length + 1) _ hall2 g7 rfl
  obtain ⟨live3, u3, k1, k2, k3, k4, k5, k6, k7⟩ := live_delivers retries fuel (others ++ [announcement]) tail (later2.drop (skipped2.length + 1)) live2 u2
    (fun t ht => hlater t (by simp [List.mem_of_mem_drop ht])) (by simpa using g6) g4 g3 g5
    (fun m hm => proper_heard u1 (naks2 ++ [ack2]) later2 hleft (fun w hw => hok w (by simp at hw ⊢; tauto)) (fun t ht => hlater t (by simp [ht])) m
      (by rw [hall2]; simp at hm ⊢; tauto)) (by simpa using g7) (by rw [hu2, List.map_drop]; simpa using ht2)
  rw [List.drop_drop] at k7
  obtain ⟨live4, r1, r2⟩ := devRead_delivers (Live.msgIO retries fuel)
    (Matcher.or [Matcher.cmd Cmd.setButtonPressedResponder, Matcher.cmd Cmd.setButtonPressedController]) others announcement [] live2 live3 fuel k1
    (fun x hx => by
      rw [Bool.eq_false_iff, ne_eq, id_matcher]
      have := hothers x hx
      tauto) ((id_matcher _).2 hann) hfuel.2.2
  cases r2
  refine ⟨live3, ⟨dst, (byte32 (announcement.dst >>> 16), byte32 (announcement.dst >>> 8)), (byte32 announcement.dst).setWidth 64,
    version.command.command2⟩, ?_, rfl, ?_, ?_, ?_, ?_, by rw [k2, g2, h2], k3, u3, k5, by simpa using k7⟩
  · have w1 : (Live.msgIO retries fuel).write live ⟨0, dst, Flags.standardDirectMessage, Cmd.getEngineVersion, []⟩ = (live1, .ret (some version) none) := by
      show (match Plm.write Live.io retries fuel live (versionQuery dst) with | some r => r | none => (live, .panic)) = _
      rw [h1, if_neg hack1]
    have w2 : (Live.msgIO retries fuel).write live1 ⟨0, dst, Flags.standardDirectMessage, Cmd.idRequest, []⟩ = (live2, .ret (some yes) none) := by
      show (match Plm.write Live.io retries fuel live1 (identityQuery dst) with | some r => r | none => (live1, .panic)) = _
      rw [g1, if_neg hack2]
    unfold Dev.open getEngineVersion
    rw [w1]
    dsimp only
    unfold idRequest
    rw [w2]
    dsimp only
    rw [r1]
  · exact command2_toNat _
  · dsimp only; rw [byte32_shr_toNat]; norm_num
  · dsimp only; rw [byte32_shr_toNat]; norm_num
  · rw [BitVec.toNat_setWidth, byte32_toNat]; omega

/-- C189: a device that does not accept the modem refuses the first question with 0xff. It is returned all the same, with the error that says so, and nothing
more is asked. -/
theorem open_serial_unlinked (dst : Address) (retries fuel : Nat) (live : Live) (unread skipped more : List Message) (naks : List Waiting) (ack : Waiting)
    (later : List Traffic) (refusal : Message)
    (hopen : live.port.closed = false) (hpkt : live.port.pktQ = []) (hunread : live.port.msgQ = asPackets unread) (hproper : ∀ m ∈ unread, Proper m)
    (hslots : live.slots = naks.map (fun w => line (w.items (versionQuery dst) 0x15#8)) ++ [line (ack.items (versionQuery dst) 0x06#8)]
      ++ later.map (fun t : Traffic => line t.items))
    (hok : ∀ w ∈ naks ++ [ack], w.ok) (hlater : ∀ t ∈ later, t.ok) (hnaks : naks.length ≤ retries)
    (hall : unread ++ (naks ++ [ack]).flatMap Waiting.messages ++ later.flatMap Traffic.messages = skipped ++ refusal :: more)
    (hskip : ∀ m ∈ skipped, ¬ AnswerFrom dst m) (hans : AnswerFrom dst refusal) (hnak : isNak refusal.flags) (hff : cmd2 refusal = 0xff)
    (hroom : (unread ++ (naks ++ [ack]).flatMap Waiting.messages).length ≤ 10)
    (htime : InTime (unread ++ (naks ++ [ack]).flatMap Waiting.messages).length (skipped.length + 1) (later.map List.length))
    (hfuel : skipped.length < fuel) :
    ∃ live' info, Dev.open (Live.msgIO retries fuel) fuel live dst = some (live', .ok (true, info, some .notLinked))
      ∧ info.address = dst ∧ info.engineVersion.toNat = 2
      ∧ live'.sent = live.sent ++ List.replicate (naks.length + 1) (request (versionQuery dst)) := by
  obtain ⟨live1, u1, h1, h2, -⟩ := write_end_to_end (versionQuery dst) refusal retries fuel live unread skipped more naks ack later []
    hopen hpkt hunread (by simpa using hslots) (Or.inl rfl) hnaks hok hlater hproper hall hskip hans hroom htime hfuel
  refine ⟨live1, ⟨dst, (0, 0), 0, 2⟩, ?_, rfl, rfl, h2⟩
  have w1 : (Live.msgIO retries fuel).write live ⟨0, dst, Flags.standardDirectMessage, Cmd.getEngineVersion, []⟩ =
      (live1, .ret (some refusal) (some .devNak)) := by
    show (match Plm.write Live.io retries fuel live (versionQuery dst) with | some r => r | none => (live, .panic)) = _
    rw [h1, if_pos hnak]
  have hc : refusal.command.command2 = 0xff#64 := by
    rw [← BitVec.toNat_inj, command2_toNat]
    exact hff
  unfold Dev.open getEngineVersion
  rw [w1]
  dsimp only
  rw [if_pos rfl, if_pos hc]
  rfl

/-! A dimmer at 11.22.33 is opened. The modem refuses the first question once and noise and a message of another device come in between. -/

def exVersion : Message := ⟨0x112233, 0x0000aa, 0x2b, 0x000d02, []⟩
def exYes : Message := ⟨0x112233, 0x0000aa, 0x2b, 0x001000, []⟩
def exAnnouncement : Message := ⟨0x112233, 0x012041, 0x8b, 0x080100, []⟩
def exLater1 : List Traffic := [[], [([0x77#8], exVersion)]]
def exLater2 : List Traffic := [[([], exYes)], [([], exOther)], [([], exAnnouncement)]]
def exOpenLive : Live := Live.init ([line (exNak.items (versionQuery 0x112233) 0x15), line (exAck.items (versionQuery 0x112233) 0x06)]
  ++ exLater1.map (fun t => line t.items) ++ ([line ((⟨[], [], []⟩ : Waiting).items (identityQuery 0x112233) 0x06)] ++ exLater2.map fun t => line t.items))

example : ∃ live' info, Dev.open (Live.msgIO 3 20) 20 exOpenLive 0x112233 = some (live', .ok (true, info, none)) ∧
    info.engineVersion.toNat = 2 ∧ info.devCat = (1, 0x20) ∧ info.firmwareVersion.toNat = 0x41 := by
  have hp : ∀ m ∈ [exVersion, exYes, exAnnouncement, exOther], Proper m := by
    intro m hm
    simp only [List.mem_cons, List.not_mem_nil, or_false] at hm
    rcases hm with rfl | rfl | rfl | rfl <;> exact ⟨by decide, by decide, by decide, by decide⟩
  obtain ⟨l, i, h, -, h1, h2, h3, h4, -⟩ := open_serial 0x112233 3 20 exOpenLive [] [] [] [exNak] exAck exLater1 [exOther] exVersion
    [] ⟨[], [], []⟩ exLater2 [] exYes [exOther] exAnnouncement rfl rfl rfl (by simp) rfl
    (by
      intro w hw
      simp only [List.cons_append, List.nil_append, List.mem_cons, List.not_mem_nil, or_false] at hw
      rcases hw with rfl | rfl | rfl
      · exact ⟨by simp [exNak, Traffic.ok], quiet_one _, by simp [exNak, Traffic.ok]⟩
      · refine ⟨?_, quiet_nil, by simp [exAck, Traffic.ok]⟩
        simp only [exAck, Traffic.ok, List.mem_singleton, forall_eq]
        exact ⟨quiet_cons _ _ _ (by simp [Known, lengthTable]) (quiet_one _), exProper.1⟩
      · exact ⟨by simp [Traffic.ok], quiet_nil, by simp [Traffic.ok]⟩)
    (by simp [exLater1, exLater2, Traffic.ok, quiet_nil, quiet_one, hp])
    (by decide) (by decide) (by simp [AnswerFrom, exOther]) (by unfold AnswerFrom; decide) (by decide) (by decide) (by decide) (by simp)
    (by unfold AnswerFrom; decide) (by decide) (by decide) (by decide) (by decide)
    (by simp [InTime, exLater1, Waiting.messages, Traffic.messages, exNak, exAck]) (by decide)
    (by simp [InTime, exLater2, Waiting.messages, Traffic.messages]) (by decide)
  refine ⟨l, i, h, h1, Prod.ext ?_ ?_, h4⟩
  · exact BitVec.eq_of_toNat_eq h2
  · exact BitVec.eq_of_toNat_eq h3

end Insteon
