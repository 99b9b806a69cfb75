import Verif.Spec.Line
import Verif.Props.Answers
import Verif.Props.FarDevice

/-
C205: calls on devices over a serial line and over messages.
-/

namespace Insteon
open Insteon.Spec

theorem run_arrivals_full (s : PortSt) (ps : List Packet) (hc : s.closed = false) (hm : s.msgQ.length ≤ 10) (hp : s.pktQ.length ≤ 10) :
    (Port.run s (ps.map .arrive)).1 = ⟨(s.msgQ ++ ps.filter Port.isMsg).take 10, (s.pktQ ++ ps.filter (fun p => !Port.isMsg p)).take 10, false⟩ := by
  induction ps generalizing s with
  | nil =>
    obtain ⟨a, b, c⟩ := s
    simp only at hc hm hp
    simp only [List.map_nil, Port.run, List.filter_nil, List.append_nil, hc, List.take_of_length_le hm, List.take_of_length_le hp]
  | cons p ps ih =>
    simp only [List.map_cons, Port.run]
    have full : ∀ (q l : List Packet) (p : Packet), q.length ≤ 10 → ¬ q.length < 10 → (q ++ l).take 10 = (q ++ p :: l).take 10 := by
      intro q l p h1 h2
      have : q.length = 10 := by omega
      rw [List.take_append_of_le_length (by omega), List.take_append_of_le_length (by omega)]
    by_cases hk : Port.isMsg p = true
    · simp only [List.filter_cons, hk, if_true, Bool.not_true, Bool.false_eq_true, if_false]
      by_cases hl : s.msgQ.length < 10
      · have hstep : Port.step s (.arrive p) = ({ s with msgQ := s.msgQ ++ [p] }, .queued p) := by
          simp only [Port.step, hc, hk, Port.cap, Bool.false_eq_true, if_false, if_true]
          rw [if_pos hl]
        rw [hstep]
        dsimp only
        rw [ih { s with msgQ := s.msgQ ++ [p] } hc (by simp; omega) hp]
        simp
      · have hstep : Port.step s (.arrive p) = (s, .dropped p) := by
          simp only [Port.step, hc, hk, Port.cap, Bool.false_eq_true, if_false, if_true]
          rw [if_neg hl]
        rw [hstep]
        dsimp only
        rw [ih s hc hm hp, full _ _ p hm hl]
    · have hk' : Port.isMsg p = false := by simpa using hk
      simp only [List.filter_cons, hk', if_true, Bool.not_false, Bool.false_eq_true, if_false]
      by_cases hl : s.pktQ.length < 10
      · have hstep : Port.step s (.arrive p) = ({ s with pktQ := s.pktQ ++ [p] }, .queued p) := by
          simp only [Port.step, hc, hk', Port.cap, Bool.false_eq_true, if_false]
          rw [if_pos hl]
        rw [hstep]
        dsimp only
        rw [ih { s with pktQ := s.pktQ ++ [p] } hc hm (by simp; omega)]
        simp
      · have hstep : Port.step s (.arrive p) = (s, .dropped p) := by
          simp only [Port.step, hc, hk', Port.cap, Bool.false_eq_true, if_false]
          rw [if_neg hl]
        rw [hstep]
        dsimp only
        rw [ih s hc hm hp, full _ _ p hp hl]

theorem keep_proper (old new : List Message) (h1 : ∀ m ∈ old, Proper m) (h2 : ∀ m ∈ new, Proper m) : (keep old new).length ≤ 10 ∧ ∀ m ∈ keep old new, Proper m := by
  refine ⟨by simp [keep], fun m hm => ?_⟩
  rcases List.mem_append.mp (List.mem_of_mem_take hm) with h | h
  · exact h1 m h
  · exact h2 m h

theorem waiting_proper (w : Waiting) (h : w.ok) : ∀ m ∈ w.messages, Proper m := by
  intro m hm
  simp only [Waiting.messages, Traffic.messages, List.mem_append, List.mem_map] at hm
  rcases hm with ⟨x, hx, rfl⟩ | ⟨x, hx, rfl⟩
  · exact (h.1 x hx).2
  · exact (h.2.2 x hx).2

/-- The next message. -/
theorem wired_rxMsg {δ : Type} (react : δ → Bytes → δ × Bytes) (d : δ) (m : Message) (ms : List Message) (h : Proper m) :
    Plm.read (Wired.io react) ⟨⟨asPackets (m :: ms), [], false⟩, [], d⟩ = (⟨⟨asPackets ms, [], false⟩, [], d⟩, .ret (some m) none) := by
  have hrx : (Wired.io react).rxMsg ⟨⟨asPackets (m :: ms), [], false⟩, [], d⟩ = (⟨⟨asPackets ms, [], false⟩, [], d⟩, .packet (heard m).packet) := rfl
  simp only [Plm.read, hrx, heard_decode m h]

section
variable {δ : Type} (net : Network δ) (hnet : net.Lawful)

/-- What the reader does with what the line carries. -/
theorem line_feed (left : List Message) (hleft : left.length ≤ 10) (its : Items) (d : δ) (ms : List Message) (ps : List Packet)
    (hok : ∀ it ∈ its, Quiet it.1 ∧ it.2.wellFormed) (hm : (its.map fun it => it.2.packet).filter Port.isMsg = asPackets ms)
    (hp : (its.map fun it => it.2.packet).filter (fun p => !Port.isMsg p) = ps) (hl : ps.length ≤ 10) :
    (⟨⟨asPackets left, [], false⟩, line its, d⟩ : Wired δ).feed = ⟨⟨asPackets (keep left ms), ps, false⟩, [], d⟩ := by
  simp only [Wired.feed, arrivals_line its hok]
  rw [run_arrivals_full _ _ rfl (by simpa [asPackets] using hleft) (by simp), hm, hp]
  simp only [List.nil_append, List.take_of_length_le hl, keep, asPackets, List.map_take, List.map_append]

include hnet in
/-- One attempt. -/
theorem line_attempt (m : Message) (s : Inbox δ) (hs : s.unread.length ≤ 10) (d : δ) (v : Verdict) (w : Waiting) (h : net s.net (afterSource m) = (d, v, w)) :
    ∃ a, Plm.writePacket (Wired.io net.modem) ⟨⟨asPackets s.unread, [], false⟩, [], s.net⟩ ⟨0x62#8, afterSource m, 0#8⟩ =
      (⟨⟨asPackets (keep s.unread w.messages), [], false⟩, [], d⟩, .ret a v.error) := by
  have hw : w.ok := by have := hnet s.net (afterSource m); rw [h] at this; exact this
  have htx : (Wired.io net.modem).tx ⟨⟨asPackets s.unread, [], false⟩, [], s.net⟩ (0x02#8 :: 0x62#8 :: afterSource m) =
      (⟨⟨asPackets s.unread, [], false⟩, line (answerItems (afterSource m) v w), d⟩, none) := by
    simp only [Wired.io, Network.modem, h, List.nil_append]
  cases v with
  | silent =>
    have hok : ∀ it ∈ answerItems (afterSource m) .silent w, Quiet it.1 ∧ it.2.wellFormed := by
      intro it hit
      rcases List.mem_append.mp hit with hit | hit
      · exact traffic_ok_items _ hw.1 _ hit
      · exact traffic_ok_items _ hw.2.2 _ hit
    have hpk : (answerItems (afterSource m) .silent w).map (fun it => it.2.packet) = asPackets w.messages := by
      simp only [answerItems, List.map_append, traffic_packets, Waiting.messages, asPackets, List.map_append]
    have hf := line_feed s.unread hs _ d w.messages [] hok (by rw [hpk, (filter_asPackets _).1]) (by rw [hpk, (filter_asPackets _).2]) (by simp)
    refine ⟨none, ?_⟩
    unfold Plm.writePacket
    rw [show (⟨0x62#8, afterSource m, 0#8⟩ : Packet).marshalBinary = 0x02#8 :: 0x62#8 :: afterSource m from rfl, htx]
    dsimp only
    simp only [Wired.io, hf]
    rfl
  | accepts =>
    obtain ⟨h1, h2, h3⟩ := answer_items w m 0x06#8 [] [] hw (by simp) rfl
    simp only [List.append_nil] at h1 h2 h3
    have hf := line_feed s.unread hs _ d w.messages _ h1 h2 h3 (by simp)
    have hrx : (Wired.io net.modem).rxPacket ⟨⟨asPackets s.unread, [], false⟩, line (w.items m 0x06#8), d⟩ =
        (⟨⟨asPackets (keep s.unread w.messages), [], false⟩, [], d⟩, .packet (reply m 0x06#8).packet) := by
      simp only [Wired.io, hf]; rfl
    refine ⟨_, (writePacket_success _ _ _ _ _).mpr ⟨_, _, htx, hrx, rfl, ?_⟩⟩
    rw [reply_packet]
    exact ⟨rfl, by dsimp only; decide, rfl, fun _ _ => ⟨_, _, _, rfl⟩⟩
  | refuses =>
    obtain ⟨h1, h2, h3⟩ := answer_items w m 0x15#8 [] [] hw (by simp) rfl
    simp only [List.append_nil] at h1 h2 h3
    have hf := line_feed s.unread hs _ d w.messages _ h1 h2 h3 (by simp)
    have hrx : (Wired.io net.modem).rxPacket ⟨⟨asPackets s.unread, [], false⟩, line (w.items m 0x15#8), d⟩ =
        (⟨⟨asPackets (keep s.unread w.messages), [], false⟩, [], d⟩, .packet (reply m 0x15#8).packet) := by
      simp only [Wired.io, hf]; rfl
    refine ⟨_, writePacket_nak _ _ _ _ _ _ htx hrx ?_ ?_ ?_⟩
    · rw [reply_packet]; dsimp only; decide
    · rw [reply_packet]
    · intro _; rw [reply_packet]; simp

include hnet in
/-- All attempts. -/
theorem line_post (m : Message) (n : Nat) : ∀ (s : Inbox δ) (cur : PRes), s.unread.length ≤ 10 → (∀ x ∈ s.unread, Proper x) →
    (n = 0 → ∃ a, cur = .ret a (some .plmNak)) →
    ∃ a, retryLoop (Plm.writePacket (Wired.io net.modem)) true ⟨0x62#8, afterSource m, 0#8⟩ n ⟨⟨asPackets s.unread, [], false⟩, [], s.net⟩ cur =
      (⟨⟨asPackets (post net (afterSource m) n s).1.unread, [], false⟩, [], (post net (afterSource m) n s).1.net⟩,
        .ret a (post net (afterSource m) n s).2.error) ∧
      (post net (afterSource m) n s).1.unread.length ≤ 10 ∧ ∀ x ∈ (post net (afterSource m) n s).1.unread, Proper x := by
  induction n with
  | zero =>
    intro s cur h1 h2 h3
    obtain ⟨a, rfl⟩ := h3 rfl
    exact ⟨a, rfl, h1, h2⟩
  | succ n ih =>
    intro s cur h1 h2 _
    rcases hx : net s.net (afterSource m) with ⟨d, v, w⟩
    have hw : w.ok := by have := hnet s.net (afterSource m); rw [hx] at this; exact this
    obtain ⟨a, ha⟩ := line_attempt net hnet m s h1 d v w hx
    obtain ⟨k1, k2⟩ := keep_proper s.unread w.messages h2 (waiting_proper w hw)
    rw [retryLoop, ha]
    unfold post
    rw [hx]
    cases v with
    | accepts => exact ⟨a, by simp [retryable, Verdict.error], k1, k2⟩
    | silent => exact ⟨a, by simp [retryable, Verdict.error], k1, k2⟩
    | refuses =>
      dsimp only
      rw [if_pos (by simp [retryable, Verdict.error])]
      exact ih ⟨d, keep s.unread w.messages⟩ _ k1 k2 (fun _ => ⟨a, rfl⟩)

theorem line_await (dst : Address) (d : δ) (ms : List Message) : ∀ fuel, ms.length < fuel → (∀ x ∈ ms, Proper x) →
    Plm.awaitAck (Wired.io net.modem) dst fuel ⟨⟨asPackets ms, [], false⟩, [], d⟩ =
      some (⟨⟨asPackets (answerOf dst ms).1, [], false⟩, [], d⟩, (answerOf dst ms).2) := by
  induction ms with
  | nil =>
    intro fuel hf _
    obtain ⟨fuel, rfl⟩ : ∃ k, fuel = k + 1 := ⟨fuel - 1, by omega⟩
    rfl
  | cons m ms ih =>
    intro fuel hf hp
    obtain ⟨fuel, rfl⟩ : ∃ k, fuel = k + 1 := ⟨fuel - 1, by simp at hf; omega⟩
    have hfl := flag_classification m.flags
    rw [Plm.awaitAck, wired_rxMsg _ _ _ _ (hp m (by simp))]
    dsimp only
    unfold answerOf
    by_cases hc : m.src = dst ∧ (isAck m.flags ∨ isNak m.flags)
    · rw [if_pos (by rw [hfl.1, hfl.2.1]; exact hc), if_pos hc]
      simp only [hfl.2.1]
    · rw [if_neg (by rw [hfl.1, hfl.2.1]; exact hc), if_neg hc]
      exact ih fuel (by simp at hf; omega) fun x hx => hp x (by simp [hx])

theorem answerOf_sub (dst : Address) (ms : List Message) : (answerOf dst ms).1 <:+ ms := by
  induction ms with
  | nil => exact List.suffix_refl _
  | cons m ms ih =>
    unfold answerOf
    split
    · exact List.suffix_cons _ _
    · exact ih.trans (List.suffix_cons _ _)

include hnet in
/-- The PLM on this line and the network as message writer answer alike. -/
theorem line_alike (retries fuel : Nat) (hf : 10 < fuel) (Q : Message → Prop) :
    AnswerAlike Q (Wired.msgIO net.modem retries fuel) (net.writer retries) OnLine where
  read := by
    rintro w ⟨d, ms⟩ ⟨hw, hl, hp⟩
    replace hw : w = ⟨⟨asPackets ms, [], false⟩, [], d⟩ := hw
    subst hw
    dsimp only at hl hp ⊢
    rcases ms with _ | ⟨m, ms⟩
    · exact ⟨rfl, rfl, by simp [Network.writer], by simp [Network.writer]⟩
    · have h := wired_rxMsg net.modem d m ms (hp m (by simp))
      simp only [Wired.msgIO, h, Network.writer]
      exact ⟨trivial, rfl, by simp at hl ⊢; omega, fun x hx => hp x (by simp [hx])⟩
  write := by
    rintro w ⟨d, ms⟩ m ⟨hw, hl, hp⟩ _
    replace hw : w = ⟨⟨asPackets ms, [], false⟩, [], d⟩ := hw
    subst hw
    dsimp only at hl hp ⊢
    obtain ⟨a, h1, h2, h3⟩ := line_post net hnet m (retries + 1) ⟨d, ms⟩ (.ret none none) hl hp (by simp)
    have hw : retryWrite (Plm.writePacket (Wired.io net.modem)) (retries : Int) true ⟨⟨asPackets ms, [], false⟩, [], d⟩ ⟨PCmd.sendInsteonMsg, m.marshalBinary.drop 3, 0#8⟩ =
        retryLoop (Plm.writePacket (Wired.io net.modem)) true ⟨0x62#8, afterSource m, 0#8⟩ (retries + 1) ⟨⟨asPackets ms, [], false⟩, [], d⟩ (.ret none none) := by
      rw [← afterSource_drop]
      simp only [retryWrite, PCmd.sendInsteonMsg]
      rw [show ((retries : Int) + 1).toNat = retries + 1 by omega]
    dsimp only at h1
    rw [h1] at hw
    simp only [Wired.msgIO, Plm.write, hw, Network.writer]
    rcases hx : post net (afterSource m) (retries + 1) ⟨d, ms⟩ with ⟨s, v⟩
    rw [hx] at h2 h3
    dsimp only at h2 h3 ⊢
    cases v with
    | accepts =>
      simp only [Verdict.error]
      rw [line_await net m.dst s.net s.unread fuel (by omega) h3]
      have hs := answerOf_sub m.dst s.unread
      exact ⟨rfl, rfl, le_trans hs.length_le h2, fun x hx => h3 x (hs.subset hx)⟩
    | refuses => exact ⟨rfl, rfl, h2, h3⟩
    | silent => exact ⟨rfl, rfl, h2, h3⟩

include hnet in
/-- C205: a call on a device over the serial line and the same call with the network as message writer: it ends with both or with none, returns the same,
values and errors, and leaves the network in the same state, with the same messages unread. -/
theorem line_transparent (info : DeviceInfo) (c : DeviceCall) (retries fuel wait : Nat) (hw : 10 < wait) (w : Wired δ) (s : Inbox δ) (h : OnLine w s) :
    match c.result info (Wired.msgIO net.modem retries wait) fuel w, c.result info (net.writer retries) fuel s with
    | some (w', x), some (s', y) => x = y ∧ OnLine w' s'
    | none, none => True
    | _, _ => False := by
  have h1 := calls_same_answers info c fuel _ _ _ (line_alike net hnet retries wait hw _) w s h
  rcases hx : c.result info (Wired.msgIO net.modem retries wait) fuel w with _ | ⟨s', x⟩ <;>
    rcases hy : c.result info (net.writer retries) fuel s with _ | ⟨t', y⟩ <;> rw [hx, hy] at h1 <;> dsimp only at h1 ⊢
  exact h1

end

/-- C205: every PLM starts out like this. -/
theorem line_start {δ : Type} (d : δ) : OnLine (Wired.init d) ⟨d, []⟩ := ⟨rfl, by simp, by simp⟩

/-- C205: several calls one after the other. -/
theorem line_calls {δ : Type} (net : Network δ) (hnet : net.Lawful) (retries fuel wait : Nat) (hw : 10 < wait) (cs : List (DeviceInfo × DeviceCall)) (w : Wired δ) (s : Inbox δ)
    (h : OnLine w s) : results (Wired.msgIO net.modem retries wait) fuel w cs = results (net.writer retries) fuel s cs := by
  induction cs generalizing w s with
  | nil => rfl
  | cons c cs ih =>
    have h1 := line_transparent net hnet c.1 c.2 retries fuel wait hw w s h
    rcases hx : c.2.result c.1 (Wired.msgIO net.modem retries wait) fuel w with _ | ⟨s', x⟩ <;>
      rcases hy : c.2.result c.1 (net.writer retries) fuel s with _ | ⟨t', y⟩ <;> rw [hx, hy] at h1 <;> dsimp only at h1
    · simp only [results, hx, hy]
    · simp only [results, hx, hy]
      rw [h1.1, ih _ _ h1.2]

/-- A light 1.2.3 behind a modem that is busy every other time, with another device that keeps talking. -/
def busyLamp : Network (Bool × BitVec 8) := fun s body =>
  if s.1 then ((false, s.2), .refuses, ⟨[([0x15#8], ⟨0x112233#32, 0x0a0b0c#32, 0x8b#8, 0x080100#64, []⟩)], [], []⟩)
  else
    let next := if body.getD 4 0 = 0x19#8 then s.2 else if body.getD 4 0 = 0x13#8 then 0#8 else body.getD 5 0
    ((true, next), .accepts, ⟨[], [], [([], ⟨0x112233#32, 0x0a0b0c#32, 0x8b#8, 0x080000#64, []⟩), ([], ⟨0x010203#32, 0x0a0b0c#32, 0x2b#8, BitVec.ofNat 64 (256 * (body.getD 4 0).toNat + next.toNat), []⟩)]⟩)

theorem quiet_short (s : List (BitVec 8)) (h : 0x02#8 ∉ s) : Quiet s := by
  rintro ⟨a, c, b, rfl, -⟩
  simp at h

/-- The hypotheses can be met. -/
theorem busyLamp_lawful : busyLamp.Lawful := by
  intro s body
  have hb : Proper ⟨0x112233#32, 0x0a0b0c#32, 0x8b#8, 0x080000#64, []⟩ := ⟨by decide, by decide, by decide, by decide⟩
  have hb' : Proper ⟨0x112233#32, 0x0a0b0c#32, 0x8b#8, 0x080100#64, []⟩ := ⟨by decide, by decide, by decide, by decide⟩
  have hc : ∀ a b : BitVec 8, Proper ⟨0x010203#32, 0x0a0b0c#32, 0x2b#8, BitVec.ofNat 64 (256 * a.toNat + b.toNat), []⟩ := fun a b =>
    ⟨show (0x010203#32).toNat < 2 ^ 24 by decide, show (0x0a0b0c#32).toNat < 2 ^ 24 by decide, by
      rw [show commandClass 0x2b#8 = 0 by decide]
      simp only [BitVec.toNat_ofNat]
      omega, by show if isExtended 0x2b#8 then _ else _; rw [if_neg (by decide)]⟩
  have q0 : Quiet [] := quiet_short [] (by simp)
  have q1 : Quiet [0x15#8] := quiet_short _ (by decide)
  unfold busyLamp
  split
  · exact ⟨by simpa [Traffic.ok] using ⟨q1, hb'⟩, q0, by simp [Traffic.ok]⟩
  · exact ⟨by simp [Traffic.ok], q0, by
      intro x hx
      simp only [List.mem_cons, List.not_mem_nil, or_false] at hx
      rcases hx with rfl | rfl
      · exact ⟨q0, hb⟩
      · exact ⟨q0, hc _ _⟩⟩

/-- The light is turned on, asked, turned off and asked again. -/
example : (results (busyLamp.writer 3) 5 ⟨(false, 0#8), []⟩ [(⟨0x010203#32, (1, 0), 0, 1⟩, .turnOn 0x7f), (⟨0x010203#32, (1, 0), 0, 1⟩, .lightStatus),
      (⟨0x010203#32, (1, 0), 0, 1⟩, .turnOff), (⟨0x010203#32, (1, 0), 0, 1⟩, .lightStatus)]) =
    [some ⟨.turnOn 0x7f, none, .ok (none : Option Err)⟩, some ⟨.lightStatus, none, .ok ((0x7f#64, none) : BitVec 64 × Option Err)⟩,
      some ⟨.turnOff, none, .ok (none : Option Err)⟩, some ⟨.lightStatus, none, .ok ((0x00#64, none) : BitVec 64 × Option Err)⟩] := rfl

end Insteon
