import Verif.Spec.Live
import Verif.Props.Plm
import Verif.Props.Device

/-
Properties C103 - C106: calls on a running PLM, from the bytes on the serial line to their results.
-/

namespace Insteon
open Spec

/-! ### The line -/

theorem readAll_items (items : Items) (hok : ∀ it ∈ items, Quiet it.1 ∧ it.2.wellFormed) :
    ∀ fuel > (line items).length, ∀ n > items.length, ∀ l,
      readAll false fuel n ⟨line items, l⟩ = some (items.map (fun it => it.2.packet), .err .eof) := by
  induction items with
  | nil =>
    intro fuel hfuel n hn l
    obtain ⟨m, rfl⟩ : ∃ m, n = m + 1 := ⟨n - 1, by simp at hn; omega⟩
    have hq : Quiet [] := by rintro ⟨a, c, b, h, -⟩; simp at h
    obtain ⟨l', h⟩ := sync_quiet_end false [] hq (by simp) fuel (by simpa [line] using hfuel) l
    simp [readAll, readPacket, readFrame, line, h]
  | cons it items ih =>
    intro fuel hfuel n hn l
    obtain ⟨m, rfl⟩ : ∃ m, n = m + 1 := ⟨n - 1, by simp at hn; omega⟩
    have hlen : (line (it :: items)).length = it.1.length + it.2.bytes.length + (line items).length := by
      simp [line, Nat.add_assoc]
    obtain ⟨l', h⟩ := read_one it.1 it.2 (line items) l fuel
      (hok it (by simp)).1 (hok it (by simp)).2 (by omega)
    have := ih (fun i hi => hok i (by simp [hi])) fuel (by omega) m (by simp at hn; omega) l'
    have hl : line (it :: items) = it.1 ++ (it.2.bytes ++ line items) := by simp [line]
    rw [hl]
    simp only [List.append_assoc] at h
    simp only [readAll, h, this, List.map_cons]

theorem readMany_all (ig : Bool) (fuel n : Nat) (b : Buf) (ps : List Packet) (r : Out Unit)
    (h : readAll ig fuel n b = some (ps, r)) : readMany ig fuel n b = ps := by
  induction n generalizing b ps r with
  | zero => simp [readAll] at h
  | succ n ih =>
    rw [readAll] at h
    rw [readMany]
    rcases hp : readPacket ig fuel b with _ | ⟨p | e | _, b'⟩ <;> rw [hp] at h <;> dsimp only at h ⊢
    · simp at h
    · rcases hr : readAll ig fuel n b' with _ | ⟨ps', r'⟩ <;> rw [hr] at h <;> simp only [Option.some.injEq, Prod.mk.injEq] at h
      · simp at h
      · rw [← h.1, ih _ _ _ hr]
    · simp at h; exact h.1.symm
    · simp at h; exact h.1.symm

theorem arrivals_line (items : Items) (hok : ∀ it ∈ items, Quiet it.1 ∧ it.2.wellFormed) :
    Live.arrivals (line items) = items.map (fun it => it.2.packet) := by
  have hlen : ∀ its : Items, its.length ≤ (line its).length := by
    intro its
    induction its with
    | nil => simp
    | cons it its ih =>
      have h : line (it :: its) = it.1 ++ it.2.bytes ++ line its := by simp [line]
      rw [h]
      simp only [List.length_append, List.length_cons, Frame.bytes]
      omega
  exact readMany_all _ _ _ _ _ _ (readAll_items items hok _ (by omega) _ (by have := hlen items; omega) _)

theorem addr3_bytes (a : Address) : addr3 a = a.bytes := by
  unfold addr3 Address.bytes
  congr 1
  · apply BitVec.eq_of_toNat_eq; rw [byte32_shr_toNat]; simp
  congr 1
  · apply BitVec.eq_of_toNat_eq; rw [byte32_shr_toNat]; simp

theorem afterSource_wire (m : Message) : m.marshalBinary = addr3 m.src ++ afterSource m := by
  have h1 : (m.command.command1.setWidth 8 : Byte) = BitVec.ofNat 8 (m.command.toNat / 256) := by
    rw [command1_byte]; apply BitVec.eq_of_toNat_eq; rw [extract_toNat]; simp
  have h2 : (m.command.command2.setWidth 8 : Byte) = BitVec.ofNat 8 m.command.toNat := by
    rw [command2_byte]; apply BitVec.eq_of_toNat_eq; rw [extract_toNat]; simp
  unfold Message.marshalBinary afterSource
  rw [addr3_bytes, addr3_bytes, h1, h2, copyPad_fit]
  have : (if m.flags.extended = true then fit 14 m.payload else []) =
      (if isExtended m.flags then fit 14 m.payload else []) := if_congr (extended_iff _) rfl rfl
  rw [this]
  simp

theorem afterSource_drop (m : Message) : m.marshalBinary.drop 3 = afterSource m := by
  rw [afterSource_wire]; rfl

theorem afterSource_length (m : Message) : (afterSource m).length = if isExtended m.flags then 20 else 6 := by
  have h := message_wire_length m
  rw [afterSource_wire] at h
  simp only [List.length_append, addr3, List.length_cons, List.length_nil] at h
  split_ifs at * <;> omega

theorem heard_wellFormed (m : Message) : (heard m).wellFormed := by
  have hl := afterSource_length m
  unfold Frame.wellFormed heard
  dsimp only
  by_cases hx : isExtended m.flags
  · simp only [hx, if_true] at *
    simp [addr3, hl, lengthTable]
  · simp only [hx, if_false] at *
    simp [addr3, hl, lengthTable]

theorem reply_wellFormed (m : Message) (st : Byte) : (reply m st).wellFormed := by
  have hl := afterSource_length m
  unfold Frame.wellFormed reply
  simp only [if_true]
  refine ⟨m.flags, by simp [afterSource, addr3], ?_⟩
  simp only [List.length_append, hl, List.length_cons, List.length_nil]
  split_ifs <;> rfl

theorem heard_packet (m : Message) :
    (heard m).packet = ⟨if isExtended m.flags then 0x51#8 else 0x50#8, m.marshalBinary, 0#8⟩ := by
  rw [afterSource_wire]
  unfold Frame.packet heard
  dsimp only
  by_cases hx : isExtended m.flags
  · simp [hx]
  · simp [hx]

theorem heard_isMsg (m : Message) : Port.isMsg (heard m).packet = true := by
  rw [heard_packet]
  by_cases hx : isExtended m.flags <;> simp [hx, Port.isMsg]

theorem reply_packet (m : Message) (st : Byte) :
    (reply m st).packet = ⟨0x62#8, [0, 0, 0] ++ afterSource m, st⟩ := by
  simp [Frame.packet, reply]

theorem heard_decode (m : Message) (h : Proper m) :
    Message.zero.unmarshalBinary (heard m).packet.payload = (m, none) := by
  rw [heard_packet]
  exact message_wire_roundtrip_exact m h.src h.dst h.cls h.payload

/-! ### The queues -/

theorem run_arrivals (s : PortSt) (ps : List Packet) (hc : s.closed = false)
    (hm : s.msgQ.length + (ps.filter Port.isMsg).length ≤ 10)
    (hp : s.pktQ.length + (ps.filter fun p => !Port.isMsg p).length ≤ 10) :
    (Port.run s (ps.map .arrive)).1 =
      ⟨s.msgQ ++ ps.filter Port.isMsg, s.pktQ ++ ps.filter (fun p => !Port.isMsg p), false⟩ := by
  induction ps generalizing s with
  | nil => obtain ⟨a, b, c⟩ := s; simp at hc; simp [Port.run, hc]
  | cons p ps ih =>
    simp only [List.map_cons, Port.run]
    by_cases hk : Port.isMsg p = true
    · simp only [List.filter_cons, hk, if_true, List.length_cons, Bool.not_true, Bool.false_eq_true, if_false] at hm hp ⊢
      have hstep : Port.step s (.arrive p) = ({ s with msgQ := s.msgQ ++ [p] }, .queued p) := by
        simp only [Port.step, hc, hk, Port.cap, Bool.false_eq_true, if_false, if_true]
        rw [if_pos (by omega)]
      rw [hstep]
      dsimp only
      rw [ih { s with msgQ := s.msgQ ++ [p] } hc (by simp; omega) (by simpa using hp)]
      simp
    · have hk' : Port.isMsg p = false := by simpa using hk
      simp only [List.filter_cons, hk', if_true, List.length_cons, Bool.not_false, Bool.false_eq_true, if_false] at hm hp ⊢
      have hstep : Port.step s (.arrive p) = ({ s with pktQ := s.pktQ ++ [p] }, .queued p) := by
        simp only [Port.step, hc, hk', Port.cap, Bool.false_eq_true, if_false]
        rw [if_pos (by omega)]
      rw [hstep]
      dsimp only
      rw [ih { s with pktQ := s.pktQ ++ [p] } hc (by simpa using hm) (by simp; omega)]
      simp

/-- Messages as the packets that carry them. -/
def asPackets (ms : List Message) : List Packet := ms.map fun m => (heard m).packet

theorem traffic_packets (t : Traffic) : t.items.map (fun it => it.2.packet) = asPackets t.messages := by
  simp [Traffic.items, asPackets, Traffic.messages]

theorem traffic_ok_items (t : Traffic) (h : t.ok) : ∀ it ∈ t.items, Quiet it.1 ∧ it.2.wellFormed := by
  intro it hit
  simp only [Traffic.items, List.mem_map] at hit
  obtain ⟨x, hx, rfl⟩ := hit
  exact ⟨(h x hx).1, heard_wellFormed _⟩

theorem filter_asPackets (ms : List Message) :
    (asPackets ms).filter Port.isMsg = asPackets ms ∧ (asPackets ms).filter (fun p => !Port.isMsg p) = [] := by
  induction ms with
  | nil => simp [asPackets]
  | cons m ms ih =>
    simp only [asPackets, List.map_cons] at *
    simp [heard_isMsg, ih]

theorem feed_traffic (s : Live) (t : Traffic) (rest : List Bytes) (ht : t.ok)
    (hs : s.slots = line t.items :: rest) (hc : s.port.closed = false)
    (hm : s.port.msgQ.length + t.messages.length ≤ 10) (hp : s.port.pktQ.length ≤ 10) :
    s.feed = { s with port := ⟨s.port.msgQ ++ asPackets t.messages, s.port.pktQ, false⟩, slots := rest } := by
  unfold Live.feed
  rw [hs]
  dsimp only
  rw [arrivals_line _ (traffic_ok_items t ht), traffic_packets]
  have hf := filter_asPackets t.messages
  rw [run_arrivals _ _ hc (by rw [hf.1]; simpa [asPackets] using hm) (by rw [hf.2]; simpa using hp)]
  simp [hf.1, hf.2]

theorem feed_waiting (s : Live) (w : Waiting) (msg : Message) (st : Byte) (rest : List Bytes) (hw : w.ok)
    (hs : s.slots = line (w.items msg st) :: rest) (hc : s.port.closed = false)
    (hm : s.port.msgQ.length + w.messages.length ≤ 10) (hp : s.port.pktQ.length < 10) :
    s.feed = { s with port := ⟨s.port.msgQ ++ asPackets w.messages, s.port.pktQ ++ [(reply msg st).packet], false⟩,
                      slots := rest } := by
  have hok : ∀ it ∈ w.items msg st, Quiet it.1 ∧ it.2.wellFormed := by
    intro it hit
    simp only [Waiting.items, List.mem_append, List.mem_singleton] at hit
    rcases hit with (h | rfl) | h
    · exact traffic_ok_items _ hw.1 _ h
    · exact ⟨hw.2.1, reply_wellFormed _ _⟩
    · exact traffic_ok_items _ hw.2.2 _ h
  unfold Live.feed
  rw [hs]
  dsimp only
  rw [arrivals_line _ hok]
  have hpk : (w.items msg st).map (fun it => it.2.packet) =
      asPackets w.before.messages ++ [(reply msg st).packet] ++ asPackets w.after.messages := by
    simp only [Waiting.items, List.map_append, traffic_packets, List.map_cons, List.map_nil]
  have hr : Port.isMsg (reply msg st).packet = false := by rw [reply_packet]; rfl
  have hf1 : ((w.items msg st).map (fun it => it.2.packet)).filter Port.isMsg = asPackets w.messages := by
    rw [hpk]
    simp only [List.filter_append, filter_asPackets, List.filter_cons, hr, List.filter_nil]
    simp [Waiting.messages, asPackets]
  have hf2 : ((w.items msg st).map (fun it => it.2.packet)).filter (fun p => !Port.isMsg p) = [(reply msg st).packet] := by
    rw [hpk]
    simp only [List.filter_append, filter_asPackets, List.filter_cons, hr, List.filter_nil]
    simp
  rw [run_arrivals _ _ hc (by rw [hf1]; simpa [asPackets] using hm) (by rw [hf2]; simp; omega)]
  rw [hf1, hf2]

/-! ### The modem accepts the message -/

/-- One attempt to hand a message to the modem. -/
theorem live_attempt (s : Live) (msg : Message) (w : Waiting) (st : Byte) (rest : List Bytes) (hw : w.ok)
    (hs : s.slots = line (w.items msg st) :: rest) (hc : s.port.closed = false) (hq : s.port.pktQ = [])
    (hm : s.port.msgQ.length + w.messages.length ≤ 10) (hst : st = 0x06#8 ∨ st = 0x15#8) :
    Plm.writePacket Live.io s ⟨0x62#8, afterSource msg, 0#8⟩ =
      (⟨⟨s.port.msgQ ++ asPackets w.messages, [], false⟩, s.sent ++ [request msg], rest⟩,
        .ret (some (reply msg st).packet) (if st = 0x15#8 then some .plmNak else none)) := by
  have htx : Live.io.tx s (0x02#8 :: 0x62#8 :: afterSource msg) =
      ({ s with sent := s.sent ++ [request msg] }, none) := rfl
  have hrx : Live.io.rxPacket { s with sent := s.sent ++ [request msg] } =
      (⟨⟨s.port.msgQ ++ asPackets w.messages, [], false⟩, s.sent ++ [request msg], rest⟩,
        .packet (reply msg st).packet) := by
    have hfeed := feed_waiting { s with sent := s.sent ++ [request msg] } w msg st rest hw hs hc hm (by simp [hq])
    simp only [Live.io]
    rw [hfeed]
    simp [Port.recv, hq]
  rcases hst with rfl | rfl
  · rw [if_neg (by decide)]
    refine (writePacket_success Live.io _ _ _ _).mpr ⟨_, _, htx, hrx, rfl, ?_⟩
    rw [reply_packet]
    refine ⟨rfl, by dsimp only; decide, rfl, fun _ _ => ?_⟩
    exact ⟨_, _, _, rfl⟩
  · rw [if_pos rfl]
    refine writePacket_nak Live.io _ _ _ _ _ htx hrx ?_ ?_ ?_
    · rw [reply_packet]; dsimp only; decide
    · rw [reply_packet]
    · intro _; rw [reply_packet]; simp

/-- The modem refuses some attempts and then accepts. -/
theorem live_retry (msg : Message) (naks : List Waiting) (ack : Waiting) (rest : List Bytes) (n : Nat) (s : Live) (cur : PRes)
    (hnaks : ∀ w ∈ naks, w.ok) (hack : ack.ok)
    (hs : s.slots = naks.map (fun w => line (w.items msg 0x15#8)) ++ line (ack.items msg 0x06#8) :: rest)
    (hc : s.port.closed = false) (hq : s.port.pktQ = [])
    (hm : s.port.msgQ.length + ((naks ++ [ack]).flatMap Waiting.messages).length ≤ 10) (hn : naks.length < n) :
    retryLoop (Plm.writePacket Live.io) true ⟨0x62#8, afterSource msg, 0#8⟩ n s cur =
      (⟨⟨s.port.msgQ ++ asPackets ((naks ++ [ack]).flatMap Waiting.messages), [], false⟩,
        s.sent ++ List.replicate (naks.length + 1) (request msg), rest⟩,
        .ret (some (reply msg 0x06#8).packet) none) := by
  induction naks generalizing n s cur with
  | nil =>
    obtain ⟨n, rfl⟩ : ∃ m, n = m + 1 := ⟨n - 1, by simp at hn; omega⟩
    rw [retryLoop]
    rw [live_attempt s msg ack 0x06#8 rest hack (by simpa using hs) hc hq (by simpa using hm) (Or.inl rfl)]
    simp [retryable]
  | cons w naks ih =>
    obtain ⟨n, rfl⟩ : ∃ m, n = m + 1 := ⟨n - 1, by simp at hn; omega⟩
    simp only [List.length_cons] at hn
    rw [retryLoop]
    simp only [List.cons_append, List.flatMap_cons, List.length_append] at hm
    rw [live_attempt s msg w 0x15#8 _ (hnaks w (by simp)) (by simpa using hs) hc hq (by omega) (Or.inr rfl)]
    simp only [if_true, retryable, beq_self_eq_true, Bool.and_self, Bool.true_or]
    rw [ih n _ _ (fun x hx => hnaks x (by simp [hx])) rfl rfl rfl (by simp [asPackets]; simp at hm; omega) (by omega)]
    simp [asPackets, List.replicate_succ, List.append_assoc]

/-! ### The device answers -/

/-- One read. -/
theorem live_read_one (later : List Traffic) (s : Live) (unread tail : List Message) (m : Message) (k : Nat) (rest : List Bytes)
    (hlater : ∀ t ∈ later, t.ok) (hs : s.slots = later.map (fun t : Traffic => line t.items) ++ rest)
    (hrest : later = [] → rest = [])
    (hc : s.port.closed = false) (hq : s.port.pktQ = []) (hu : s.port.msgQ = asPackets unread)
    (hall : unread ++ later.flatMap Traffic.messages = m :: tail)
    (htime : InTime unread.length (k + 1) (later.map List.length)) :
    ∃ unread', Live.io.rxMsg s = (⟨⟨asPackets unread', [], false⟩, s.sent,
        (later.drop 1).map (fun t : Traffic => line t.items) ++ rest⟩, .packet (heard m).packet) ∧
      unread' ++ (later.drop 1).flatMap Traffic.messages = tail ∧
      InTime unread'.length k ((later.drop 1).map List.length) := by
  cases later with
  | nil =>
    simp only [List.flatMap_nil, List.append_nil] at hall
    rw [hrest rfl] at hs
    have hf : s.feed = s := by unfold Live.feed; rw [hs]; rfl
    refine ⟨tail, ?_, by simp, ?_⟩
    · simp only [Live.io]
      rw [hf]
      obtain ⟨⟨a, b, c⟩, d, e⟩ := s
      simp only at hu hc hq hs
      subst hu hc hq hs
      simp [Port.recv, hall, asPackets, hrest]
    · rw [hall] at htime
      simp only [List.map_nil, InTime, List.length_cons, Nat.add_sub_cancel] at htime
      exact htime.2
  | cons t later =>
    simp only [List.map_cons, InTime] at htime
    have hf := feed_traffic s t (later.map (fun t : Traffic => line t.items) ++ rest) (hlater t (by simp)) hs hc
      (by rw [hu]; simp [asPackets, Traffic.messages]; omega) (by simp [hq])
    simp only [List.flatMap_cons, ← List.append_assoc] at hall
    have hcons : ∃ q, unread ++ t.messages = m :: q := by
      rcases hx : unread ++ t.messages with _ | ⟨a, q⟩
      · have := congrArg List.length hx
        simp only [List.length_append, Traffic.messages, List.length_map, List.length_nil] at this
        omega
      · rw [hx] at hall
        simp only [List.cons_append, List.cons.injEq] at hall
        exact ⟨q, by rw [hall.1]⟩
    obtain ⟨q, hq'⟩ := hcons
    have hpk : asPackets unread ++ asPackets t.messages = (heard m).packet :: asPackets q := by
      have := congrArg asPackets hq'
      simpa [asPackets] using this
    rw [hq'] at hall
    simp only [List.cons_append, List.cons.injEq, true_and] at hall
    have hlen : unread.length + t.length - 1 = q.length := by
      have := congrArg List.length hq'
      simp [Traffic.messages] at this
      omega
    refine ⟨q, ?_, by simpa using hall, ?_⟩
    · simp only [Live.io]
      rw [hf]
      simp [Port.recv, hu, hpk, hq]
    · rw [← hlen]; simpa using htime.2.2

/-- `rest` is what comes after `later`: it is not looked at if enough reads are served before it. -/
theorem live_await (msg : Message) (later : List Traffic) (s : Live) (unread skipped more : List Message)
    (answer : Message) (fuel : Nat) (rest : List Bytes) (hfuel : skipped.length < fuel)
    (hlater : ∀ t ∈ later, t.ok) (hs : s.slots = later.map (fun t : Traffic => line t.items) ++ rest)
    (hrest : rest = [] ∨ skipped.length < later.length)
    (hc : s.port.closed = false) (hq : s.port.pktQ = []) (hu : s.port.msgQ = asPackets unread)
    (hproper : ∀ m ∈ skipped ++ [answer], Proper m)
    (hall : unread ++ later.flatMap Traffic.messages = skipped ++ answer :: more)
    (hskip : ∀ m ∈ skipped, ¬ AnswerFrom msg.dst m) (hans : AnswerFrom msg.dst answer)
    (htime : InTime unread.length (skipped.length + 1) (later.map List.length)) :
    ∃ unread', Plm.awaitAck Live.io msg.dst fuel s =
        some (⟨⟨asPackets unread', [], false⟩, s.sent,
          (later.drop (skipped.length + 1)).map (fun t : Traffic => line t.items) ++ rest⟩,
          .ret (some answer) (if isNak answer.flags then some .devNak else none)) ∧
      unread' ++ (later.drop (skipped.length + 1)).flatMap Traffic.messages = more := by
  have hnil : later = [] → rest = [] := by
    intro h; rcases hrest with h' | h'
    · exact h'
    · rw [h] at h'; simp at h'
  induction skipped generalizing later s unread fuel with
  | nil =>
    obtain ⟨fuel, rfl⟩ : ∃ k, fuel = k + 1 := ⟨fuel - 1, by simp at hfuel; omega⟩
    obtain ⟨u', hrx, h1, -⟩ := live_read_one later s unread more answer 0 rest hlater hs hnil hc hq hu hall htime
    refine ⟨u', ?_, h1⟩
    have hdec := heard_decode answer (hproper answer (by simp))
    have hfl := flag_classification answer.flags
    rw [Plm.awaitAck, Plm.read]
    simp only [hrx, hdec]
    rw [if_pos ⟨hans.1, by rw [hfl.1, hfl.2.1]; exact hans.2⟩]
    have : (if answer.flags.nak = true then some Err.devNak else none) =
        (if isNak answer.flags then some Err.devNak else none) := if_congr hfl.2.1 rfl rfl
    rw [this]
    rfl
  | cons m skipped ih =>
    obtain ⟨fuel, rfl⟩ : ∃ k, fuel = k + 1 := ⟨fuel - 1, by simp at hfuel; omega⟩
    simp only [List.length_cons] at hfuel htime hrest
    obtain ⟨u', hrx, h1, h2⟩ := live_read_one later s unread (skipped ++ answer :: more) m (skipped.length + 1) rest
      hlater hs hnil hc hq hu hall htime
    have hrest' : rest = [] ∨ skipped.length < (later.drop 1).length := by
      rcases hrest with h | h
      · exact Or.inl h
      · right; simp; omega
    obtain ⟨u2, g1, g2⟩ := ih (later.drop 1) ⟨⟨asPackets u', [], false⟩, s.sent,
        (later.drop 1).map (fun t : Traffic => line t.items) ++ rest⟩ u' fuel (by omega)
      (fun t ht => hlater t (List.mem_of_mem_drop ht)) rfl hrest' rfl rfl rfl
      (fun x hx => hproper x (by simp at hx ⊢; tauto)) h1 (fun x hx => hskip x (by simp [hx])) h2
      (by intro h; rcases hrest' with h' | h'
          · exact h'
          · rw [h] at h'; simp at h')
    refine ⟨u2, ?_, ?_⟩
    · have hdec := heard_decode m (hproper m (by simp))
      have hfl := flag_classification m.flags
      rw [Plm.awaitAck, Plm.read]
      simp only [hrx, hdec]
      rw [if_neg, g1]
      · simp
      rintro ⟨ha, hb⟩
      rw [hfl.1, hfl.2.1] at hb
      exact hskip m (by simp) ⟨ha, hb⟩
    · rw [List.drop_drop] at g2
      simpa [Nat.add_comm, Nat.add_left_comm] using g2

/-! ### C103 -/

/-- C103: a message written to a running PLM. Whatever else is on the line (old unread messages, traffic of other
devices, noise, refusals of the modem up to the retry count), if the modem finally accepts the request and
the device's answer arrives before a read times out and no more than ten messages pile up, `Write` returns
exactly the device's first answer, the request has been put on the line once per attempt, the messages after the
answer are still there for the next call and no reply of the modem is left over. -/
theorem write_end_to_end (msg answer : Message) (retries fuel : Nat) (live : Live)
    (unread skipped more : List Message) (naks : List Waiting) (ack : Waiting) (later : List Traffic) (rest : List Bytes)
    (hopen : live.port.closed = false) (hpkt : live.port.pktQ = []) (hunread : live.port.msgQ = asPackets unread)
    (hslots : live.slots = naks.map (fun w => line (w.items msg 0x15#8)) ++ [line (ack.items msg 0x06#8)]
      ++ later.map (fun t : Traffic => line t.items) ++ rest)
    (hrest : rest = [] ∨ skipped.length < later.length)
    (hnaks : naks.length ≤ retries) (hok : ∀ w ∈ naks ++ [ack], w.ok) (hlater : ∀ t ∈ later, t.ok)
    (hproper : ∀ m ∈ unread, Proper m)
    (hall : unread ++ (naks ++ [ack]).flatMap Waiting.messages ++ later.flatMap Traffic.messages =
      skipped ++ answer :: more)
    (hskip : ∀ m ∈ skipped, ¬ AnswerFrom msg.dst m) (hans : AnswerFrom msg.dst answer)
    (hroom : (unread ++ (naks ++ [ack]).flatMap Waiting.messages).length ≤ 10)
    (htime : InTime (unread ++ (naks ++ [ack]).flatMap Waiting.messages).length (skipped.length + 1)
      (later.map List.length)) (hfuel : skipped.length < fuel) :
    ∃ live' unread', Plm.write Live.io retries fuel live msg =
        some (live', .ret (some answer) (if isNak answer.flags then some .devNak else none)) ∧
      live'.sent = live.sent ++ List.replicate (naks.length + 1) (request msg) ∧
      live'.port.pktQ = [] ∧ live'.port.closed = false ∧ live'.port.msgQ = asPackets unread' ∧
      live'.slots = (later.drop (skipped.length + 1)).map (fun t : Traffic => line t.items) ++ rest ∧
      unread' ++ (later.drop (skipped.length + 1)).flatMap Traffic.messages = more := by
  have hmem : ∀ m ∈ skipped ++ [answer], Proper m := by
    intro m hm
    have : m ∈ unread ++ (naks ++ [ack]).flatMap Waiting.messages ++ later.flatMap Traffic.messages := by
      rw [hall]; simp at hm ⊢; tauto
    simp only [List.mem_append, List.mem_flatMap] at this
    rcases this with (h | ⟨w, hw, h⟩) | ⟨t, ht, h⟩
    · exact hproper m h
    · simp only [Waiting.messages, Traffic.messages, List.mem_append, List.mem_map] at h
      have hwo := hok w (by simpa using hw)
      rcases h with ⟨x, hx, rfl⟩ | ⟨x, hx, rfl⟩
      · exact (hwo.1 x hx).2
      · exact (hwo.2.2 x hx).2
    · simp only [Traffic.messages, List.mem_map] at h
      obtain ⟨x, hx, rfl⟩ := h
      exact (hlater t ht x hx).2
  have hr := live_retry msg naks ack (later.map (fun t : Traffic => line t.items) ++ rest) (retries + 1) live (.ret none none)
    (fun w hw => hok w (by simp [hw])) (hok ack (by simp)) (by simpa using hslots) hopen hpkt
    (by rw [hunread]; simp only [List.length_append] at hroom; simpa [asPackets] using hroom) (by omega)
  obtain ⟨u', h1, h2⟩ := live_await msg later
    ⟨⟨live.port.msgQ ++ asPackets ((naks ++ [ack]).flatMap Waiting.messages), [], false⟩,
      live.sent ++ List.replicate (naks.length + 1) (request msg), later.map (fun t : Traffic => line t.items) ++ rest⟩
    (unread ++ (naks ++ [ack]).flatMap Waiting.messages) skipped more answer fuel rest hfuel hlater rfl hrest rfl rfl
    (by simp [hunread, asPackets]) hmem hall hskip hans htime
  refine ⟨⟨⟨asPackets u', [], false⟩, live.sent ++ List.replicate (naks.length + 1) (request msg),
    (later.drop (skipped.length + 1)).map (fun t : Traffic => line t.items) ++ rest⟩, u', ?_, rfl, rfl, rfl, rfl, rfl, h2⟩
  unfold Plm.write
  have hcast : ((retries : Int) + 1).toNat = retries + 1 := by omega
  simp only [PCmd.sendInsteonMsg, afterSource_drop, retryWrite, hcast]
  rw [hr]
  exact h1

/-- A light switch at 11.22.33 is told to turn on. The modem first refuses, then accepts after a stray message
of another device; noise precedes some frames; the acknowledgement arrives during the second read. -/
def exMsg : Message := ⟨0, 0x112233, 0x0f, 0x0011ff, []⟩
def exOther : Message := ⟨0x445566, 0x0000aa, 0x0b, 0x001300, []⟩
def exAnswer : Message := ⟨0x112233, 0x0000aa, 0x2b, 0x0011ff, []⟩
def exNak : Waiting := ⟨[], [0x99#8], []⟩
def exAck : Waiting := ⟨[([0x02#8, 0x07#8], exOther)], [], []⟩
def exLater : List Traffic := [[], [([], exAnswer)]]
def exLive : Live := Live.init ([line (exNak.items exMsg 0x15), line (exAck.items exMsg 0x06)]
  ++ exLater.map fun t => line t.items)

theorem exProper : Proper exOther ∧ Proper exAnswer :=
  ⟨⟨by decide, by decide, by decide, by decide⟩, ⟨by decide, by decide, by decide, by decide⟩⟩

theorem quiet_nil : Quiet [] := by rintro ⟨a, c, b, h, -⟩; simp at h

theorem quiet_one (x : Byte) : Quiet [x] := by
  rintro ⟨a, c, b, h, -⟩
  have := congrArg List.length h
  simp at this
  omega

theorem quiet_cons (x y : Byte) (l : Bytes) (h : ¬ (x = 0x02#8 ∧ Known y)) (hl : Quiet (y :: l)) : Quiet (x :: y :: l) := by
  rintro ⟨a, c, b, he, hk⟩
  cases a with
  | nil =>
    simp only [List.nil_append, List.cons.injEq] at he
    exact h ⟨he.1, by rw [he.2.1]; exact hk⟩
  | cons z a =>
    simp only [List.cons_append, List.cons.injEq] at he
    exact hl ⟨a, c, b, he.2, hk⟩

example : ∃ live', Plm.write Live.io 3 5 exLive exMsg = some (live', .ret (some exAnswer) none) ∧
    live'.sent = List.replicate 2 [0x02#8, 0x62#8, 0x11#8, 0x22#8, 0x33#8, 0x0f#8, 0x11#8, 0xff#8] := by
  obtain ⟨s, -, h1, h2, -⟩ := write_end_to_end exMsg exAnswer 3 5 exLive [] [exOther] [] [exNak] exAck exLater [] rfl rfl rfl rfl
    (Or.inl rfl) (by decide)
    (by
      intro w hw
      simp only [List.cons_append, List.nil_append, List.mem_cons, List.not_mem_nil, or_false] at hw
      rcases hw with rfl | rfl
      · exact ⟨by simp [exNak, Traffic.ok], quiet_one _, by simp [exNak, Traffic.ok]⟩
      · refine ⟨?_, quiet_nil, by simp [exAck, Traffic.ok]⟩
        simp only [exAck, Traffic.ok, List.mem_singleton, forall_eq]
        exact ⟨quiet_cons _ _ _ (by simp [Known, lengthTable]) (quiet_one _), exProper.1⟩)
    (by simp [exLater, Traffic.ok, quiet_nil, exProper.2]) (by simp) (by decide)
    (by simp [AnswerFrom, exMsg, exOther]) (by unfold AnswerFrom; decide) (by decide)
    (by simp [InTime, exLater, Waiting.messages, Traffic.messages, exNak, exAck]) (by decide)
  exact ⟨s, h1, h2⟩

/-! ### C104 -/

/-- C104, the part that holds: if no acknowledgement of the device is left over from an earlier call, the one
returned has arrived after the message was sent. -/
theorem write_ack_fresh_partial (msg answer : Message) (retries fuel : Nat) (live : Live)
    (unread skipped more : List Message) (naks : List Waiting) (ack : Waiting) (later : List Traffic)
    (hopen : live.port.closed = false) (hpkt : live.port.pktQ = []) (hunread : live.port.msgQ = asPackets unread)
    (hslots : live.slots = naks.map (fun w => line (w.items msg 0x15#8)) ++ [line (ack.items msg 0x06#8)]
      ++ later.map (fun t : Traffic => line t.items))
    (hnaks : naks.length ≤ retries) (hok : ∀ w ∈ naks ++ [ack], w.ok) (hlater : ∀ t ∈ later, t.ok)
    (hproper : ∀ m ∈ unread, Proper m) (hfresh : ∀ m ∈ unread, ¬ AnswerFrom msg.dst m)
    (hall : (naks ++ [ack]).flatMap Waiting.messages ++ later.flatMap Traffic.messages = skipped ++ answer :: more)
    (hskip : ∀ m ∈ skipped, ¬ AnswerFrom msg.dst m) (hans : AnswerFrom msg.dst answer)
    (hroom : (unread ++ (naks ++ [ack]).flatMap Waiting.messages).length ≤ 10)
    (htime : InTime (unread ++ (naks ++ [ack]).flatMap Waiting.messages).length (unread.length + skipped.length + 1)
      (later.map List.length)) (hfuel : unread.length + skipped.length < fuel) :
    ∃ live', Plm.write Live.io retries fuel live msg =
        some (live', .ret (some answer) (if isNak answer.flags then some .devNak else none)) := by
  obtain ⟨s, -, h, -⟩ := write_end_to_end msg answer retries fuel live unread (unread ++ skipped) more naks ack later []
    hopen hpkt hunread (by simpa using hslots) (Or.inl rfl) hnaks hok hlater hproper (by rw [List.append_assoc, hall]; simp)
    (by intro m hm; rcases List.mem_append.mp hm with h | h
        · exact hfresh m h
        · exact hskip m h) hans hroom (by simpa using htime) (by simpa using hfuel)
  exact ⟨s, h⟩

/-- A message to a thermostat is answered with the acknowledgement of another, earlier command. -/
def exStale : Message := ⟨0x112233, 0x0000aa, 0x2b, 0x001300, []⟩

/-- C104 is false of the code: the acknowledgement of an earlier command that was left in the queue is returned as
the acknowledgement of the new one, although the device refuses the new command. -/
theorem write_ack_fresh_refuted :
    ¬ ∀ (live live' : Live) (msg : Message) (retries fuel : Nat) (ack : Message) (w : Waiting),
        live.port.closed = false → live.port.pktQ = [] → live.slots = [line (w.items msg 0x06#8)] →
        Plm.write Live.io retries fuel live msg = some (live', .ret (some ack) none) →
        ack ∈ w.messages ∧ ack.command.toNat / 256 % 256 = msg.command.toNat / 256 % 256 := by
  intro h
  have hw : Plm.write Live.io 0 1
      ⟨⟨asPackets [exStale], [], false⟩, [], [line ((⟨[], [], [([], ⟨0x112233, 0xaa, 0xab, 0x0011ff, []⟩)]⟩ : Waiting).items exMsg 0x06#8)]⟩
      exMsg = some (⟨⟨asPackets [⟨0x112233, 0xaa, 0xab, 0x0011ff, []⟩], [], false⟩, [request exMsg], []⟩,
        .ret (some exStale) none) := by decide +kernel
  exact absurd (h _ _ exMsg 0 1 exStale ⟨[], [], [([], ⟨0x112233, 0xaa, 0xab, 0x0011ff, []⟩)]⟩ rfl rfl rfl hw) (by decide)

/-! ### C105 -/

/-- A write that takes the reply to another request for its own. -/
theorem live_wrong_reply (msg old : Message) (q msgs : List Packet) (rest : List Bytes) (live : Live)
    (retries fuel : Nat) (hdiff : afterSource old ≠ afterSource msg)
    (hfeed : ({ live with sent := live.sent ++ [request msg] } : Live).feed =
      ⟨⟨msgs, (reply old 0x06#8).packet :: q, false⟩, live.sent ++ [request msg], rest⟩) :
    Plm.write Live.io retries fuel live msg =
      some (⟨⟨msgs, q, false⟩, live.sent ++ [request msg], rest⟩, .ret none (some .wrongPayload)) := by
  have hrx : Live.io.rxPacket { live with sent := live.sent ++ [request msg] } =
      (⟨⟨msgs, q, false⟩, live.sent ++ [request msg], rest⟩, .packet (reply old 0x06#8).packet) := by
    simp only [Live.io]
    rw [hfeed]
    simp [Port.recv]
  have hwp : Plm.writePacket Live.io live ⟨0x62#8, afterSource msg, 0#8⟩ =
      (⟨⟨msgs, q, false⟩, live.sent ++ [request msg], rest⟩,
        .ret (some (reply old 0x06#8).packet) (some .wrongPayload)) := by
    unfold Plm.writePacket
    have htx : Live.io.tx live (Packet.marshalBinary ⟨0x62#8, afterSource msg, 0#8⟩) =
      ({ live with sent := live.sent ++ [request msg] }, none) := rfl
    rw [htx]
    dsimp only
    rw [hrx]
    dsimp only
    have : Plm.checkAck ⟨0x62#8, afterSource msg, 0#8⟩ (reply old 0x06#8).packet = .ok (some .wrongPayload) := by
      rw [reply_packet]
      simp [Plm.checkAck, Packet.isACK, Packet.isNAK, PCmd.getInfo, PCmd.getConfig, PCmd.sendInsteonMsg, hdiff]
      rw [if_neg (by omega)]
    rw [this]
  unfold Plm.write
  have hcast : ((retries : Int) + 1).toNat = retries + 1 := by omega
  simp only [PCmd.sendInsteonMsg, afterSource_drop, retryWrite, hcast, retryLoop]
  rw [hwp]
  simp [retryable]

theorem live_desync_step (msg old : Message) (olds : List Message) (noise : Bytes) (rest : List Bytes) (live : Live)
    (retries fuel : Nat) (hn : Quiet noise) (hdiff : afterSource old ≠ afterSource msg)
    (hc : live.port.closed = false)
    (hq : live.port.pktQ = (old :: olds).map fun m => (reply m 0x06#8).packet) (hl : (old :: olds).length < 10)
    (hs : live.slots = line [(noise, reply msg 0x06#8)] :: rest) (hm : live.port.msgQ.length ≤ 10) :
    Plm.write Live.io retries fuel live msg =
      some (⟨⟨live.port.msgQ, (olds ++ [msg]).map fun m => (reply m 0x06#8).packet, false⟩,
        live.sent ++ [request msg], rest⟩, .ret none (some .wrongPayload)) := by
  refine live_wrong_reply msg old _ _ _ live retries fuel hdiff ?_
  rw [feed_waiting { live with sent := live.sent ++ [request msg] } ⟨[], noise, []⟩ msg 0x06#8 rest
    ⟨by simp [Traffic.ok], hn, by simp [Traffic.ok]⟩ (by simpa [Waiting.items, Traffic.items] using hs) hc
    (by simpa [Waiting.messages, Traffic.messages] using hm) (by simp only [hq, List.length_map]; exact hl)]
  simp [hq, Waiting.messages, Traffic.messages, asPackets]

theorem live_desync (ms : List (Bytes × Message)) (old : Message) (olds : List Message) (live : Live) (retries fuel : Nat)
    (rest : List Bytes) (hn : ∀ x ∈ ms, Quiet x.1)
    (hdiff : ∀ (i : Nat) o m, ((old :: olds) ++ ms.map (·.2))[i]? = some o → (ms.map (·.2))[i]? = some m →
      afterSource o ≠ afterSource m)
    (hc : live.port.closed = false)
    (hq : live.port.pktQ = (old :: olds).map fun m => (reply m 0x06#8).packet) (hl : (old :: olds).length < 10)
    (hs : live.slots = ms.map (fun x => line [(x.1, reply x.2 0x06#8)]) ++ rest) (hm : live.port.msgQ.length ≤ 10) :
    ∃ live', writes Live.io retries fuel live (ms.map (·.2)) =
        some (live', ms.map fun _ => .ret none (some .wrongPayload)) ∧
      live'.sent = live.sent ++ ms.map (fun x => request x.2) := by
  induction ms generalizing old olds live with
  | nil => exact ⟨live, rfl, by simp⟩
  | cons x ms ih =>
    have hstep := live_desync_step x.2 old olds x.1 (ms.map (fun x => line [(x.1, reply x.2 0x06#8)]) ++ rest) live retries fuel (hn x (by simp))
      (hdiff 0 old x.2 (by simp) (by simp)) hc hq hl hs hm
    obtain ⟨o', os', ho⟩ : ∃ o' os', olds ++ [x.2] = o' :: os' := by
      cases olds with
      | nil => exact ⟨_, _, rfl⟩
      | cons a l => exact ⟨_, _, rfl⟩
    have hlen : (o' :: os').length = (old :: olds).length := by rw [← ho]; simp
    obtain ⟨l', h1, h2⟩ := ih o' os' ⟨⟨live.port.msgQ, (olds ++ [x.2]).map fun m => (reply m 0x06#8).packet, false⟩,
        live.sent ++ [request x.2], ms.map (fun x => line [(x.1, reply x.2 0x06#8)]) ++ rest⟩
      (fun y hy => hn y (by simp [hy]))
      (by
        intro i o m ho1 ho2
        refine hdiff (i + 1) o m ?_ (by simpa using ho2)
        rw [← ho] at ho1
        simpa [List.append_assoc] using ho1)
      rfl (by rw [ho]) (by omega) rfl hm
    refine ⟨l', ?_, by rw [h2]; simp⟩
    simp only [List.map_cons, writes]
    rw [hstep]
    dsimp only
    rw [h1]
    rfl

theorem chain_getElem {α : Type} (R : α → α → Prop) (l : List α) (a : α) (h : List.IsChain R (a :: l)) :
    ∀ (i : Nat) o m, (a :: l)[i]? = some o → l[i]? = some m → R o m := by
  induction l generalizing a with
  | nil => intro i o m _ h2; simp at h2
  | cons b l ih =>
    rw [List.isChain_cons_cons] at h
    intro i o m h1 h2
    cases i with
    | zero => simp at h1 h2; subst h1 h2; exact h.1
    | succ i => exact ih b h.2 i o m (by simpa using h1) (by simpa using h2)

/-- C105 is false of the code, whatever is written afterwards: a message whose reply from the modem comes only after the
timeout fails, and then every later message fails as well, because each call takes the reply to the one
before it for its own; although the modem accepts and sends all of them. `ms` are the later messages with the noise
before their replies; consecutive messages differ. -/
theorem late_reply_refuted (first second : Message) (noise : Bytes) (ms : List (Bytes × Message)) (live : Live)
    (retries fuel : Nat) (hn : Quiet noise) (hnoise : ∀ x ∈ ms, Quiet x.1)
    (hdiff : List.IsChain (fun a b => afterSource a ≠ afterSource b) (first :: second :: ms.map (·.2)))
    (hc : live.port.closed = false) (hq : live.port.pktQ = []) (hm : live.port.msgQ.length ≤ 10)
    (hs : live.slots = [] :: line [([], reply first 0x06#8), (noise, reply second 0x06#8)] ::
      ms.map (fun x => line [(x.1, reply x.2 0x06#8)])) :
    ∃ live', writes Live.io retries fuel live (first :: second :: ms.map (·.2)) =
        some (live', .ret none (some (.wrapped .plmReadTimeout)) :: .ret none (some .wrongPayload) ::
          ms.map fun _ => .ret none (some .wrongPayload)) ∧
      live'.sent = live.sent ++ request first :: request second :: ms.map (fun x => request x.2) := by
  have hcast : ((retries : Int) + 1).toNat = retries + 1 := by omega
  -- the first message
  have h1 : Plm.write Live.io retries fuel live first =
      some (⟨live.port, live.sent ++ [request first],
        line [([], reply first 0x06#8), (noise, reply second 0x06#8)] ::
          ms.map (fun x => line [(x.1, reply x.2 0x06#8)])⟩, .ret none (some (.wrapped .plmReadTimeout))) := by
    have hfeed : ({ live with sent := live.sent ++ [request first] } : Live).feed =
        ⟨live.port, live.sent ++ [request first], line [([], reply first 0x06#8), (noise, reply second 0x06#8)] ::
          ms.map (fun x => line [(x.1, reply x.2 0x06#8)])⟩ := by
      unfold Live.feed
      rw [show ({ live with sent := live.sent ++ [request first] } : Live).slots = _ from hs]
      have : Live.arrivals [] = [] := by decide
      simp [this, Port.run]
    have hwp : Plm.writePacket Live.io live ⟨0x62#8, afterSource first, 0#8⟩ =
        (⟨live.port, live.sent ++ [request first], line [([], reply first 0x06#8), (noise, reply second 0x06#8)] ::
          ms.map (fun x => line [(x.1, reply x.2 0x06#8)])⟩, .ret none (some (.wrapped .plmReadTimeout))) := by
      unfold Plm.writePacket
      have htx : Live.io.tx live (Packet.marshalBinary ⟨0x62#8, afterSource first, 0#8⟩) =
        ({ live with sent := live.sent ++ [request first] }, none) := rfl
      have hrx : Live.io.rxPacket { live with sent := live.sent ++ [request first] } =
          (⟨live.port, live.sent ++ [request first], line [([], reply first 0x06#8), (noise, reply second 0x06#8)] ::
            ms.map (fun x => line [(x.1, reply x.2 0x06#8)])⟩, .timeout) := by
        simp only [Live.io]
        rw [hfeed]
        obtain ⟨⟨a, b, c⟩, d, e⟩ := live
        simp only at hq hc
        subst hq hc
        simp [Port.recv]
      rw [htx]
      dsimp only
      rw [hrx]
    unfold Plm.write
    simp only [PCmd.sendInsteonMsg, afterSource_drop, retryWrite, hcast, retryLoop]
    rw [hwp]
    simp [retryable]
  -- the second message: both replies are there
  have hne : afterSource first ≠ afterSource second := by
    cases ms with
    | nil => simpa using hdiff
    | cons x ms => simp only [List.map_cons, List.isChain_cons_cons] at hdiff; exact hdiff.1
  have h2 : Plm.write Live.io retries fuel ⟨live.port, live.sent ++ [request first],
        line [([], reply first 0x06#8), (noise, reply second 0x06#8)] ::
          ms.map (fun x => line [(x.1, reply x.2 0x06#8)])⟩ second =
      some (⟨⟨live.port.msgQ, [(reply second 0x06#8).packet], false⟩, live.sent ++ [request first] ++ [request second],
        ms.map (fun x => line [(x.1, reply x.2 0x06#8)])⟩, .ret none (some .wrongPayload)) := by
    refine live_wrong_reply second first _ _ _ _ retries fuel hne ?_
    unfold Live.feed
    dsimp only
    rw [arrivals_line _ (by
      intro it hit
      simp only [List.mem_cons, List.not_mem_nil, or_false] at hit
      rcases hit with rfl | rfl
      · exact ⟨quiet_nil, reply_wellFormed _ _⟩
      · exact ⟨hn, reply_wellFormed _ _⟩)]
    have hr : ∀ m : Message, Port.isMsg (reply m 0x06#8).packet = false := fun m => by rw [reply_packet]; rfl
    rw [run_arrivals _ _ hc (by simp [hr]; exact hm) (by simp [hr, hq])]
    simp [hr, hq]
  obtain ⟨l', h3, h4⟩ := live_desync ms second [] ⟨⟨live.port.msgQ, [(reply second 0x06#8).packet], false⟩,
      live.sent ++ [request first] ++ [request second], ms.map (fun x => line [(x.1, reply x.2 0x06#8)])⟩ retries fuel []
    hnoise (by
      intro i o m ho hm'
      exact chain_getElem _ _ _ (List.isChain_cons_cons.mp hdiff).2 i o m (by simpa using ho) hm') rfl rfl (by simp) (by simp) hm
  refine ⟨l', ?_, by rw [h4]; simp⟩
  simp only [writes]
  rw [h1]
  dsimp only
  rw [h2]
  dsimp only
  rw [h3]
  rfl

/-- The theorem applies: nine different on-levels for a lamp; after one late reply all fail. -/
example : ∃ live', writes Live.io 3 5
      (Live.init ([] :: line [([], reply ⟨0, 0x112233, 0x0f, 0x001101, []⟩ 6), ([], reply ⟨0, 0x112233, 0x0f, 0x001102, []⟩ 6)]
        :: [([], ⟨0, 0x112233, 0x0f, 0x001103, []⟩), ([0x77#8], ⟨0, 0x112233, 0x0f, 0x001104, []⟩)].map
          fun x => line [(x.1, reply x.2 0x06#8)]))
      [⟨0, 0x112233, 0x0f, 0x001101, []⟩, ⟨0, 0x112233, 0x0f, 0x001102, []⟩, ⟨0, 0x112233, 0x0f, 0x001103, []⟩,
        ⟨0, 0x112233, 0x0f, 0x001104, []⟩] =
    some (live', [.ret none (some (.wrapped .plmReadTimeout)), .ret none (some .wrongPayload),
      .ret none (some .wrongPayload), .ret none (some .wrongPayload)]) := by
  obtain ⟨l, h, -⟩ := late_reply_refuted ⟨0, 0x112233, 0x0f, 0x001101, []⟩ ⟨0, 0x112233, 0x0f, 0x001102, []⟩ []
    [([], ⟨0, 0x112233, 0x0f, 0x001103, []⟩), ([0x77#8], ⟨0, 0x112233, 0x0f, 0x001104, []⟩)] (Live.init _) 3 5
    quiet_nil (by simp [quiet_nil, quiet_one]) (by decide) rfl rfl (by decide) rfl
  exact ⟨l, h⟩

/-- One message with everything that happens until it is answered: the refusals of the modem, its acceptance, and
the traffic during the following reads, the last message of which is the answer. -/
structure Spec.Exchange where
  msg : Message
  naks : List Waiting
  ack : Waiting
  later : List Traffic
  skipped : List Message
  answer : Message

/-- The messages that come in. -/
def Spec.Exchange.heard (x : Exchange) : List Message :=
  (x.naks ++ [x.ack]).flatMap Waiting.messages ++ x.later.flatMap Traffic.messages

/-- Nothing comes too late: the modem replies to each attempt before the timeout, the answer is the last message
before the next call, and no read waits in vain or finds more than ten messages. -/
structure Spec.Exchange.prompt (x : Exchange) (retries : Nat) : Prop where
  naks : x.naks.length ≤ retries
  ok : ∀ w ∈ x.naks ++ [x.ack], w.ok
  later : ∀ t ∈ x.later, t.ok
  all : x.heard = x.skipped ++ [x.answer]
  skip : ∀ m ∈ x.skipped, ¬ AnswerFrom x.msg.dst m
  answer : AnswerFrom x.msg.dst x.answer
  reads : x.later.length = x.skipped.length + 1
  room : ((x.naks ++ [x.ack]).flatMap Waiting.messages).length ≤ 10
  time : InTime ((x.naks ++ [x.ack]).flatMap Waiting.messages).length (x.skipped.length + 1) (x.later.map List.length)

/-- The line during an exchange. -/
def Spec.Exchange.slots (x : Exchange) : List Bytes :=
  x.naks.map (fun w => line (w.items x.msg 0x15#8)) ++ [line (x.ack.items x.msg 0x06#8)]
    ++ x.later.map (fun t : Traffic => line t.items)

/-- C105, the part that holds: as long as nothing comes too late, any number of messages written one after the other
are each answered with their own answer, and the line carries exactly the requests. -/
theorem exchanges_in_sync_partial (xs : List Exchange) (retries fuel : Nat) (live : Live)
    (hx : ∀ x ∈ xs, x.prompt retries) (hfuel : ∀ x ∈ xs, x.skipped.length < fuel)
    (hopen : live.port.closed = false) (hpkt : live.port.pktQ = []) (hmsg : live.port.msgQ = [])
    (hs : live.slots = xs.flatMap Exchange.slots) :
    ∃ live', writes Live.io retries fuel live (xs.map (·.msg)) =
        some (live', xs.map fun x => .ret (some x.answer) (if isNak x.answer.flags then some .devNak else none)) ∧
      live'.sent = live.sent ++ xs.flatMap fun x => List.replicate (x.naks.length + 1) (request x.msg) := by
  induction xs generalizing live with
  | nil => exact ⟨live, rfl, by simp⟩
  | cons x xs ih =>
    have hp := hx x (by simp)
    obtain ⟨l1, u', h1, h2, h3, h4, h5, h6, h7⟩ := write_end_to_end x.msg x.answer retries fuel live [] x.skipped [] x.naks
      x.ack x.later (xs.flatMap Exchange.slots) hopen hpkt (by simpa [asPackets] using hmsg)
      (by rw [hs]; simp [Exchange.slots]) (Or.inr (by have := hp.reads; omega)) hp.naks hp.ok hp.later (by simp)
      (by simpa [Exchange.heard] using hp.all) hp.skip hp.answer (by simpa using hp.room) (by simpa using hp.time) (hfuel x (by simp))
    have hd : x.later.drop (x.skipped.length + 1) = [] := List.drop_eq_nil_of_le (by have := hp.reads; omega)
    rw [hd] at h6 h7
    simp only [List.flatMap_nil, List.append_nil] at h7
    obtain ⟨l2, g1, g2⟩ := ih l1 (fun y hy => hx y (by simp [hy])) (fun y hy => hfuel y (by simp [hy])) h4 h3
      (by rw [h5, h7]; rfl) (by simpa using h6)
    refine ⟨l2, ?_, by rw [g2, h2]; simp⟩
    simp only [List.map_cons, writes]
    rw [h1]
    dsimp only
    rw [g1]
    rfl

theorem exPrompt : (⟨exMsg, [exNak], exAck, exLater, [exOther], exAnswer⟩ : Exchange).prompt 3 where
  naks := by decide
  ok := by
    intro w hw
    simp only [List.cons_append, List.nil_append, List.mem_cons, List.not_mem_nil, or_false] at hw
    rcases hw with rfl | rfl
    · exact ⟨by simp [exNak, Traffic.ok], quiet_one _, by simp [exNak, Traffic.ok]⟩
    · refine ⟨?_, quiet_nil, by simp [exAck, Traffic.ok]⟩
      simp only [exAck, Traffic.ok, List.mem_singleton, forall_eq]
      exact ⟨quiet_cons _ _ _ (by simp [Known, lengthTable]) (quiet_one _), exProper.1⟩
  later := by simp [exLater, Traffic.ok, quiet_nil, exProper.2]
  all := by decide
  skip := by simp [AnswerFrom, exMsg, exOther]
  answer := by unfold AnswerFrom; decide
  reads := by decide
  room := by decide
  time := by simp [InTime, exLater, Waiting.messages, Traffic.messages, exNak, exAck]

example : ∃ live', writes Live.io 3 5
      (Live.init ((List.replicate 100 (⟨exMsg, [exNak], exAck, exLater, [exOther], exAnswer⟩ : Exchange)).flatMap Exchange.slots))
      (List.replicate 100 exMsg) = some (live', List.replicate 100 (.ret (some exAnswer) none)) := by
  obtain ⟨l, h, -⟩ := exchanges_in_sync_partial
    (List.replicate 100 (⟨exMsg, [exNak], exAck, exLater, [exOther], exAnswer⟩ : Exchange)) 3 5 (Live.init _)
    (fun x hx => by rw [List.eq_of_mem_replicate hx]; exact exPrompt)
    (fun x hx => by rw [List.eq_of_mem_replicate hx]; decide) rfl rfl rfl rfl
  rw [List.map_replicate, List.map_replicate] at h
  exact ⟨l, h⟩

/-! ### C106 -/

/-- No reply in the queue is too short to be one. -/
def Sane (s : Live) : Prop :=
  s.port.closed = false ∧ ∀ p ∈ s.port.pktQ, p.command = 0x62#8 → 3 ≤ p.payload.length

theorem unmarshal_sane (buf : Bytes) (p : Packet) (h : Packet.unmarshalBinary buf = .ok p) :
    p.command = 0x62#8 → 3 ≤ p.payload.length := by
  intro hc
  unfold Packet.unmarshalBinary at h
  rcases buf with _ | ⟨b0, _ | ⟨c, body⟩⟩
  · simp at h
  · dsimp only at h; split_ifs at h
  · dsimp only at h
    split_ifs at h
    all_goals
      simp only [Out.ok.injEq] at h
      subst h
      simp_all

theorem readMany_sane (ig : Bool) (fuel n : Nat) (b : Buf) :
    ∀ p ∈ readMany ig fuel n b, p.command = 0x62#8 → 3 ≤ p.payload.length := by
  induction n generalizing b with
  | zero => simp [readMany]
  | succ n ih =>
    rw [readMany]
    rcases hp : readPacket ig fuel b with _ | ⟨p | e | _, b'⟩ <;> dsimp only
    · simp
    · intro q hq
      rcases List.mem_cons.mp hq with rfl | hq
      · unfold readPacket at hp
        rcases hf : readFrame ig fuel b with _ | ⟨f | e | _, b2⟩ <;> rw [hf] at hp <;> simp at hp
        exact unmarshal_sane _ _ hp.1
      · exact ih _ q hq
    · simp
    · simp

theorem run_sane (ps : List Packet) (s : PortSt) (hc : s.closed = false)
    (hs : ∀ p ∈ s.pktQ, p.command = 0x62#8 → 3 ≤ p.payload.length)
    (hp : ∀ p ∈ ps, p.command = 0x62#8 → 3 ≤ p.payload.length) :
    (Port.run s (ps.map .arrive)).1.closed = false ∧
      ∀ p ∈ (Port.run s (ps.map .arrive)).1.pktQ, p.command = 0x62#8 → 3 ≤ p.payload.length := by
  induction ps generalizing s with
  | nil => exact ⟨hc, hs⟩
  | cons p ps ih =>
    simp only [List.map_cons, Port.run]
    apply ih
    · simp only [Port.step, hc, Bool.false_eq_true, if_false]; split_ifs <;> simp [hc]
    · simp only [Port.step, hc, Bool.false_eq_true, if_false]
      split_ifs
      · exact hs
      · exact hs
      · intro q hq
        simp only [List.mem_append, List.mem_singleton] at hq
        rcases hq with hq | rfl
        · exact hs q hq
        · exact hp _ (by simp)
      · exact hs
    · exact fun q hq => hp q (by simp [hq])

theorem feed_sane (s : Live) (h : Sane s) : Sane s.feed ∧ s.feed.sent = s.sent ∧
    (s.slots ≠ [] → s.feed.slots.length + 1 = s.slots.length) ∧ (s.slots = [] → s.feed = s) := by
  unfold Live.feed
  rcases hs : s.slots with _ | ⟨b, rest⟩
  · dsimp only; exact ⟨h, rfl, by simp, fun _ => rfl⟩
  · dsimp only
    refine ⟨run_sane _ _ h.1 h.2 ?_, rfl, by simp, by simp⟩
    exact readMany_sane _ _ _ _

theorem recv_open (q : List Packet) : (∃ p t, q = p :: t ∧ Port.recv q false false = (t, .packet p)) ∨
    (q = [] ∧ Port.recv q false false = ([], .timeout)) := by
  cases q with
  | nil => right; exact ⟨rfl, rfl⟩
  | cons p t => left; exact ⟨p, t, rfl, rfl⟩

theorem checkAck_sane (pkt p : Packet) (h : p.command = 0x62#8 → 3 ≤ p.payload.length) :
    ∃ e, Plm.checkAck pkt p = .ok e := by
  unfold Plm.checkAck
  dsimp only
  split_ifs with h1 h2 h4 h5 h6 h7 <;> first | exact ⟨_, rfl⟩ | (have := h ‹_›; omega)

theorem writePacket_live (s : Live) (h : Sane s) (pkt : Packet) :
    ∃ s' a e, Plm.writePacket Live.io s pkt = (s', .ret a e) ∧ Sane s' ∧ s'.sent = s.sent ++ [0x02#8 :: pkt.command :: pkt.payload] := by
  have hs1 : Sane { s with sent := s.sent ++ [0x02#8 :: pkt.command :: pkt.payload] } := h
  obtain ⟨hf, hsent, -⟩ := feed_sane _ hs1
  have htx : Live.io.tx s pkt.marshalBinary = ({ s with sent := s.sent ++ [0x02#8 :: pkt.command :: pkt.payload] }, none) := rfl
  unfold Plm.writePacket
  rw [htx]
  dsimp only
  generalize hg : ({ s with sent := s.sent ++ [0x02#8 :: pkt.command :: pkt.payload] } : Live).feed = g at hf hsent
  rcases recv_open g.port.pktQ with ⟨p, t, hq, hr⟩ | ⟨hq, hr⟩
  · have hrx : Live.io.rxPacket { s with sent := s.sent ++ [0x02#8 :: pkt.command :: pkt.payload] } =
        ({ g with port := { g.port with pktQ := t } }, .packet p) := by
      simp only [Live.io, hg, hf.1, hr]
    rw [hrx]
    obtain ⟨e, he⟩ := checkAck_sane pkt p (hf.2 p (by rw [hq]; simp))
    dsimp only
    rw [he]
    exact ⟨_, _, _, rfl, ⟨hf.1, fun q hq' => hf.2 q (by rw [hq]; exact List.mem_cons_of_mem _ hq')⟩, hsent⟩
  · have hrx : Live.io.rxPacket { s with sent := s.sent ++ [0x02#8 :: pkt.command :: pkt.payload] } =
        ({ g with port := { g.port with pktQ := [] } }, .timeout) := by
      simp only [Live.io, hg, hf.1, hr]
    rw [hrx]
    exact ⟨_, _, _, rfl, ⟨hf.1, by simp⟩, hsent⟩

theorem retry_live (s : Live) (h : Sane s) (ig : Bool) (pkt : Packet) (n : Nat) (cur : PRes) :
    ∃ s' a e k, retryLoop (Plm.writePacket Live.io) ig pkt (n + 1) s cur = (s', .ret a e) ∧ Sane s' ∧ k ≤ n ∧
      s'.sent = s.sent ++ List.replicate (k + 1) (0x02#8 :: pkt.command :: pkt.payload) := by
  induction n generalizing s cur with
  | zero =>
    obtain ⟨s', a, e, h1, h2, h3⟩ := writePacket_live s h pkt
    refine ⟨s', a, e, 0, ?_, h2, Nat.le_refl _, by rw [h3]; rfl⟩
    rw [retryLoop, h1]
    simp [retryLoop]
  | succ n ih =>
    obtain ⟨s', a, e, h1, h2, h3⟩ := writePacket_live s h pkt
    rw [retryLoop, h1]
    dsimp only
    split_ifs with hr
    · obtain ⟨s2, a2, e2, k, g1, g2, g3, g4⟩ := ih s' h2 (.ret a e)
      exact ⟨s2, a2, e2, k + 1, g1, g2, by omega, by rw [g4, h3]; simp [List.replicate_succ]⟩
    · exact ⟨s', a, e, 0, rfl, h2, by omega, by rw [h3]; rfl⟩

theorem read_live (s : Live) (h : Sane s) :
    ∃ s' r, Plm.read Live.io s = (s', r) ∧ Sane s' ∧ s'.sent = s.sent ∧
      ((∃ a e, r = .ret a (some e)) ∨ ((∃ m, r = .ret (some m) none) ∧
        (s.slots ≠ [] → s'.slots.length + 1 = s.slots.length) ∧
        (s.slots = [] → s'.slots = [] ∧ s'.port.msgQ.length + 1 = s.port.msgQ.length))) := by
  obtain ⟨hf, hsent, hne, he⟩ := feed_sane s h
  rcases recv_open s.feed.port.msgQ with ⟨p, t, hq, hr⟩ | ⟨hq, hr⟩
  · have hrx : Live.io.rxMsg s = ({ s.feed with port := { s.feed.port with msgQ := t } }, .packet p) := by
      simp only [Live.io, hf.1, hr]
    refine ⟨{ s.feed with port := { s.feed.port with msgQ := t } }, .ret (some (Message.zero.unmarshalBinary p.payload).1)
      (Message.zero.unmarshalBinary p.payload).2, ?_, hf, hsent, ?_⟩
    · unfold Plm.read; rw [hrx]
    · rcases he' : (Message.zero.unmarshalBinary p.payload).2 with _ | e
      · right
        refine ⟨⟨_, rfl⟩, hne, fun h0 => ?_⟩
        have := he h0
        rw [this] at hq
        simp [this, h0, hq]
      · left; exact ⟨_, _, rfl⟩
  · have hrx : Live.io.rxMsg s = ({ s.feed with port := { s.feed.port with msgQ := [] } }, .timeout) := by
      simp only [Live.io, hf.1, hr]
    refine ⟨{ s.feed with port := { s.feed.port with msgQ := [] } }, .ret none (some (.wrapped .insReadTimeout)), ?_, hf, hsent, Or.inl ⟨_, _, rfl⟩⟩
    unfold Plm.read; rw [hrx]

/-- One step of the wait, given that the wait after it ends. -/
theorem await_step (dst : Address) (s : Live) (h : Sane s)
    (ih : ∀ s', Sane s' → (s.slots ≠ [] → s'.slots.length + 1 = s.slots.length) →
        (s.slots = [] → s'.slots = [] ∧ s'.port.msgQ.length + 1 = s.port.msgQ.length) →
        ∃ fuel0 s2 a e, (∀ fuel, fuel0 ≤ fuel → Plm.awaitAck Live.io dst fuel s' = some (s2, .ret a e)) ∧
          (e = none → a ≠ none) ∧ Sane s2 ∧ s2.sent = s'.sent) :
    ∃ fuel0 s2 a e, (∀ fuel, fuel0 ≤ fuel → Plm.awaitAck Live.io dst fuel s = some (s2, .ret a e)) ∧
      (e = none → a ≠ none) ∧ Sane s2 ∧ s2.sent = s.sent := by
  obtain ⟨s', r, h1, h2, h3, ⟨a, e, rfl⟩ | ⟨⟨m, rfl⟩, h4, h5⟩⟩ := read_live s h
  · refine ⟨1, s', a, some e, fun fuel hf => ?_, by simp, h2, h3⟩
    obtain ⟨fuel, rfl⟩ : ∃ k, fuel = k + 1 := ⟨fuel - 1, by omega⟩
    rw [Plm.awaitAck, h1]
  · obtain ⟨fuel0, s2, a, e, hi, gs, g2, g3⟩ := ih s' h2 h4 h5
    by_cases hm : m.src = dst ∧ (m.flags.ack = true ∨ m.flags.nak = true)
    · refine ⟨1, s', some m, if m.flags.nak then some .devNak else none, fun fuel hf => ?_, by simp, h2, h3⟩
      obtain ⟨fuel, rfl⟩ : ∃ k, fuel = k + 1 := ⟨fuel - 1, by omega⟩
      rw [Plm.awaitAck, h1]
      dsimp only
      rw [if_pos hm]
    · refine ⟨fuel0 + 1, s2, a, e, fun fuel hf => ?_, gs, g2, by rw [g3, h3]⟩
      obtain ⟨fuel, rfl⟩ : ∃ k, fuel = k + 1 := ⟨fuel - 1, by omega⟩
      rw [Plm.awaitAck, h1]
      dsimp only
      rw [if_neg hm, hi fuel (by omega)]

theorem await_live (dst : Address) (n : Nat) (s : Live) (h : Sane s) (hn : s.slots.length = n) :
    ∃ fuel0 s2 a e, (∀ fuel, fuel0 ≤ fuel → Plm.awaitAck Live.io dst fuel s = some (s2, .ret a e)) ∧
      (e = none → a ≠ none) ∧ Sane s2 ∧ s2.sent = s.sent := by
  induction n generalizing s with
  | zero =>
    have h0 : s.slots = [] := List.length_eq_zero_iff.mp hn
    generalize hm : s.port.msgQ.length = m
    induction m generalizing s with
    | zero =>
      refine await_step dst s h (fun s' _ _ h2 => ?_)
      have := (h2 h0).2
      omega
    | succ m ihm =>
      refine await_step dst s h (fun s' hs' _ h2 => ?_)
      obtain ⟨h3, h4⟩ := h2 h0
      exact ihm s' hs' (by rw [h3]; rfl) h3 (by omega)
  | succ n ih =>
    refine await_step dst s h (fun s' hs' h1 _ => ih s' hs' ?_)
    have := h1 (by intro h0; rw [h0] at hn; simp at hn)
    omega

theorem write_live (s : Live) (h : Sane s) (retries : Nat) (msg : Message) :
    ∃ fuel0 s' a e k, (∀ fuel, fuel0 ≤ fuel → Plm.write Live.io retries fuel s msg = some (s', .ret a e)) ∧
      (e = none → a ≠ none) ∧ Sane s' ∧
      k ≤ retries ∧ s'.sent = s.sent ++ List.replicate (k + 1) (request msg) := by
  have hcast : ((retries : Int) + 1).toNat = retries + 1 := by omega
  obtain ⟨s1, a, e, k, h1, h2, h3, h4⟩ := retry_live s h true ⟨0x62#8, afterSource msg, 0#8⟩ retries (.ret none none)
  obtain ⟨fuel0, s2, a2, e2, hw, gs, g2, g3⟩ := await_live msg.dst _ s1 h2 rfl
  rcases e with _ | e
  · refine ⟨fuel0, s2, a2, e2, k, fun fuel hf => ?_, gs, g2, h3, by rw [g3, h4]; rfl⟩
    unfold Plm.write
    simp only [PCmd.sendInsteonMsg, afterSource_drop, retryWrite, hcast]
    rw [h1]
    exact hw fuel hf
  · refine ⟨0, s1, none, some e, k, fun fuel _ => ?_, by simp, h2, h3, h4⟩
    unfold Plm.write
    simp only [PCmd.sendInsteonMsg, afterSource_drop, retryWrite, hcast]
    rw [h1]

/-- C106: whatever bytes the serial line brings (garbage, truncated frames, replies to other requests), every message
written to a freshly opened PLM gets a result once the line falls silent: no call hangs, none panics, and the line
has carried, in order, between one and `retries + 1` exact copies of each request and nothing else. -/
theorem writes_any_line (slots : List Bytes) (retries : Nat) (ms : List Message) :
    ∃ fuel0 live' rs ks, (∀ fuel, fuel0 ≤ fuel → writes Live.io retries fuel (Live.init slots) ms = some (live', rs)) ∧
      rs.length = ms.length ∧ (∀ r ∈ rs, ∃ a e, r = .ret a e ∧ (e = none → a ≠ none)) ∧
      ks.length = ms.length ∧ (∀ k ∈ ks, 1 ≤ k ∧ k ≤ retries + 1) ∧
      live'.sent = (List.zipWith (fun k m => List.replicate k (request m)) ks ms).flatten := by
  have key : ∀ (ms : List Message) (s : Live), Sane s → ∃ fuel0 live' rs ks,
      (∀ fuel, fuel0 ≤ fuel → writes Live.io retries fuel s ms = some (live', rs)) ∧
      rs.length = ms.length ∧ (∀ r ∈ rs, ∃ a e, r = .ret a e ∧ (e = none → a ≠ none)) ∧
      ks.length = ms.length ∧ (∀ k ∈ ks, 1 ≤ k ∧ k ≤ retries + 1) ∧
      live'.sent = s.sent ++ (List.zipWith (fun k m => List.replicate k (request m)) ks ms).flatten := by
    intro ms
    induction ms with
    | nil => intro s _; exact ⟨0, s, [], [], fun _ _ => rfl, rfl, by simp, rfl, by simp, by simp⟩
    | cons m ms ih =>
      intro s hs
      obtain ⟨f0, s1, a, e, k, h1, hae, h2, h3, h4⟩ := write_live s hs retries m
      obtain ⟨f1, s2, rs, ks, g1, g2, g3, g4, g5, g6⟩ := ih s1 h2
      refine ⟨max f0 f1, s2, .ret a e :: rs, (k + 1) :: ks, fun fuel hf => ?_, by simp [g2], ?_, by simp [g4], ?_, ?_⟩
      · rw [writes, h1 fuel (by omega)]
        dsimp only
        rw [g1 fuel (by omega)]
        rfl
      · intro r hr
        rcases List.mem_cons.mp hr with rfl | hr
        · exact ⟨a, e, rfl, hae⟩
        · exact g3 r hr
      · intro j hj
        rcases List.mem_cons.mp hj with rfl | hj
        · omega
        · exact g5 j hj
      · rw [g6, h4]; simp
  simpa [Live.init] using key ms (Live.init slots) ⟨rfl, by simp [Live.init, Port.init]⟩

/-- C106 for a device: a command sent to a device through a running PLM always ends without a panic, whatever the line
brings; the line has carried between one and `retries + 1` copies of exactly the frame for that device and command. -/
theorem command_on_the_line (info : DeviceInfo) (command : Command) (slots : List Bytes) (retries : Nat) :
    ∃ fuel0, ∀ fuel, fuel0 ≤ fuel → ∃ live' e k,
      Device.sendCommand info (Live.msgIO retries fuel) (Live.init slots) command [] = (live', .ok e) ∧
      1 ≤ k ∧ k ≤ retries + 1 ∧
      live'.sent = List.replicate k ([0x02#8, 0x62#8] ++ addr3 info.address ++
        [0x0f#8, BitVec.ofNat 8 (command.toNat / 256), BitVec.ofNat 8 command.toNat]) := by
  obtain ⟨f0, s1, a, e, k, h1, hae, h2, h3, h4⟩ := write_live (Live.init slots) ⟨rfl, by simp [Live.init, Port.init]⟩ retries
    (Device.prepare info ⟨0, 0, 0, command, []⟩)
  refine ⟨f0, fun fuel hf => ⟨s1, e, k + 1, ?_, by omega, by omega, ?_⟩⟩
  · unfold Device.sendCommand Device.send Device.write Live.msgIO
    dsimp only
    rw [h1 fuel hf]
    rcases e with _ | e
    · rcases a with _ | a
      · exact absurd rfl (hae rfl)
      · rfl
    · rfl
  · rw [h4, prepare_standard info _ rfl]
    have hx : ¬ isExtended 0x0f#8 := by decide
    simp [request, afterSource, Live.init, hx]

example : (Device.sendCommand ⟨0x112233, (1, 2), 0x43, 2⟩ (Live.msgIO 3 5) exLive 0x0011ff []).2 = .ok none ∧
    (Device.sendCommand ⟨0x112233, (1, 2), 0x43, 2⟩ (Live.msgIO 3 5) exLive 0x0011ff []).1.sent =
      List.replicate 2 [0x02#8, 0x62#8, 0x11#8, 0x22#8, 0x33#8, 0x0f#8, 0x11#8, 0xff#8] := by decide +kernel

/-- Garbage, a truncated frame and a refusal on the line: the two calls still return. -/
example : (writes Live.io 1 5 (Live.init [[0x02, 0x50, 0x11], [0xff, 0x02, 0x62, 0x11, 0x22, 0x33, 0x0f, 0x11, 0xff, 0x15], [], [0x02, 0x02]])
    [exMsg, exMsg]).map (·.2) = some [.ret none (some (.wrapped .plmReadTimeout)), .ret none (some (.wrapped .plmReadTimeout))] := by
  decide +kernel

end Insteon
