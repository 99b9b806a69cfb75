import Verif.Spec.SerialModem
import Verif.Props.Live
import Verif.Props.PlmLinks

/-
Property C107: the modem's link database over the serial line, from bytes to results.
-/

namespace Insteon
open Spec

/-! ### Bytes and packets -/

/-- The packets a modem on the line sends besides its answers. -/
def Spec.SerialKind.packets (k : SerialKind) : ModemKind where
  chatter := fun n => ((k.between n).map fun it => it.2.packet).filter fun p => !Port.isMsg p
  deletes := k.deletes

theorem frame_packet_cmd (f : Frame) : f.packet.command = f.cmd := by
  unfold Frame.packet; split_ifs <;> rfl

theorem frame_isMsg (f : Frame) : Port.isMsg f.packet = f.isMessage := by
  unfold Port.isMsg Frame.isMessage
  rw [frame_packet_cmd]

theorem serial_packets_lawful (k : SerialKind) (hk : k.lawful) : k.packets.lawful := by
  refine ⟨?_, hk.deletes⟩
  intro n p hp
  simp only [SerialKind.packets, List.mem_filter, List.mem_map] at hp
  obtain ⟨⟨it, hit, rfl⟩, -⟩ := hp
  rw [frame_packet_cmd]
  exact (hk.between n it hit).2.2

/-- The packets among some frames that are not messages. -/
def Spec.Items.others (its : Items) : List Packet := (its.map fun it => it.2.packet).filter fun p => !Port.isMsg p

theorem others_append (a b : Items) : Items.others (a ++ b) = Items.others a ++ Items.others b := by
  simp [Items.others]

theorem others_traffic (t : Traffic) : Items.others t.items = [] := by
  unfold Items.others
  rw [traffic_packets]
  exact (filter_asPackets t.messages).2

theorem others_answer (k : SerialKind) (m : SerialSt) (cmd : Byte) (body : Bytes) (st : Byte)
    (hc : cmd = 0x69#8 ∨ cmd = 0x6a#8 ∨ cmd = 0x6f#8) :
    Items.others (k.answer m cmd body st) = [⟨cmd, body, st⟩] := by
  unfold SerialKind.answer
  rw [others_append, others_traffic]
  rcases hc with rfl | rfl | rfl <;> simp [Items.others, Frame.packet, Port.isMsg, PCmd.stdMsgReceived, PCmd.extMsgReceived]

theorem answer_ok (k : SerialKind) (hk : k.lawful) (m : SerialSt) (cmd : Byte) (body : Bytes) (st : Byte)
    (hc : ((cmd = 0x69#8 ∨ cmd = 0x6a#8) ∧ body = []) ∨ (cmd = 0x6f#8 ∧ body.length = 9)) :
    ∀ it ∈ k.answer m cmd body st, Quiet it.1 ∧ it.2.wellFormed := by
  intro it hit
  simp only [SerialKind.answer, List.mem_append, List.mem_singleton] at hit
  rcases hit with h | rfl
  · exact traffic_ok_items _ (hk.ahead _) _ h
  · refine ⟨hk.noise _, ?_⟩
    rcases hc with ⟨rfl | rfl, rfl⟩ | ⟨rfl, h⟩
    · simp [Frame.wellFormed, lengthTable]
    · simp [Frame.wellFormed, lengthTable]
    · simp [Frame.wellFormed, lengthTable, h]

/-- Requests the host makes of the database. -/
def DbRequest (pkt : Packet) : Prop :=
  (pkt.command = 0x69#8 ∨ pkt.command = 0x6a#8) ∨
    (pkt.command = 0x6f#8 ∧ ∃ op r, pkt.payload = op :: r ∧ r.length = 8)

theorem upsert_len (p : Bytes → Bool) (x : Bytes) (db : List Bytes) (hx : x.length = 8) (h : ∀ r ∈ db, r.length = 8) :
    ∀ r ∈ upsert p x db, r.length = 8 := by
  induction db with
  | nil => simp [upsert, hx]
  | cons y ys ih =>
    simp only [List.mem_cons, forall_eq_or_imp] at h
    unfold upsert
    split_ifs
    · simp only [List.mem_cons, forall_eq_or_imp]; exact ⟨hx, h.2⟩
    · simp only [List.mem_cons, forall_eq_or_imp]; exact ⟨h.1, ih h.2⟩

theorem removeFirst_len (p : Bytes → Bool) (db : List Bytes) (h : ∀ r ∈ db, r.length = 8) :
    ∀ r ∈ removeFirst p db, r.length = 8 := by
  induction db with
  | nil => simp [removeFirst]
  | cons y ys ih =>
    simp only [List.mem_cons, forall_eq_or_imp] at h
    unfold removeFirst
    split_ifs
    · exact h.2
    · simp only [List.mem_cons, forall_eq_or_imp]; exact ⟨h.1, ih h.2⟩

/-- One host frame, byte-level modem and packet-level modem side by side. -/
theorem serial_receive (k : SerialKind) (hk : k.lawful) (m : SerialSt) (inbox : List Packet) (pkt : Packet)
    (h8 : ∀ r ∈ m.db, r.length = 8) (hp : DbRequest pkt) :
    k.packets.receive ⟨m.db, m.next, inbox, m.tick⟩ pkt.marshalBinary =
      ⟨(k.receive m pkt.marshalBinary).1.db, (k.receive m pkt.marshalBinary).1.next,
        inbox ++ Items.others (k.receive m pkt.marshalBinary).2, (k.receive m pkt.marshalBinary).1.tick⟩ ∧
    (∀ it ∈ (k.receive m pkt.marshalBinary).2, Quiet it.1 ∧ it.2.wellFormed) ∧
    (Items.others (k.receive m pkt.marshalBinary).2).length ≤ 10 ∧
    (∀ r ∈ (k.receive m pkt.marshalBinary).1.db, r.length = 8) := by
  have hget : ∀ (cmd : Byte) (i : Nat), cmd = 0x69#8 ∨ cmd = 0x6a#8 →
      k.packets.get ⟨m.db, m.next, inbox, m.tick⟩ cmd i =
        ⟨(k.get m cmd i).1.db, (k.get m cmd i).1.next, inbox ++ Items.others (k.get m cmd i).2, (k.get m cmd i).1.tick⟩ ∧
      (∀ it ∈ (k.get m cmd i).2, Quiet it.1 ∧ it.2.wellFormed) ∧
      (Items.others (k.get m cmd i).2).length ≤ 10 ∧ (∀ r ∈ (k.get m cmd i).1.db, r.length = 8) := by
    intro cmd i hc
    have hc' : cmd = 0x69#8 ∨ cmd = 0x6a#8 ∨ cmd = 0x6f#8 := by tauto
    unfold ModemKind.get SerialKind.get
    cases hr : m.db[i]? with
    | none =>
      dsimp only
      rw [others_answer k m cmd [] _ hc']
      exact ⟨rfl, answer_ok k hk m cmd [] _ (Or.inl ⟨hc, rfl⟩), by simp, h8⟩
    | some r =>
      have hr8 : r.length = 8 := h8 r (List.mem_of_getElem? hr)
      dsimp only
      rw [others_append, others_append, others_answer k m cmd [] _ hc']
      have hrec : Items.others [(k.gap m.clock, (⟨0x57#8, r⟩ : Frame))] = [⟨0x57#8, r, 0#8⟩] := by
        simp [Items.others, Frame.packet, Port.isMsg, PCmd.stdMsgReceived, PCmd.extMsgReceived]
      rw [hrec]
      have hbetween : Items.others (k.between m.tick) = k.packets.chatter m.tick := rfl
      rw [hbetween]
      refine ⟨by simp, ?_, ?_, h8⟩
      · intro it hit
        simp only [List.mem_append, List.mem_singleton] at hit
        rcases hit with (h | h) | rfl
        · exact answer_ok k hk m cmd [] _ (Or.inl ⟨hc, rfl⟩) it h
        · exact ⟨(hk.between _ _ h).1, (hk.between _ _ h).2.1⟩
        · exact ⟨hk.gap _, by simp [Frame.wellFormed, lengthTable, hr8]⟩
      · have hf := hk.few m.tick
        have : (k.packets.chatter m.tick).length = ((k.between m.tick).filter fun it => !it.2.isMessage).length := by
          unfold SerialKind.packets
          dsimp only
          rw [List.filter_map, List.length_map]
          congr 2
          funext it
          simp [frame_isMsg]
        simp only [List.length_append, List.length_cons, List.length_nil, this]
        omega
  have hman : ∀ (op : Byte) (r : Bytes), r.length = 8 →
      k.packets.manage ⟨m.db, m.next, inbox, m.tick⟩ op r =
        ⟨(k.manage m op r).1.db, (k.manage m op r).1.next, inbox ++ Items.others (k.manage m op r).2, (k.manage m op r).1.tick⟩ ∧
      (∀ it ∈ (k.manage m op r).2, Quiet it.1 ∧ it.2.wellFormed) ∧
      (Items.others (k.manage m op r).2).length ≤ 10 ∧ (∀ x ∈ (k.manage m op r).1.db, x.length = 8) := by
    intro op r hr
    have ho := fun st => others_answer k m 0x6f#8 (op :: r) st (by simp)
    have ha := fun st => answer_ok k hk m 0x6f#8 (op :: r) st (Or.inr ⟨rfl, by simp [hr]⟩)
    have hd : k.packets.deletes = k.deletes := rfl
    have key : ∀ (db' : List Bytes) (st : Byte) (q : SerialSt × Items) (q' : ModemSt),
        q = ({ m with db := db' }, k.answer m 0x6f#8 (op :: r) st) →
        q' = ⟨db', m.next, inbox ++ [⟨0x6f#8, op :: r, st⟩], m.tick⟩ → (∀ x ∈ db', x.length = 8) →
        q' = ⟨q.1.db, q.1.next, inbox ++ Items.others q.2, q.1.tick⟩ ∧
        (∀ it ∈ q.2, Quiet it.1 ∧ it.2.wellFormed) ∧ (Items.others q.2).length ≤ 10 ∧ (∀ r ∈ q.1.db, r.length = 8) := by
      rintro db' st q q' rfl rfl hx
      dsimp only
      rw [ho]
      exact ⟨rfl, ha _, by simp, hx⟩
    have fin := fun db' st => key db' st (k.manage m op r) (k.packets.manage ⟨m.db, m.next, inbox, m.tick⟩ op r)
    by_cases h1 : op = 0x80#8
    · by_cases h2 : m.db.any (k.deletes r) = true
      · exact fin (removeFirst (k.deletes r) m.db) 0x06#8 (by unfold SerialKind.manage; rw [if_pos h1, if_pos h2])
          (by unfold ModemKind.manage; rw [if_pos h1, hd, if_pos h2]) (removeFirst_len _ _ h8)
      · exact fin m.db 0x15#8 (by unfold SerialKind.manage; rw [if_pos h1, if_neg h2])
          (by unfold ModemKind.manage; rw [if_pos h1, hd, if_neg h2]) h8
    · by_cases h2 : op = 0x40#8
      · exact fin (upsert (fun x => rawController x && sameGroupAddress x r) r m.db) 0x06#8
          (by unfold SerialKind.manage; rw [if_neg h1, if_pos h2])
          (by unfold ModemKind.manage; rw [if_neg h1, if_pos h2]) (upsert_len _ _ _ hr h8)
      · by_cases h3 : op = 0x41#8
        · exact fin (upsert (fun x => !rawController x && sameGroupAddress x r) r m.db) 0x06#8
            (by unfold SerialKind.manage; rw [if_neg h1, if_neg h2, if_pos h3])
            (by unfold ModemKind.manage; rw [if_neg h1, if_neg h2, if_pos h3]) (upsert_len _ _ _ hr h8)
        · exact fin m.db 0x15#8 (by unfold SerialKind.manage; rw [if_neg h1, if_neg h2, if_neg h3])
            (by unfold ModemKind.manage; rw [if_neg h1, if_neg h2, if_neg h3]) h8
  obtain ⟨cmd, payload, ack⟩ := pkt
  unfold DbRequest at hp
  dsimp only at hp
  have hb : (⟨cmd, payload, ack⟩ : Packet).marshalBinary = 0x02#8 :: cmd :: payload := rfl
  rw [hb]
  rcases hp with (rfl | rfl) | ⟨rfl, op, r, rfl, hr⟩
  · have := hget 0x69#8 0 (Or.inl rfl)
    simpa [ModemKind.receive, SerialKind.receive] using this
  · have := hget 0x6a#8 m.next (Or.inr rfl)
    simpa [ModemKind.receive, SerialKind.receive] using this
  · have := hman op r hr
    simpa [ModemKind.receive, SerialKind.receive] using this

/-! ### Simulation -/

section
variable (k : SerialKind)

/-- A running PLM with a byte-level modem and the packet-level modem in the same situation. Messages that wait to be read
do not matter. -/
structure Alike (s : Wired SerialSt) (m : ModemSt) : Prop where
  isOpen : s.port.closed = false
  queue : s.port.pktQ = m.inbox
  wire : s.wire = []
  db : s.dev.db = m.db
  next : s.dev.next = m.next
  tick : s.dev.tick = m.tick
  eight : ∀ r ∈ m.db, r.length = 8

theorem run_pkts (s : PortSt) (ps : List Packet) (hc : s.closed = false)
    (hp : s.pktQ.length + (ps.filter fun p => !Port.isMsg p).length ≤ 10) :
    (Port.run s (ps.map .arrive)).1.closed = false ∧
      (Port.run s (ps.map .arrive)).1.pktQ = s.pktQ ++ ps.filter (fun p => !Port.isMsg p) := by
  induction ps generalizing s with
  | nil => simp [Port.run, hc]
  | cons p ps ih =>
    simp only [List.map_cons, Port.run]
    by_cases hk : Port.isMsg p = true
    · simp only [List.filter_cons, hk, Bool.not_true, Bool.false_eq_true, if_false] at hp ⊢
      have hstep : (Port.step s (.arrive p)).1.pktQ = s.pktQ ∧ (Port.step s (.arrive p)).1.closed = false := by
        simp only [Port.step, hc, hk, Bool.false_eq_true, if_false, if_true]
        split_ifs <;> simp [hc]
      rw [← hstep.1] at hp ⊢
      exact ih _ hstep.2 hp
    · have hk' : Port.isMsg p = false := by simpa using hk
      simp only [List.filter_cons, hk', if_true, List.length_cons, Bool.not_false] at hp ⊢
      have hstep : Port.step s (.arrive p) = ({ s with pktQ := s.pktQ ++ [p] }, .queued p) := by
        simp only [Port.step, hc, hk', Port.cap, Bool.false_eq_true, if_false]
        rw [if_pos (by omega)]
      rw [hstep]
      dsimp only
      have := ih { s with pktQ := s.pktQ ++ [p] } hc (by simp; omega)
      simpa using this

theorem alike_feed (s : Wired SerialSt) (m : ModemSt) (h : Alike s m) : s.feed = s := by
  obtain ⟨p, w, d⟩ := s
  have hw := h.wire
  dsimp only at hw
  subst hw
  rfl

theorem alike_read (s : Wired SerialSt) (m : ModemSt) (h : Alike s m) :
    Alike ((Wired.io k.react).rxPacket s).1 (k.packets.io.rxPacket m).1 ∧
      ((Wired.io k.react).rxPacket s).2 = (k.packets.io.rxPacket m).2 := by
  have hf := alike_feed s m h
  have hq := h.queue
  have hop := h.isOpen
  simp only [Wired.io, hf, ModemKind.io]
  cases hm : m.inbox with
  | nil =>
    rw [hm] at hq
    simp only [Port.recv, hq, hop]
    exact ⟨⟨rfl, by simp [hm], h.wire, h.db, h.next, h.tick, h.eight⟩, rfl⟩
  | cons p ps =>
    rw [hm] at hq
    simp only [Port.recv, hq]
    exact ⟨⟨hop, rfl, h.wire, h.db, h.next, h.tick, h.eight⟩, rfl⟩

/-- Writing a request and reading the first packet. -/
theorem alike_exchange (hk : k.lawful) (s : Wired SerialSt) (m : ModemSt) (h : Alike s m) (hin : m.inbox = [])
    (pkt : Packet) (hp : DbRequest pkt) :
    Alike ((Wired.io k.react).rxPacket ((Wired.io k.react).tx s pkt.marshalBinary).1).1
      (k.packets.io.rxPacket (k.packets.io.tx m pkt.marshalBinary).1).1 ∧
    ((Wired.io k.react).rxPacket ((Wired.io k.react).tx s pkt.marshalBinary).1).2 =
      (k.packets.io.rxPacket (k.packets.io.tx m pkt.marshalBinary).1).2 := by
  obtain ⟨⟨mq, pq, cl⟩, w, d⟩ := s
  obtain ⟨db, next, inbox, tick⟩ := m
  obtain ⟨h1, h2, h3, h4, h5, h6, h7⟩ := h
  dsimp only at h1 h2 h3 h4 h5 h6 h7 hin
  subst h1 hin h2 h3 h4 h5 h6
  obtain ⟨hrec, hok, hlen, h8⟩ := serial_receive k hk d [] pkt h7 hp
  have htx : (k.packets.io.tx ⟨d.db, d.next, [], d.tick⟩ pkt.marshalBinary).1 = _ := hrec
  rw [htx]
  have hwtx : ((Wired.io k.react).tx (⟨⟨mq, [], false⟩, [], d⟩ : Wired SerialSt) pkt.marshalBinary).1 =
      ⟨⟨mq, [], false⟩, line (k.receive d pkt.marshalBinary).2,
        { (k.receive d pkt.marshalBinary).1 with clock := d.clock + 1 }⟩ := rfl
  rw [hwtx]
  generalize k.receive d pkt.marshalBinary = r at *
  obtain ⟨hcl, hpk⟩ := run_pkts ⟨mq, [], false⟩ (r.2.map fun it => it.2.packet) rfl (by
    simpa [Items.others] using hlen)
  have hfeed : (⟨⟨mq, [], false⟩, line r.2, { r.1 with clock := d.clock + 1 }⟩ : Wired SerialSt).feed =
      ⟨(Port.run ⟨mq, [], false⟩ ((r.2.map fun it => it.2.packet).map .arrive)).1, [], { r.1 with clock := d.clock + 1 }⟩ := by
    unfold Wired.feed
    dsimp only
    rw [arrivals_line _ hok]
  have hal : Alike (⟨(Port.run ⟨mq, [], false⟩ ((r.2.map fun it => it.2.packet).map .arrive)).1, [],
      { r.1 with clock := d.clock + 1 }⟩ : Wired SerialSt) ⟨r.1.db, r.1.next, [] ++ Items.others r.2, r.1.tick⟩ :=
    ⟨hcl, hpk, rfl, rfl, rfl, rfl, h8⟩
  have := alike_read k _ _ hal
  have hrx : ∀ x : Wired SerialSt, (Wired.io k.react).rxPacket x = (Wired.io k.react).rxPacket x.feed := by
    intro x
    have : x.feed.feed = x.feed := rfl
    simp only [Wired.io, this]
  rw [hrx, hfeed]
  exact this

/-- What waits to be read after a request was answered: nothing, or a record with reports in front of it. -/
def Pending (inbox : List Packet) : Prop :=
  inbox = [] ∨ ∃ ch r, inbox = ch ++ [r] ∧ (∀ p ∈ ch, p.command ≠ 0x57#8) ∧ r.command = 0x57#8

theorem packet_write (kp : ModemKind) (hk : kp.lawful) (m : ModemSt) (hin : m.inbox = []) (pkt : Packet) (hp : DbRequest pkt)
    (hg : pkt.command ≠ 0x6f#8 → pkt.payload = []) (hack : pkt.ack = 0#8) :
    ∃ m' a e, Plm.writePacket kp.io m pkt = (m', .ret a e) ∧ Pending m'.inbox ∧
      (e ≠ none → m'.inbox = []) ∧ (pkt.command = 0x6f#8 → m'.inbox = []) := by
  obtain ⟨cmd, payload, ack⟩ := pkt
  dsimp only at hg hack
  subst hack
  have hget : ∀ cmd : Byte, cmd = 0x69#8 ∨ cmd = 0x6a#8 → ∃ m' a e, Plm.writePacket kp.io m ⟨cmd, [], 0#8⟩ = (m', .ret a e) ∧
      Pending m'.inbox ∧ (e ≠ none → m'.inbox = []) := by
    intro cmd hc
    cases hr : m.db[if cmd = 0x69#8 then 0 else m.next]? with
    | none =>
      exact ⟨_, _, _, modem_get_nak kp m cmd hc hin hr, by rw [hin]; exact Or.inl rfl, fun _ => hin⟩
    | some r =>
      refine ⟨_, _, _, modem_get_ack kp m cmd hc r hin hr, Or.inr ⟨_, _, rfl, hk.1 _, rfl⟩, by simp⟩
  unfold DbRequest at hp
  dsimp only at hp
  rcases hp with (rfl | rfl) | ⟨rfl, op, r, rfl, hr⟩
  · have hpl := hg (by decide)
    subst hpl
    obtain ⟨m', a, e, h1, h2, h3⟩ := hget 0x69#8 (Or.inl rfl)
    exact ⟨m', a, e, h1, h2, h3, by simp⟩
  · have hpl := hg (by decide)
    subst hpl
    obtain ⟨m', a, e, h1, h2, h3⟩ := hget 0x6a#8 (Or.inr rfl)
    exact ⟨m', a, e, h1, h2, h3, by simp⟩
  · have hman : ∃ db' st, kp.manage m op r = { m with db := db', inbox := [⟨0x6f#8, op :: r, st⟩] } ∧
        (st = 0x06#8 ∨ st = 0x15#8) := by
      unfold ModemKind.manage
      dsimp only
      rw [hin]
      split_ifs
      · exact ⟨_, _, rfl, Or.inl rfl⟩
      · exact ⟨m.db, 0x15#8, rfl, Or.inr rfl⟩
      · exact ⟨_, _, rfl, Or.inl rfl⟩
      · exact ⟨_, _, rfl, Or.inl rfl⟩
      · exact ⟨m.db, 0x15#8, rfl, Or.inr rfl⟩
    obtain ⟨db', st, hm, hst⟩ := hman
    have hw : ∃ e, Plm.writePacket kp.io m ⟨0x6f#8, op :: r, 0#8⟩ =
        ({ m with db := db', inbox := [] }, .ret (some ⟨0x6f#8, op :: r, st⟩) e) := by
      rcases hst with rfl | rfl
      · refine ⟨none, ?_⟩
        simp [Plm.writePacket, ModemKind.io, ModemKind.receive, Packet.marshalBinary, hm,
          Plm.checkAck, Packet.isACK, Packet.isNAK, PCmd.getInfo, PCmd.getConfig, PCmd.sendInsteonMsg]
      · refine ⟨some .plmNak, ?_⟩
        simp [Plm.writePacket, ModemKind.io, ModemKind.receive, Packet.marshalBinary, hm,
          Plm.checkAck, Packet.isACK, Packet.isNAK, PCmd.getInfo, PCmd.getConfig, PCmd.sendInsteonMsg]
    obtain ⟨e, he⟩ := hw
    exact ⟨_, _, e, he, Or.inl rfl, fun _ => rfl, fun _ => rfl⟩

/-- A request of the kind the program makes. -/
structure Asked (pkt : Packet) : Prop where
  req : DbRequest pkt
  get : pkt.command ≠ 0x6f#8 → pkt.payload = []
  ack : pkt.ack = 0#8

theorem alike_write (hk : k.lawful) (s : Wired SerialSt) (m : ModemSt) (h : Alike s m) (hin : m.inbox = [])
    (pkt : Packet) (hp : Asked pkt) :
    ∃ s' m' a e, Plm.writePacket (Wired.io k.react) s pkt = (s', .ret a e) ∧
      Plm.writePacket k.packets.io m pkt = (m', .ret a e) ∧ Alike s' m' ∧ Pending m'.inbox ∧
      (e ≠ none → m'.inbox = []) ∧ (pkt.command = 0x6f#8 → m'.inbox = []) := by
  obtain ⟨m', a, e, hw, hpend, h1, h2⟩ := packet_write k.packets (serial_packets_lawful k hk) m hin pkt hp.req hp.get hp.ack
  obtain ⟨hal, heq⟩ := alike_exchange k hk s m h hin pkt hp.req
  rcases ht1 : (Wired.io k.react).tx s pkt.marshalBinary with ⟨s1, x1⟩
  rcases ht2 : k.packets.io.tx m pkt.marshalBinary with ⟨m1, x2⟩
  have hx1 : x1 = none := by
    have : ((Wired.io k.react).tx s pkt.marshalBinary).2 = none := rfl
    rw [ht1] at this; exact this
  have hx2 : x2 = none := by
    have : (k.packets.io.tx m pkt.marshalBinary).2 = none := rfl
    rw [ht2] at this; exact this
  subst hx1 hx2
  rw [ht1, ht2] at hal heq
  dsimp only at hal heq
  rcases hr1 : (Wired.io k.react).rxPacket s1 with ⟨s2, y1⟩
  rcases hr2 : k.packets.io.rxPacket m1 with ⟨m2, y2⟩
  rw [hr1, hr2] at hal heq
  dsimp only at hal heq
  subst heq
  have hboth : (Plm.writePacket (Wired.io k.react) s pkt).1 = s2 ∧ (Plm.writePacket k.packets.io m pkt).1 = m2 ∧
      (Plm.writePacket (Wired.io k.react) s pkt).2 = (Plm.writePacket k.packets.io m pkt).2 := by
    unfold Plm.writePacket
    rw [ht1, ht2]
    dsimp only
    rw [hr1, hr2]
    cases y1 with
    | timeout => exact ⟨rfl, rfl, rfl⟩
    | closed => exact ⟨rfl, rfl, rfl⟩
    | packet p =>
      dsimp only
      rcases Plm.checkAck pkt p with _ | _ | _ <;> exact ⟨rfl, rfl, rfl⟩
  obtain ⟨b1, b2, b3⟩ := hboth
  rw [hw] at b2 b3
  dsimp only at b2 b3
  subst b2
  exact ⟨s2, m', a, e, Prod.ext b1 b3, hw, hal, hpend, h1, h2⟩

theorem alike_retryLoop (hk : k.lawful) (ig : Bool) (pkt : Packet) (hp : Asked pkt) (n : Nat) (s : Wired SerialSt) (m : ModemSt)
    (h : Alike s m) (hin : m.inbox = []) (a0 : Option Packet) (e0 : Option Err) :
    ∃ s' m' a e, retryLoop (Plm.writePacket (Wired.io k.react)) ig pkt n s (.ret a0 e0) = (s', .ret a e) ∧
      retryLoop (Plm.writePacket k.packets.io) ig pkt n m (.ret a0 e0) = (m', .ret a e) ∧ Alike s' m' ∧ Pending m'.inbox ∧
      (e ≠ none → m'.inbox = []) ∧ (pkt.command = 0x6f#8 → m'.inbox = []) := by
  induction n generalizing s m a0 e0 with
  | zero => exact ⟨s, m, a0, e0, rfl, rfl, h, by rw [hin]; exact Or.inl rfl, fun _ => hin, fun _ => hin⟩
  | succ n ih =>
    obtain ⟨s1, m1, a, e, hw1, hw2, hal, hpend, h1, h2⟩ := alike_write k hk s m h hin pkt hp
    rw [retryLoop, retryLoop, hw1, hw2]
    dsimp only
    by_cases hr : retryable ig e = true
    · rw [if_pos hr, if_pos hr]
      refine ih s1 m1 hal (h1 ?_) a e
      rintro rfl
      simp [retryable] at hr
    · rw [if_neg hr, if_neg hr]
      exact ⟨s1, m1, a, e, rfl, rfl, hal, hpend, h1, h2⟩

theorem alike_retry (hk : k.lawful) (retries : Int) (ig : Bool) (pkt : Packet) (hp : Asked pkt) (s : Wired SerialSt) (m : ModemSt)
    (h : Alike s m) (hin : m.inbox = []) :
    ∃ s' m' a e, retryWrite (Plm.writePacket (Wired.io k.react)) retries ig s pkt = (s', .ret a e) ∧
      retryWrite (Plm.writePacket k.packets.io) retries ig m pkt = (m', .ret a e) ∧ Alike s' m' ∧ Pending m'.inbox ∧
      (e ≠ none → m'.inbox = []) ∧ (pkt.command = 0x6f#8 → m'.inbox = []) :=
  alike_retryLoop k hk ig pkt hp _ s m h hin none none

theorem asked_first : Asked ⟨0x69#8, [], 0#8⟩ := ⟨Or.inl (Or.inl rfl), fun _ => rfl, rfl⟩
theorem asked_next : Asked ⟨0x6a#8, [], 0#8⟩ := ⟨Or.inl (Or.inr rfl), fun _ => rfl, rfl⟩
theorem asked_manage (op : Byte) (l : LinkRecord) :
    Asked ⟨0x6f#8, ManageRecord.marshalBinary ⟨op, l⟩, 0#8⟩ :=
  ⟨Or.inr ⟨rfl, op, rawOf l, by rw [ManageRecord.marshalBinary, marshal_raw], rfl⟩, fun h => absurd rfl h, rfl⟩

theorem alike_loop (hk : k.lawful) (retries : Int) (fuel : Nat) (s : Wired SerialSt) (m : ModemSt) (acc : List LinkRecord)
    (h : Alike s m) (hp : Pending m.inbox) :
    (PlmLinks.refreshLoop (Plm.asWriter k.packets.io) retries fuel m acc = none ∧
      PlmLinks.refreshLoop (Plm.asWriter (Wired.io k.react)) retries fuel s acc = none) ∨
    ∃ s' m' r, PlmLinks.refreshLoop (Plm.asWriter k.packets.io) retries fuel m acc = some (m', r) ∧
      PlmLinks.refreshLoop (Plm.asWriter (Wired.io k.react)) retries fuel s acc = some (s', r) ∧ Alike s' m' := by
  induction fuel generalizing s m acc with
  | zero => exact Or.inl ⟨rfl, rfl⟩
  | succ fuel ih =>
    obtain ⟨hal, heq⟩ := alike_read k s m h
    have hrd1 : (Plm.asWriter (Wired.io k.react)).read = Plm.readPacket (Wired.io k.react) := rfl
    have hrd2 : (Plm.asWriter k.packets.io).read = Plm.readPacket k.packets.io := rfl
    have hwr1 : (Plm.asWriter (Wired.io k.react)).write = Plm.writePacket (Wired.io k.react) := rfl
    have hwr2 : (Plm.asWriter k.packets.io).write = Plm.writePacket k.packets.io := rfl
    rw [PlmLinks.refreshLoop, PlmLinks.refreshLoop, hrd1, hrd2, hwr1, hwr2]
    unfold Plm.readPacket
    rcases hr1 : (Wired.io k.react).rxPacket s with ⟨s1, y1⟩
    rcases hr2 : k.packets.io.rxPacket m with ⟨m1, y2⟩
    rw [hr1, hr2] at hal heq
    dsimp only at hal heq
    subst heq
    cases y1 with
    | timeout => exact Or.inr ⟨_, _, _, rfl, rfl, hal⟩
    | closed => exact Or.inr ⟨_, _, _, rfl, rfl, hal⟩
    | packet p =>
      dsimp only
      have hin : m.inbox = p :: m1.inbox := by
        simp only [ModemKind.io] at hr2
        split at hr2
        · simp at hr2
        · rename_i q qs hq
          simp only [Prod.mk.injEq, Recv.packet.injEq] at hr2
          rw [hq, ← hr2.1, hr2.2]
      have hnext : (p.command = 0x57#8 → m1.inbox = []) ∧ Pending m1.inbox := by
        rcases hp with hp | ⟨ch, r, hp, hch, hr⟩
        · rw [hp] at hin; simp at hin
        · rw [hp] at hin
          cases ch with
          | nil =>
            simp only [List.nil_append, List.cons.injEq] at hin
            exact ⟨fun _ => hin.2.symm, Or.inl hin.2.symm⟩
          | cons c ch =>
            simp only [List.cons_append, List.cons.injEq] at hin
            obtain ⟨rfl, hin⟩ := hin
            exact ⟨fun hc => absurd hc (hch c (by simp)), Or.inr ⟨ch, r, hin.symm, fun q hq => hch q (by simp [hq]), hr⟩⟩
      by_cases hc : p.command = PCmd.allLinkRecordResp
      · rw [if_pos hc, if_pos hc]
        rcases LinkRecord.unmarshalBinary LinkRecord.zero p.payload with ⟨l, _ | e1⟩
        · dsimp only
          obtain ⟨s2, m2, a, e, hw1, hw2, hal2, hpend, -, -⟩ :=
            alike_retry k hk retries false _ asked_next s1 m1 hal (hnext.1 hc)
          simp only [PCmd.getNextAllLink] at *
          rw [hw1, hw2]
          cases e with
          | some e => exact Or.inr ⟨_, _, _, rfl, rfl, hal2⟩
          | none => exact ih s2 m2 _ hal2 hpend
        · exact Or.inr ⟨_, _, _, rfl, rfl, hal⟩
      · rw [if_neg hc, if_neg hc]
        exact ih s1 m1 acc hal hnext.2

/-- `Links` on the line and on the packet-level modem. -/
theorem alike_links (hk : k.lawful) (retries : Int) (fuel : Nat) (s : Wired SerialSt) (m m' : ModemSt) (cached : List LinkRecord)
    (r : Out (List LinkRecord × Option Err)) (h : Alike s m) (hin : m.inbox = [])
    (hl : PlmLinks.links (Plm.asWriter k.packets.io) retries fuel m cached = some (m', r)) :
    ∃ s', PlmLinks.links (Plm.asWriter (Wired.io k.react)) retries fuel s cached = some (s', r) ∧ Alike s' m' := by
  unfold PlmLinks.links PlmLinks.refresh at hl ⊢
  have hwr1 : (Plm.asWriter (Wired.io k.react)).write = Plm.writePacket (Wired.io k.react) := rfl
  have hwr2 : (Plm.asWriter k.packets.io).write = Plm.writePacket k.packets.io := rfl
  rw [hwr2] at hl
  rw [hwr1]
  obtain ⟨s1, m1, a, e, hw1, hw2, hal, hpend, -, -⟩ := alike_retry k hk retries true _ asked_first s m h hin
  simp only [PCmd.getFirstAllLink] at *
  rw [hw2] at hl
  rw [hw1]
  cases e with
  | some e =>
    simp only [Option.some.injEq, Prod.mk.injEq] at hl
    obtain ⟨rfl, rfl⟩ := hl
    exact ⟨_, rfl, hal⟩
  | none =>
    dsimp only at hl ⊢
    rcases alike_loop k hk retries fuel s1 m1 [] hal hpend with ⟨h1, h2⟩ | ⟨s2, m2, r2, h1, h2, hal2⟩
    · rw [h1] at hl; simp at hl
    · rw [h1] at hl
      rw [h2]
      rcases r2 with ⟨ls, e2⟩ | _ | _ <;> simp only [Option.some.injEq, Prod.mk.injEq] at hl <;>
        obtain ⟨rfl, rfl⟩ := hl <;> exact ⟨_, rfl, hal2⟩

theorem alike_manage (hk : k.lawful) (op : Byte) (l : LinkRecord) (s : Wired SerialSt) (m : ModemSt)
    (h : Alike s m) (hin : m.inbox = []) :
    ∃ s' m' a e, retryWrite (Plm.asWriter (Wired.io k.react)).write 3 true s
        ⟨PCmd.manageAllLinkRecord, ManageRecord.marshalBinary ⟨op, l⟩, 0#8⟩ = (s', .ret a e) ∧
      retryWrite (Plm.asWriter k.packets.io).write 3 true m
        ⟨PCmd.manageAllLinkRecord, ManageRecord.marshalBinary ⟨op, l⟩, 0#8⟩ = (m', .ret a e) ∧ Alike s' m' ∧ m'.inbox = [] := by
  obtain ⟨s1, m1, a, e, hw1, hw2, hal, -, -, h2⟩ := alike_retry k hk 3 true _ (asked_manage op l) s m h hin
  exact ⟨s1, m1, a, e, hw1, hw2, hal, h2 rfl⟩

theorem alike_deleteAll (hk : k.lawful) (ls : List LinkRecord) (s : Wired SerialSt) (m : ModemSt) (h : Alike s m)
    (hin : m.inbox = []) :
    ∃ s' m' r, PlmLinks.deleteAll (Plm.asWriter (Wired.io k.react)) s ls = (s', r) ∧
      PlmLinks.deleteAll (Plm.asWriter k.packets.io) m ls = (m', r) ∧ Alike s' m' ∧ m'.inbox = [] := by
  induction ls generalizing s m with
  | nil => exact ⟨s, m, _, rfl, rfl, h, hin⟩
  | cons l ls ih =>
    obtain ⟨s1, m1, a, e, hw1, hw2, hal, hi⟩ := alike_manage k hk 0x80#8 l s m h hin
    rw [PlmLinks.deleteAll, PlmLinks.deleteAll, PlmLinks.deleteLink, PlmLinks.deleteLink, hw1, hw2]
    cases e with
    | some e => exact ⟨_, _, _, rfl, rfl, hal, hi⟩
    | none => exact ih s1 m1 hal hi

theorem alike_writeOne (hk : k.lawful) (l : LinkRecord) (s : Wired SerialSt) (m : ModemSt) (h : Alike s m)
    (hin : m.inbox = []) :
    ∃ s' m' r, PlmLinks.writeOne (Plm.asWriter (Wired.io k.react)) s l = (s', r) ∧
      PlmLinks.writeOne (Plm.asWriter k.packets.io) m l = (m', r) ∧ Alike s' m' ∧ m'.inbox = [] := by
  obtain ⟨s1, m1, a, e, hw1, hw2, hal, hi⟩ := alike_manage k hk (if l.flags.controller then 0x40#8 else 0x41#8) l s m h hin
  unfold PlmLinks.writeOne PlmLinks.writeLink PlmLinks.deleteLink
  rw [hw1, hw2]
  cases e with
  | none => exact ⟨_, _, _, rfl, rfl, hal, hi⟩
  | some e =>
    dsimp only
    by_cases he : e = .wrongPayload
    · rw [if_pos he, if_pos he]
      cases a with
      | none => exact ⟨_, _, _, rfl, rfl, hal, hi⟩
      | some a =>
        dsimp only
        obtain ⟨s2, m2, a2, e2, hx1, hx2, hal2, hi2⟩ := alike_manage k hk 0x80#8
          (LinkRecord.unmarshalBinary LinkRecord.zero a.payload).1 s1 m1 hal hi
        rw [hx1, hx2]
        cases e2 with
        | some e2 => exact ⟨_, _, _, rfl, rfl, hal2, hi2⟩
        | none =>
          dsimp only
          obtain ⟨s3, m3, a3, e3, hy1, hy2, hal3, hi3⟩ := alike_manage k hk (if l.flags.controller then 0x40#8 else 0x41#8) l s2 m2 hal2 hi2
          rw [hy1, hy2]
          exact ⟨_, _, _, rfl, rfl, hal3, hi3⟩
    · rw [if_neg he, if_neg he]
      exact ⟨_, _, _, rfl, rfl, hal, hi⟩

theorem alike_writeAll (hk : k.lawful) (ls done : List LinkRecord) (s : Wired SerialSt) (m : ModemSt) (h : Alike s m)
    (hin : m.inbox = []) :
    ∃ s' m' r, PlmLinks.writeAll (Plm.asWriter (Wired.io k.react)) s done ls = (s', r) ∧
      PlmLinks.writeAll (Plm.asWriter k.packets.io) m done ls = (m', r) ∧ Alike s' m' ∧ m'.inbox = [] := by
  induction ls generalizing s m done with
  | nil => exact ⟨s, m, _, rfl, rfl, h, hin⟩
  | cons l ls ih =>
    obtain ⟨s1, m1, r, hw1, hw2, hal, hi⟩ := alike_writeOne k hk l s m h hin
    rw [PlmLinks.writeAll, PlmLinks.writeAll, hw1, hw2]
    rcases r with (_ | e) | _ | _
    · exact ih _ s1 m1 hal hi
    · exact ⟨_, _, _, rfl, rfl, hal, hi⟩
    · exact ⟨_, _, _, rfl, rfl, hal, hi⟩
    · exact ⟨_, _, _, rfl, rfl, hal, hi⟩

/-- `WriteLinks` on the line and on the packet-level modem. -/
theorem alike_writeLinks (hk : k.lawful) (s : Wired SerialSt) (m m' : ModemSt) (cached new : List LinkRecord)
    (r : Out (List LinkRecord × Option Err)) (h : Alike s m) (hin : m.inbox = [])
    (hl : PlmLinks.writeLinks (Plm.asWriter k.packets.io) m cached new = (m', r)) :
    ∃ s', PlmLinks.writeLinks (Plm.asWriter (Wired.io k.react)) s cached new = (s', r) ∧ Alike s' m' := by
  unfold PlmLinks.writeLinks at hl ⊢
  obtain ⟨s1, m1, r1, hw1, hw2, hal, hi⟩ := alike_deleteAll k hk cached s m h hin
  rw [hw2] at hl
  rw [hw1]
  rcases r1 with (_ | e) | _ | _
  · obtain ⟨s2, m2, r2, hx1, hx2, hal2, -⟩ := alike_writeAll k hk new [] s1 m1 hal hi
    dsimp only at hl ⊢
    rw [hx2] at hl
    simp only [Prod.mk.injEq] at hl
    obtain ⟨rfl, rfl⟩ := hl
    exact ⟨s2, hx1, hal2⟩
  all_goals
    simp only [Prod.mk.injEq] at hl
    obtain ⟨rfl, rfl⟩ := hl
    exact ⟨s1, rfl, hal⟩

end

/-! ### C107 -/

/-- C107, reading: a PLM started on a serial line with a modem that keeps to the protocol. Whatever noise there is between
the frames, however many messages from the network come in before and after each answer, and whatever other reports come
with them (at most eight per record), `Links` returns exactly the modem's records in order, for a database of any size. -/
theorem serial_links_complete (k : SerialKind) (hk : k.lawful) (retries : Nat) (db : List Bytes)
    (h8 : ∀ r ∈ db, r.length = 8) (cached : List LinkRecord) :
    ∃ (fuel₀ : Nat) , ∀ fuel ≥ fuel₀, ∃ s' : Wired SerialSt, s'.dev.db = db ∧
      PlmLinks.links (Plm.asWriter (Wired.io k.react)) retries fuel (Wired.init ⟨db, 0, 0, 0⟩) cached =
        some (s', .ok (db.map recordOf, none)) := by
  have hal : Alike (Wired.init ⟨db, 0, 0, 0⟩) ⟨db, 0, [], 0⟩ := ⟨rfl, rfl, rfl, rfl, rfl, rfl, h8⟩
  obtain ⟨fuel₀, m', hdb, -, h⟩ := modem_links_complete k.packets (serial_packets_lawful k hk) retries ⟨db, 0, [], 0⟩
    cached h8 rfl
  refine ⟨fuel₀, fun fuel hf => ?_⟩
  obtain ⟨s', hs, hal'⟩ := alike_links k hk retries fuel _ _ _ cached _ hal rfl (h fuel hf)
  exact ⟨s', by rw [hal'.db, hdb], hs⟩

/-- C107, rewriting: `Links`, then `WriteLinks` with links the modem can tell apart, then `Links` again: both calls succeed,
the modem's database holds exactly the given links and the last call returns them. -/
theorem serial_rewrite (k : SerialKind) (hk : k.lawful) (retries : Nat) (db : List Bytes)
    (h8 : ∀ r ∈ db, r.length = 8) (cached new : List LinkRecord)
    (hdist : new.Pairwise (fun a b => ¬ SameLink a b)) (h24 : ∀ l ∈ new, l.address.toNat < 2 ^ 24) :
    ∃ (fuel₀ : Nat), ∀ fuel ≥ fuel₀, ∃ (s1 s2 s3 : Wired SerialSt) (c1 : List LinkRecord),
      PlmLinks.links (Plm.asWriter (Wired.io k.react)) retries fuel (Wired.init ⟨db, 0, 0, 0⟩) cached = some (s1, .ok (c1, none)) ∧
      PlmLinks.writeLinks (Plm.asWriter (Wired.io k.react)) s1 c1 new = (s2, .ok (new, none)) ∧
      s2.dev.db = new.map rawOf ∧
      PlmLinks.links (Plm.asWriter (Wired.io k.react)) retries fuel s2 new = some (s3, .ok (new, none)) := by
  have hlaw := serial_packets_lawful k hk
  have hal : Alike (Wired.init ⟨db, 0, 0, 0⟩) ⟨db, 0, [], 0⟩ := ⟨rfl, rfl, rfl, rfl, rfl, rfl, h8⟩
  obtain ⟨f1, m1, hdb, hin1, h1⟩ := modem_links_complete k.packets hlaw retries ⟨db, 0, [], 0⟩ cached h8 rfl
  dsimp only at hdb h1
  have hw := modem_rewrite_partial k.packets hlaw m1 new (by rw [hdb]; exact h8) hin1 hdist h24
  rw [hdb] at hw
  obtain ⟨f2, m3, -, -, h3⟩ := modem_links_complete k.packets hlaw retries { m1 with db := new.map rawOf } new (by
    intro r hr
    simp only [List.mem_map] at hr
    obtain ⟨l, -, rfl⟩ := hr
    rfl) hin1
  have hid : (new.map rawOf).map recordOf = new := by
    rw [List.map_map]
    conv => rhs; rw [← List.map_id new]
    apply List.map_congr_left
    intro l hl
    exact record_raw l (h24 l hl)
  dsimp only at h3
  rw [hid] at h3
  refine ⟨max f1 f2, fun fuel hf => ?_⟩
  obtain ⟨s1, hs1, hal1⟩ := alike_links k hk retries fuel _ _ _ cached _ hal rfl (h1 fuel (by omega))
  obtain ⟨s2, hs2, hal2⟩ := alike_writeLinks k hk s1 m1 _ _ new _ hal1 hin1 hw
  obtain ⟨s3, hs3, -⟩ := alike_links k hk retries fuel s2 _ _ new _ hal2 hin1 (h3 fuel (by omega))
  exact ⟨s1, s2, s3, _, hs1, hs2, hal2.db, hs3⟩

/-- A modem with traffic, noise and other reports on the line. -/
def busyModem : SerialKind where
  ahead := fun n => if n = 1 then [([0xff#8], ⟨0x010203#32, 0x040506#32, 0xcb#8, 0x0c1100#64, []⟩)] else []
  noise := fun _ => [0x00#8]
  between := fun n => if n = 0 then [([0x02#8, 0x00#8], ⟨0x54#8, [2#8]⟩)] else []
  gap := fun _ => []
  deletes := sameGroupAddress

theorem busyModem_lawful : busyModem.lawful where
  ahead := by
    intro n x hx
    simp only [busyModem] at hx
    split_ifs at hx
    · simp only [List.mem_singleton] at hx
      subst hx
      exact ⟨quiet_one _, by decide, by decide, by decide, by decide⟩
    · simp at hx
  noise := fun _ => quiet_one _
  gap := fun _ => quiet_nil
  between := by
    intro n it hit
    simp only [busyModem] at hit
    split_ifs at hit
    · simp only [List.mem_singleton] at hit
      subst hit
      exact ⟨quiet_cons _ _ _ (by simp [Known, lengthTable]) (quiet_one _), by simp [Frame.wellFormed, lengthTable], by decide⟩
    · simp at hit
  few := by
    intro n
    simp only [busyModem]
    split_ifs <;> simp [List.filter_cons]
    split_ifs <;> simp
  deletes := by intro r; simp [busyModem, sameGroupAddress]

example : ((PlmLinks.links (Plm.asWriter (Wired.io busyModem.react)) 3 20
    (Wired.init ⟨[[0xe2, 1, 0xaa, 0xbb, 0xcc, 1, 2, 3], [0xa2, 5, 0, 0, 9, 0, 0, 0]], 0, 0, 0⟩) []).map (·.2)) =
    some (.ok ([⟨0xe2#8, 1#8, 0xaabbcc#32, 1, 2, 3⟩, ⟨0xa2#8, 5#8, 9#32, 0, 0, 0⟩], none)) := by decide +kernel

theorem loop_more_fuel {σ : Type} (w : PacketWriter σ) (retries : Int) (fuel : Nat) (s : σ) (acc : List LinkRecord)
    (x : σ × Out (List LinkRecord × Err)) (h : PlmLinks.refreshLoop w retries fuel s acc = some x) :
    ∀ f ≥ fuel, PlmLinks.refreshLoop w retries f s acc = some x := by
  induction fuel generalizing s acc with
  | zero => simp [PlmLinks.refreshLoop] at h
  | succ fuel ih =>
    intro f hf
    obtain ⟨f, rfl⟩ : ∃ g, f = g + 1 := ⟨f - 1, by omega⟩
    rw [PlmLinks.refreshLoop] at h ⊢
    rcases hr : w.read s with ⟨s1, ⟨_ | pkt, _ | e1⟩ | _⟩ <;> rw [hr] at h <;> dsimp only at h ⊢
    any_goals exact h
    by_cases hc : pkt.command = PCmd.allLinkRecordResp
    · rw [if_pos hc] at h ⊢
      rcases hu : LinkRecord.unmarshalBinary LinkRecord.zero pkt.payload with ⟨l, _ | e1⟩ <;> rw [hu] at h <;> dsimp only at h ⊢
      · rcases hw : retryWrite w.write retries false s1 ⟨PCmd.getNextAllLink, [], 0#8⟩ with ⟨s2, ⟨a, _ | e2⟩ | _⟩ <;>
          rw [hw] at h <;> dsimp only at h ⊢
        · exact ih _ _ h f (by omega)
        · exact h
        · exact h
      · exact h
    · rw [if_neg hc] at h ⊢
      exact ih _ _ h f (by omega)

theorem links_more_fuel {σ : Type} (w : PacketWriter σ) (retries : Int) (fuel : Nat) (s : σ) (cached : List LinkRecord)
    (x : σ × Out (List LinkRecord × Option Err)) (h : PlmLinks.links w retries fuel s cached = some x) :
    ∀ f ≥ fuel, PlmLinks.links w retries f s cached = some x := by
  intro f hf
  unfold PlmLinks.links PlmLinks.refresh at h ⊢
  rcases hw : retryWrite w.write retries true s ⟨PCmd.getFirstAllLink, [], 0#8⟩ with ⟨s2, ⟨a, _ | e2⟩ | _⟩ <;>
    rw [hw] at h <;> dsimp only at h ⊢
  · rcases hl : PlmLinks.refreshLoop w retries fuel s2 [] with _ | y
    · rw [hl] at h; simp at h
    · rw [loop_more_fuel w retries fuel s2 [] y hl f hf]
      rw [hl] at h
      exact h
  · exact h
  · exact h

/-- The bound on other reports is needed: with ten of them between acknowledgement and record, the record does not fit in
the queue and is lost; `Links` reports a timeout. -/
theorem serial_links_flooded_refuted :
    ¬ ∀ (between : Nat → Items) (db : List Bytes), (∀ n, ∀ it ∈ between n, Quiet it.1 ∧ it.2.wellFormed ∧ it.2.cmd ≠ 0x57#8) →
      (∀ r ∈ db, r.length = 8) → ∃ fuel₀, ∀ fuel ≥ fuel₀,
        (PlmLinks.links (Plm.asWriter (Wired.io (SerialKind.mk (fun _ => []) (fun _ => []) between (fun _ => []) sameGroupAddress).react))
          3 fuel (Wired.init ⟨db, 0, 0, 0⟩) []).map (·.2) = some (.ok (db.map recordOf, none)) := by
  intro h
  obtain ⟨f0, h⟩ := h (fun _ => List.replicate 10 ([], ⟨0x54#8, [2#8]⟩)) [[0xe2, 1, 0xaa, 0xbb, 0xcc, 1, 2, 3]] (by
    intro n it hit
    rw [List.eq_of_mem_replicate hit]
    exact ⟨quiet_nil, by simp [Frame.wellFormed, lengthTable], by decide⟩) (by simp)
  have h1 := h (max f0 20) (by omega)
  have h2 : (PlmLinks.links (Plm.asWriter (Wired.io (SerialKind.mk (fun _ => []) (fun _ => [])
      (fun _ => List.replicate 10 ([], ⟨0x54#8, [2#8]⟩)) (fun _ => []) sameGroupAddress).react))
          3 20 (Wired.init ⟨[[0xe2, 1, 0xaa, 0xbb, 0xcc, 1, 2, 3]], 0, 0, 0⟩) []).map (·.2) =
      some (.ok ([], some (.wrapped .plmReadTimeout))) := by decide +kernel
  obtain ⟨x, hx, hx2⟩ := Option.map_eq_some_iff.mp h2
  rw [links_more_fuel _ _ _ _ _ _ hx (max f0 20) (by omega), Option.map_some, hx2] at h1
  simp at h1

end Insteon
