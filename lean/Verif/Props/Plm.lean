import Verif.Model.Plm
import Verif.Props.Reader

/-
Properties C28 - C34: queues, modem writes, retries, message acknowledgement, configuration.
-/

namespace Insteon
open Spec

/-! ### C28 -/

namespace Spec

/-- An Insteon message received by the modem (as opposed to a modem reply or event). -/
def MessagePacket (p : Packet) : Prop := p.command = 0x50#8 ∨ p.command = 0x51#8

instance (p : Packet) : Decidable (MessagePacket p) := by unfold MessagePacket; infer_instance

/-- Packets of one kind arriving in a history. -/
def arrived (kind : Packet → Bool) (es : List PortEv) : List Packet :=
  es.filterMap fun e => match e with
    | .arrive p => if kind p then some p else none
    | _ => none

/-- Packets of one kind that were put in a queue. -/
def queued (kind : Packet → Bool) (os : List PortObs) : List Packet :=
  os.filterMap fun o => match o with
    | .queued p => if kind p then some p else none
    | _ => none

/-- Packets handed to readers of messages. -/
def readMsgs (os : List PortObs) : List Packet :=
  os.filterMap fun o => match o with
    | .gotMsg (.packet p) => some p
    | _ => none

/-- Packets handed to readers of modem packets. -/
def readPkts (os : List PortObs) : List Packet :=
  os.filterMap fun o => match o with
    | .gotPkt (.packet p) => some p
    | _ => none

/-- The two kinds. -/
def msgKind (p : Packet) : Bool := decide (MessagePacket p)
def pktKind (p : Packet) : Bool := !decide (MessagePacket p)

end Spec

theorem isMsg_iff (p : Packet) : Port.isMsg p = msgKind p := by
  by_cases h1 : p.command = 0x50#8 <;> by_cases h2 : p.command = 0x51#8 <;>
    simp [Port.isMsg, msgKind, MessagePacket, h1, h2]

/-- Invariant over one run from any state. -/
theorem port_run (s : PortSt) (es : List PortEv) (hm : s.msgQ.length ≤ 10) (hp : s.pktQ.length ≤ 10) :
    let r := Port.run s es
    readMsgs r.2 ++ r.1.msgQ = s.msgQ ++ queued msgKind r.2 ∧
    readPkts r.2 ++ r.1.pktQ = s.pktQ ++ queued pktKind r.2 ∧
    (queued msgKind r.2).Sublist (arrived msgKind es) ∧
    (queued pktKind r.2).Sublist (arrived pktKind es) ∧
    r.1.msgQ.length ≤ 10 ∧ r.1.pktQ.length ≤ 10 := by
  induction es generalizing s with
  | nil => simp [Port.run, queued, readMsgs, readPkts, arrived, hm, hp]
  | cons e es ih =>
    simp only [Port.run]
    cases e with
    | arrive p =>
      obtain ⟨mq, pq, cl⟩ := s
      dsimp only at hm hp
      simp only [Port.step, isMsg_iff, Port.cap]
      cases cl with
      | true =>
        obtain ⟨h1, h2, h3, h4, h5⟩ := ih ⟨mq, pq, true⟩ hm hp
        simp only [if_true]
        refine ⟨?_, ?_, ?_, ?_, h5⟩
        · simpa [readMsgs, queued] using h1
        · simpa [readPkts, queued] using h2
        · have h3 : (queued msgKind (PortObs.none :: (Port.run ⟨mq, pq, true⟩ es).2)).Sublist
              (arrived msgKind es) := by simpa [queued] using h3
          refine h3.trans ?_
          by_cases hk : msgKind p = true <;> simp [arrived, hk]
        · have h4 : (queued pktKind (PortObs.none :: (Port.run ⟨mq, pq, true⟩ es).2)).Sublist
              (arrived pktKind es) := by simpa [queued] using h4
          refine h4.trans ?_
          by_cases hk : pktKind p = true <;> simp [arrived, hk]
      | false =>
        simp only [Bool.false_eq_true, if_false]
        by_cases hk : msgKind p = true
        · have hk' : pktKind p = false := by simp [pktKind, msgKind] at hk ⊢; exact hk
          rw [if_pos hk]
          by_cases hl : mq.length < 10
          · rw [if_pos hl]
            obtain ⟨h1, h2, h3, h4, h5⟩ := ih ⟨mq ++ [p], pq, false⟩ (by simp; omega) hp
            refine ⟨?_, ?_, ?_, ?_, h5⟩
            · simpa [readMsgs, queued, hk] using h1
            · simpa [readPkts, queued, hk'] using h2
            · simpa [arrived, queued, hk] using h3
            · simpa [arrived, queued, hk'] using h4
          · rw [if_neg hl]
            obtain ⟨h1, h2, h3, h4, h5⟩ := ih ⟨mq, pq, false⟩ hm hp
            refine ⟨?_, ?_, ?_, ?_, h5⟩
            · simpa [readMsgs, queued] using h1
            · simpa [readPkts, queued] using h2
            · have h3 : (queued msgKind (PortObs.dropped p :: (Port.run ⟨mq, pq, false⟩ es).2)).Sublist
                  (arrived msgKind es) := by simpa [queued] using h3
              exact h3.trans (by simp [arrived, hk])
            · simpa [arrived, queued, hk'] using h4
        · have hk' : pktKind p = true := by simp [pktKind, msgKind] at hk ⊢; exact hk
          have hkf : msgKind p = false := by simpa using hk
          rw [if_neg hk]
          by_cases hl : pq.length < 10
          · rw [if_pos hl]
            obtain ⟨h1, h2, h3, h4, h5⟩ := ih ⟨mq, pq ++ [p], false⟩ hm (by simp; omega)
            refine ⟨?_, ?_, ?_, ?_, h5⟩
            · simpa [readMsgs, queued, hkf] using h1
            · simpa [readPkts, queued, hk'] using h2
            · simpa [arrived, queued, hkf] using h3
            · simpa [arrived, queued, hk'] using h4
          · rw [if_neg hl]
            obtain ⟨h1, h2, h3, h4, h5⟩ := ih ⟨mq, pq, false⟩ hm hp
            refine ⟨?_, ?_, ?_, ?_, h5⟩
            · simpa [readMsgs, queued] using h1
            · simpa [readPkts, queued] using h2
            · simpa [arrived, queued, hkf] using h3
            · have h4 : (queued pktKind (PortObs.dropped p :: (Port.run ⟨mq, pq, false⟩ es).2)).Sublist
                  (arrived pktKind es) := by simpa [queued] using h4
              exact h4.trans (by simp [arrived, hk'])
    | fail =>
      have := ih { s with closed := true } hm hp
      obtain ⟨h1, h2, h3, h4, h5⟩ := this
      exact ⟨by simpa [Port.step, readMsgs, queued] using h1, by simpa [Port.step, readPkts, queued] using h2,
        by simpa [Port.step, arrived, queued] using h3, by simpa [Port.step, arrived, queued] using h4, h5⟩
    | recvMsg late =>
      obtain ⟨mq, pq, cl⟩ := s
      dsimp only at hm hp
      cases late with
      | true =>
        have := ih ⟨mq, pq, cl⟩ hm hp
        obtain ⟨h1, h2, h3, h4, h5⟩ := this
        exact ⟨by simpa [Port.step, Port.recv, readMsgs, queued] using h1,
          by simpa [Port.step, Port.recv, readPkts, queued] using h2,
          by simpa [Port.step, Port.recv, arrived, queued] using h3,
          by simpa [Port.step, Port.recv, arrived, queued] using h4, h5⟩
      | false =>
        cases mq with
        | nil =>
          have := ih ⟨[], pq, cl⟩ hm hp
          obtain ⟨h1, h2, h3, h4, h5⟩ := this
          refine ⟨?_, ?_, ?_, ?_, h5⟩
          · cases cl <;> simpa [Port.step, Port.recv, readMsgs, queued] using h1
          · simpa [Port.step, Port.recv, readPkts, queued] using h2
          · simpa [Port.step, Port.recv, arrived, queued] using h3
          · simpa [Port.step, Port.recv, arrived, queued] using h4
        | cons p mq =>
          have := ih ⟨mq, pq, cl⟩ (by simp at hm ⊢; omega) hp
          obtain ⟨h1, h2, h3, h4, h5⟩ := this
          exact ⟨by simpa [Port.step, Port.recv, readMsgs, queued] using h1,
            by simpa [Port.step, Port.recv, readPkts, queued] using h2,
            by simpa [Port.step, Port.recv, arrived, queued] using h3,
            by simpa [Port.step, Port.recv, arrived, queued] using h4, h5⟩
    | recvPkt late =>
      obtain ⟨mq, pq, cl⟩ := s
      dsimp only at hm hp
      cases late with
      | true =>
        have := ih ⟨mq, pq, cl⟩ hm hp
        obtain ⟨h1, h2, h3, h4, h5⟩ := this
        exact ⟨by simpa [Port.step, Port.recv, readMsgs, queued] using h1,
          by simpa [Port.step, Port.recv, readPkts, queued] using h2,
          by simpa [Port.step, Port.recv, arrived, queued] using h3,
          by simpa [Port.step, Port.recv, arrived, queued] using h4, h5⟩
      | false =>
        cases pq with
        | nil =>
          have := ih ⟨mq, [], cl⟩ hm hp
          obtain ⟨h1, h2, h3, h4, h5⟩ := this
          refine ⟨?_, ?_, ?_, ?_, h5⟩
          · simpa [Port.step, Port.recv, readMsgs, queued] using h1
          · cases cl <;> simpa [Port.step, Port.recv, readPkts, queued] using h2
          · simpa [Port.step, Port.recv, arrived, queued] using h3
          · simpa [Port.step, Port.recv, arrived, queued] using h4
        | cons p pq =>
          have := ih ⟨mq, pq, cl⟩ hm (by simp at hp ⊢; omega)
          obtain ⟨h1, h2, h3, h4, h5⟩ := this
          exact ⟨by simpa [Port.step, Port.recv, readMsgs, queued] using h1,
            by simpa [Port.step, Port.recv, readPkts, queued] using h2,
            by simpa [Port.step, Port.recv, arrived, queued] using h3,
            by simpa [Port.step, Port.recv, arrived, queued] using h4, h5⟩

theorem port_run_append (s : PortSt) (a b : List PortEv) :
    Port.run s (a ++ b) =
      ((Port.run (Port.run s a).1 b).1, (Port.run s a).2 ++ (Port.run (Port.run s a).1 b).2) := by
  induction a generalizing s with
  | nil => simp [Port.run]
  | cons e a ih => simp [Port.run, ih]

/-- C28: in every history, for each of the two kinds, what has been read so far is what was queued,
in arrival order, up to the at most ten packets still waiting; and what was queued is a
subsequence of what arrived. -/
theorem routing_order (es : List PortEv) :
    let os := (Port.run Port.init es).2
    (∃ waiting, waiting.length ≤ 10 ∧ readMsgs os ++ waiting = queued msgKind os) ∧
    (∃ waiting, waiting.length ≤ 10 ∧ readPkts os ++ waiting = queued pktKind os) ∧
    (queued msgKind os).Sublist (arrived msgKind es) ∧
    (queued pktKind os).Sublist (arrived pktKind es) ∧
    (readMsgs os).Sublist (arrived msgKind es) ∧ (readPkts os).Sublist (arrived pktKind es) := by
  have h := port_run Port.init es (by simp [Port.init]) (by simp [Port.init])
  dsimp only at h ⊢
  obtain ⟨h1, h2, h3, h4, h5, h6⟩ := h
  refine ⟨⟨_, h5, by simpa [Port.init] using h1⟩, ⟨_, h6, by simpa [Port.init] using h2⟩, h3, h4, ?_, ?_⟩
  · refine List.Sublist.trans ?_ h3
    have h1 : _ = [] ++ _ := h1
    rw [List.nil_append] at h1
    rw [← h1]
    exact List.sublist_append_left _ _
  · refine List.Sublist.trans ?_ h4
    have h2 : _ = [] ++ _ := h2
    rw [List.nil_append] at h2
    rw [← h2]
    exact List.sublist_append_left _ _

/-- C28: a packet arriving while the port is open is queued if fewer than ten packets of its kind are
waiting (queued and not yet read) and dropped if exactly ten are, whatever the other queue
holds. -/
theorem routing_drops (es : List PortEv) (hopen : PortEv.fail ∉ es) (p : Packet) :
    let os := (Port.run Port.init es).2
    let waiting := if MessagePacket p then (queued msgKind os).length - (readMsgs os).length
      else (queued pktKind os).length - (readPkts os).length
    waiting ≤ 10 ∧
    (Port.run Port.init (es ++ [.arrive p])).2 =
      os ++ [if waiting < 10 then .queued p else .dropped p] := by
  have hclosed : ∀ (es : List PortEv) (s : PortSt), PortEv.fail ∉ es → s.closed = false →
      (Port.run s es).1.closed = false := by
    intro es
    induction es with
    | nil => intro s _ h; exact h
    | cons e es ih =>
      intro s hn h
      simp only [List.mem_cons, not_or] at hn
      simp only [Port.run]
      apply ih _ hn.2
      cases e with
      | arrive p => simp only [Port.step]; split_ifs <;> exact h
      | fail => exact absurd rfl hn.1
      | recvMsg l => exact h
      | recvPkt l => exact h
  have hc := hclosed es Port.init hopen rfl
  have h := port_run Port.init es (by simp [Port.init]) (by simp [Port.init])
  dsimp only at h ⊢
  obtain ⟨h1, h2, -, -, h5, h6⟩ := h
  have h1 : _ = [] ++ _ := h1
  have h2 : _ = [] ++ _ := h2
  rw [List.nil_append] at h1 h2
  have l1 : (queued msgKind (Port.run Port.init es).2).length - (readMsgs (Port.run Port.init es).2).length
      = (Port.run Port.init es).1.msgQ.length := by
    have := congrArg List.length h1
    simp only [List.length_append] at this
    omega
  have l2 : (queued pktKind (Port.run Port.init es).2).length - (readPkts (Port.run Port.init es).2).length
      = (Port.run Port.init es).1.pktQ.length := by
    have := congrArg List.length h2
    simp only [List.length_append] at this
    omega
  rw [l1, l2, port_run_append]
  have hm := isMsg_iff p
  by_cases hk : MessagePacket p
  · have hk' : Port.isMsg p = true := by rw [hm]; simpa [msgKind] using hk
    rw [if_pos hk]
    refine ⟨h5, ?_⟩
    simp only [Port.run, Port.step, hc, hk', Port.cap]
    by_cases hl : (Port.run Port.init es).1.msgQ.length < 10 <;> simp [hl]
  · have hk' : Port.isMsg p = false := by rw [hm]; simpa [msgKind] using hk
    rw [if_neg hk]
    refine ⟨h6, ?_⟩
    simp only [Port.run, Port.step, hc, hk', Port.cap]
    by_cases hl : (Port.run Port.init es).1.pktQ.length < 10 <;> simp [hl]

/-- A history with traffic of both kinds. -/
example : (Port.run Port.init [.arrive ⟨0x50#8, [1], 0⟩, .arrive ⟨0x62#8, [2], 6⟩, .arrive ⟨0x51#8, [3], 0⟩,
    .recvPkt false, .recvMsg false, .recvMsg true]).2 =
    [.queued ⟨0x50#8, [1], 0⟩, .queued ⟨0x62#8, [2], 6⟩, .queued ⟨0x51#8, [3], 0⟩,
     .gotPkt (.packet ⟨0x62#8, [2], 6⟩), .gotMsg (.packet ⟨0x50#8, [1], 0⟩), .gotMsg .timeout] := by decide

/-! ### C29 -/

/-- A positive acknowledgement of `pkt` that echoes it (the two queries carry an answer instead of an
echo; sent messages come back with a three-byte source address in front). -/
def Spec.FaithfulAck (pkt p : Packet) : Prop :=
  p.command = pkt.command ∧ 0x60 ≤ p.command.toNat ∧ p.ack = 0x06#8 ∧
    (p.command ≠ 0x60#8 → p.command ≠ 0x73#8 →
      if p.command = 0x62#8 then ∃ a b c, p.payload = a :: b :: c :: pkt.payload
      else p.payload = pkt.payload)

theorem isACK_iff (p : Packet) : p.isACK = true ↔ 0x60 ≤ p.command.toNat ∧ p.ack = 0x06#8 := by
  simp [Packet.isACK]

theorem isNAK_iff (p : Packet) : p.isNAK = true ↔ 0x60 ≤ p.command.toNat ∧ p.ack = 0x15#8 := by
  simp [Packet.isNAK]

theorem drop3_iff (l x : Bytes) : (3 ≤ l.length ∧ l.drop 3 = x) ↔ ∃ a b c, l = a :: b :: c :: x := by
  match l with
  | [] => simp
  | [_] => simp
  | [_, _] => simp
  | a :: b :: c :: r =>
    simp only [List.length_cons, List.drop_succ_cons, List.drop_zero]
    constructor
    · rintro ⟨-, rfl⟩; exact ⟨a, b, c, rfl⟩
    · rintro ⟨a', b', c', h⟩; simp at h; exact ⟨by omega, h.2.2.2⟩

theorem checkAck_ok_iff (pkt p : Packet) : Plm.checkAck pkt p = .ok none ↔ FaithfulAck pkt p := by
  unfold Plm.checkAck FaithfulAck
  by_cases hack : p.isACK = true
  · have hA := (isACK_iff p).mp hack
    have hnak : p.isNAK = false := by
      by_contra h
      have := (isNAK_iff p).mp (by simpa using h)
      rw [hA.2] at this
      exact absurd this.2 (by decide)
    simp only [hack, hnak, Bool.not_true, Bool.false_and, Bool.false_eq_true, if_false]
    by_cases hcmd : p.command = pkt.command
    · simp only [hcmd, ne_eq, not_true_eq_false, if_false, PCmd.getInfo, PCmd.getConfig, PCmd.sendInsteonMsg]
      rw [hcmd] at hA
      by_cases hq : pkt.command = 0x60#8 ∨ pkt.command = 0x73#8
      · have : ¬ (¬ pkt.command = 0x60#8 ∧ ¬ pkt.command = 0x73#8) := by tauto
        rw [if_neg this]
        simp only [true_and, true_iff]
        refine ⟨hA.1, hA.2, ?_⟩
        intro h1 h2
        rcases hq with h | h
        · exact absurd h h1
        · exact absurd h h2
      · have : ¬ pkt.command = 0x60#8 ∧ ¬ pkt.command = 0x73#8 := by tauto
        rw [if_pos this]
        by_cases h62 : pkt.command = 0x62#8
        · rw [if_pos h62, if_pos h62]
          by_cases hlen : p.payload.length < 3
          · rw [if_pos hlen]
            simp only [reduceCtorEq, false_iff]
            rintro ⟨-, -, -, h⟩
            obtain ⟨a, b, c, h⟩ := h this.1 this.2
            rw [h] at hlen
            simp at hlen
            omega
          · rw [if_neg hlen]
            by_cases hd : List.drop 3 p.payload = pkt.payload
            · simp only [hd, not_true_eq_false, if_false, true_and, true_iff]
              exact ⟨hA.1, hA.2, fun _ _ => (drop3_iff _ _).mp ⟨by omega, hd⟩⟩
            · simp only [hd, not_false_eq_true, if_true]
              simp only [Out.ok.injEq, reduceCtorEq, false_iff]
              rintro ⟨-, -, -, h⟩
              exact hd ((drop3_iff _ _).mpr (h this.1 this.2)).2
        · rw [if_neg h62, if_neg h62]
          by_cases hd : p.payload = pkt.payload
          · simp only [hd, not_true_eq_false, if_false, true_and, true_iff]
            exact ⟨hA.1, hA.2, fun _ _ => trivial⟩
          · simp only [hd, not_false_eq_true, if_true]
            simp only [Out.ok.injEq, reduceCtorEq, false_iff]
            rintro ⟨-, -, -, h⟩
            exact h this.1 this.2
    · simp [hcmd]
  · have hackf : p.isACK = false := by simpa using hack
    by_cases hnak : p.isNAK = true
    · simp only [hackf, hnak, Bool.not_true, Bool.and_false, Bool.false_eq_true, if_false, if_true]
      have hn := (isNAK_iff p).mp hnak
      constructor
      · intro h
        split at h
        · simp at h
        · rename_i e he
          rw [h] at he
          simp at he
      · rintro ⟨-, -, h, -⟩
        rw [hn.2] at h
        exact absurd h (by decide)
    · have hnakf : p.isNAK = false := by simpa using hnak
      simp only [hackf, hnakf]
      simp only [Bool.not_false, Bool.and_self, if_true, Bool.false_eq_true, if_false, Out.ok.injEq,
        reduceCtorEq, false_iff]
      rintro ⟨-, h1, h2, -⟩
      exact hack ((isACK_iff p).mpr ⟨h1, h2⟩)

/-- C29: `WritePacket` returns without error exactly when the port accepted the bytes of the packet and
the modem's next packet, which is the one returned, is a faithful positive acknowledgement. -/
theorem writePacket_success {σ : Type} (io : PlmIO σ) (s s' : σ) (pkt : Packet) (ack : Option Packet) :
    Plm.writePacket io s pkt = (s', .ret ack none) ↔
      ∃ s1 p, io.tx s (0x02#8 :: pkt.command :: pkt.payload) = (s1, none) ∧
        io.rxPacket s1 = (s', .packet p) ∧ ack = some p ∧ FaithfulAck pkt p := by
  have hm : pkt.marshalBinary = 0x02#8 :: pkt.command :: pkt.payload := rfl
  constructor
  · intro h
    unfold Plm.writePacket at h
    rw [hm] at h
    rcases htx : io.tx s (0x02#8 :: pkt.command :: pkt.payload) with ⟨s1, _ | e⟩
    · rw [htx] at h
      dsimp only at h
      rcases hrx : io.rxPacket s1 with ⟨s2, p | _ | _⟩
      · rw [hrx] at h
        dsimp only at h
        split at h
        · rename_i e he
          simp only [Prod.mk.injEq, PRes.ret.injEq] at h
          obtain ⟨rfl, rfl, rfl⟩ := h
          exact ⟨s1, p, rfl, hrx, rfl, (checkAck_ok_iff _ _).mp he⟩
        · simp at h
      · rw [hrx] at h; simp at h
      · rw [hrx] at h; simp at h
    · rw [htx] at h; simp at h
  · rintro ⟨s1, p, htx, hrx, rfl, hf⟩
    unfold Plm.writePacket
    rw [hm, htx]
    dsimp only
    rw [hrx]
    dsimp only
    rw [(checkAck_ok_iff _ _).mpr hf]

/-- C29: a negative acknowledgement is always reported as a NAK, together with the packet. -/
theorem writePacket_nak {σ : Type} (io : PlmIO σ) (s s1 s' : σ) (pkt p : Packet)
    (htx : io.tx s (0x02#8 :: pkt.command :: pkt.payload) = (s1, none))
    (hrx : io.rxPacket s1 = (s', .packet p)) (hc : 0x60 ≤ p.command.toNat) (hn : p.ack = 0x15#8)
    (hl : p.command = 0x62#8 → 3 ≤ p.payload.length) :
    Plm.writePacket io s pkt = (s', .ret (some p) (some .plmNak)) := by
  have hm : pkt.marshalBinary = 0x02#8 :: pkt.command :: pkt.payload := rfl
  unfold Plm.writePacket
  rw [hm, htx]
  dsimp only
  rw [hrx]
  dsimp only
  have hnak := (isNAK_iff p).mpr ⟨hc, hn⟩
  have : Plm.checkAck pkt p = .ok (some .plmNak) := by
    unfold Plm.checkAck
    simp only [hnak, Bool.not_true, Bool.and_false, Bool.false_eq_true, if_false, if_true]
    by_cases h1 : p.command ≠ pkt.command
    · simp [h1]
    · rw [if_neg h1]
      by_cases h2 : p.command ≠ PCmd.getInfo ∧ p.command ≠ PCmd.getConfig
      · rw [if_pos h2]
        by_cases h3 : p.command = PCmd.sendInsteonMsg
        · rw [if_pos h3, if_neg (by have := hl h3; omega)]
          split_ifs <;> rfl
        · rw [if_neg h3]
          split_ifs <;> rfl
      · rw [if_neg h2]
  rw [this]

/-- The panic on a short payload cannot happen with packets read from the serial line. -/
theorem writePacket_no_panic (pkt : Packet) (f : Frame) :
    ∃ e, Plm.checkAck pkt f.packet = .ok e := by
  have h3 : f.packet.command = 0x62#8 → 3 ≤ f.packet.payload.length := by
    unfold Frame.packet
    split_ifs with h h2
    · intro _; simp
    · intro h'; exact absurd h' h2
    · intro h'
      exfalso
      apply h
      dsimp only at h'
      rw [h']
      decide
  unfold Plm.checkAck
  dsimp only
  split_ifs with h1 h2 h4 h5 h6 h7 <;> first | exact ⟨_, rfl⟩ | (have := h3 ‹_›; omega)

/-- C23 and C29 together: if the modem echoes a well-formed host command with a positive status, the
write succeeds. -/
theorem writePacket_echo {σ : Type} (io : PlmIO σ) (s s1 s' : σ) (f : Frame) (a : Byte) (p : Packet)
    (hf : f.hostFormed) (h1 : f.cmd ≠ 0x60#8) (h2 : f.cmd ≠ 0x73#8) (h60 : 0x60 ≤ f.cmd.toNat)
    (htx : io.tx s f.bytes = (s1, none))
    (hecho : Packet.unmarshalBinary (f.bytes ++ [0x06#8]) = .ok p)
    (hrx : io.rxPacket s1 = (s', .packet p)) :
    Plm.writePacket io s ⟨f.cmd, f.body, a⟩ = (s', .ret (some p) none) := by
  have hp := modem_echo_decode f.cmd 0x06#8 a f.body h60 (modem_echo_lengths f hf h1 h2)
  have : Packet.marshalBinary ⟨f.cmd, f.body, a⟩ = f.bytes := rfl
  rw [this, hecho] at hp
  simp only [Out.ok.injEq] at hp
  refine (writePacket_success io s s' _ _).mpr ⟨s1, p, htx, hrx, rfl, ?_⟩
  subst hp
  refine ⟨rfl, h60, rfl, fun _ _ => ?_⟩
  dsimp only
  split_ifs with h
  · exact ⟨_, _, _, rfl⟩
  · rfl

/-- An io that answers every write with its echo and an ACK: the state is what was sent last. -/
def echoIO : PlmIO Bytes where
  tx := fun _ b => (b, none)
  rxPacket := fun s => match Packet.unmarshalBinary (s ++ [0x06#8]) with
    | .ok p => (s, .packet p)
    | _ => (s, .timeout)
  rxMsg := fun s => (s, .timeout)

example : (Plm.writePacket echoIO [] ⟨0x6f#8, [0x40, 0xe2, 1, 0xaa, 0xbb, 0xcc, 1, 2, 3], 0⟩).2 =
    .ret (some ⟨0x6f#8, [0x40, 0xe2, 1, 0xaa, 0xbb, 0xcc, 1, 2, 3], 6⟩) none := by decide

/-! ### C30, C31 -/

/-- State after `k` attempts to write the packet. -/
def Spec.after {σ : Type} (w : σ → Packet → σ × PRes) (pkt : Packet) (s : σ) : Nat → σ
  | 0 => s
  | k + 1 => (w (after w pkt s k) pkt).1

/-- Result of attempt number `k` (counted from 0). -/
def Spec.outcome {σ : Type} (w : σ → Packet → σ × PRes) (pkt : Packet) (s : σ) (k : Nat) : PRes :=
  (w (after w pkt s k) pkt).2

/-- Outcomes that are tried again: a NAK when NAKs are to be ignored, and the modem read timeout. -/
def Spec.TryAgain (ignoreNak : Bool) (r : PRes) : Prop :=
  ∃ ack e, r = .ret ack (some e) ∧ ((e = .plmNak ∧ ignoreNak = true) ∨ e = .plmReadTimeout)

theorem tryAgain_iff (ig : Bool) (a : Option Packet) (e : Option Err) :
    TryAgain ig (.ret a e) ↔ retryable ig e = true := by
  simp only [TryAgain, retryable, PRes.ret.injEq]
  constructor
  · rintro ⟨a', e', ⟨-, rfl⟩, h⟩
    rcases h with ⟨rfl, rfl⟩ | rfl <;> simp
  · intro h
    simp only [Bool.or_eq_true, Bool.and_eq_true, beq_iff_eq] at h
    rcases h with ⟨rfl, rfl⟩ | rfl
    · exact ⟨a, _, ⟨rfl, rfl⟩, Or.inl ⟨rfl, rfl⟩⟩
    · exact ⟨a, _, ⟨rfl, rfl⟩, Or.inr rfl⟩

theorem after_shift {σ : Type} (w : σ → Packet → σ × PRes) (pkt : Packet) (s : σ) (k : Nat) :
    after w pkt (w s pkt).1 k = after w pkt s (k + 1) := by
  induction k with
  | zero => rfl
  | succ k ih => rw [after, ih]; rfl

theorem retryLoop_spec {σ : Type} (w : σ → Packet → σ × PRes) (ig : Bool) (pkt : Packet) (n : Nat) (s : σ)
    (cur : PRes) :
    ∃ k ≤ n, retryLoop w ig pkt (n + 1) s cur = (after w pkt s (k + 1), outcome w pkt s k) ∧
      (∀ j < k, TryAgain ig (outcome w pkt s j)) ∧ (k = n ∨ ¬ TryAgain ig (outcome w pkt s k)) := by
  induction n generalizing s cur with
  | zero =>
    refine ⟨0, Nat.le_refl _, ?_, by simp, Or.inl rfl⟩
    rw [retryLoop]
    rcases hw : w s pkt with ⟨s', ⟨a, e⟩ | _⟩
    · simp only [after, outcome, hw]
      split_ifs
      · simp [retryLoop]
      · rfl
    · simp [after, outcome, hw]
  | succ n ih =>
    rw [retryLoop]
    rcases hw : w s pkt with ⟨s', ⟨a, e⟩ | _⟩
    · dsimp only
      by_cases hr : retryable ig e = true
      · rw [if_pos hr]
        obtain ⟨k, hk, h1, h2, h3⟩ := ih s' (.ret a e)
        have hsh : ∀ j, after w pkt s' j = after w pkt s (j + 1) := by
          intro j
          have := after_shift w pkt s j
          rw [hw] at this
          exact this
        have hso : ∀ j, outcome w pkt s' j = outcome w pkt s (j + 1) := by
          intro j; simp only [outcome, hsh]
        refine ⟨k + 1, by omega, by rw [h1, hsh, hso], ?_, ?_⟩
        · intro j hj
          cases j with
          | zero =>
            simp only [outcome, after, hw]
            exact (tryAgain_iff ig a e).mpr hr
          | succ j => rw [← hso]; exact h2 j (by omega)
        · rw [← hso]
          rcases h3 with rfl | h3
          · exact Or.inl rfl
          · exact Or.inr h3
      · rw [if_neg hr]
        refine ⟨0, by omega, ?_, by simp, Or.inr ?_⟩
        · simp [after, outcome, hw]
        · simp only [outcome, after, hw]
          exact fun h => hr ((tryAgain_iff ig a e).mp h)
    · dsimp only
      refine ⟨0, by omega, ?_, by simp, Or.inr ?_⟩
      · simp [after, outcome, hw]
      · simp only [outcome, after, hw]
        rintro ⟨_, _, h, _⟩
        exact absurd h (by simp)

/-- C30: the retrying writer makes attempts 0..k with the identical packet, `k ≤ retries`, returns what
attempt `k` returned, every earlier attempt had a retryable outcome, and it stopped because the
retries were used up or the outcome was not retryable. -/
theorem retry_bounded {σ : Type} (w : σ → Packet → σ × PRes) (retries : Nat) (ignoreNak : Bool) (pkt : Packet)
    (s : σ) :
    ∃ k ≤ retries, retryWrite w retries ignoreNak s pkt = (after w pkt s (k + 1), outcome w pkt s k) ∧
      (∀ j < k, TryAgain ignoreNak (outcome w pkt s j)) ∧
      (k = retries ∨ ¬ TryAgain ignoreNak (outcome w pkt s k)) := by
  have : ((retries : Int) + 1).toNat = retries + 1 := by omega
  rw [retryWrite, this]
  exact retryLoop_spec w ignoreNak pkt retries s _

/-- With a negative retry count nothing is sent and the result is a nil packet without error. -/
theorem retry_negative {σ : Type} (w : σ → Packet → σ × PRes) (retries : Int) (h : retries < 0)
    (ignoreNak : Bool) (pkt : Packet) (s : σ) :
    retryWrite w retries ignoreNak s pkt = (s, .ret none none) := by
  have : (retries + 1).toNat = 0 := by omega
  rw [retryWrite, this, retryLoop]

/-- The state counts attempts: NAK twice, then success. -/
example : retryWrite (σ := Nat) (fun n _ => (n + 1, if n < 2 then .ret none (some .plmNak) else .ret none none))
    3 true 0 ⟨0x69#8, [], 0⟩ = (3, .ret none none) := by decide

/-- What happens on a timeout (C31): `WritePacket` wraps the timeout error, so the retrying writer does
not recognise it and gives up after a single attempt, whatever the retry count. -/
theorem modem_timeout_single_attempt {σ : Type} (io : PlmIO σ) (retries : Nat) (ignoreNak : Bool)
    (pkt : Packet) (s s1 s2 : σ) (htx : io.tx s pkt.marshalBinary = (s1, none))
    (hrx : io.rxPacket s1 = (s2, .timeout)) :
    retryWrite (Plm.writePacket io) retries ignoreNak s pkt =
      (s2, .ret none (some (.wrapped .plmReadTimeout))) := by
  have : ((retries : Int) + 1).toNat = retries + 1 := by omega
  rw [retryWrite, this, retryLoop]
  simp [Plm.writePacket, htx, hrx, retryable]

/-- A modem that never answers; the state counts transmissions. -/
def silentIO : PlmIO Nat where
  tx := fun n _ => (n + 1, none)
  rxPacket := fun n => (n, .timeout)
  rxMsg := fun n => (n, .timeout)

/-- C31 is false of the code: against a modem that never answers, a packet is not sent `retries + 1`
times. -/
theorem modem_timeout_retried_refuted :
    ¬ ∀ (retries : Nat) (pkt : Packet),
      (retryWrite (Plm.writePacket silentIO) retries true 0 pkt).1 = retries + 1 := by
  intro h
  have := h 3 ⟨0x60#8, [], 0⟩
  rw [modem_timeout_single_attempt silentIO 3 true ⟨0x60#8, [], 0⟩ 0 1 1 rfl rfl] at this
  simp at this

/-- What C31 says does hold for a writer that returns the timeout error unwrapped: it is retried until
the retries are used up. -/
theorem plain_timeout_retried_partial {σ : Type} (w : σ → Packet → σ × PRes) (retries : Nat) (ignoreNak : Bool)
    (pkt : Packet) (s : σ) (h : ∀ s, ∃ a, (w s pkt).2 = .ret a (some .plmReadTimeout)) :
    (retryWrite w retries ignoreNak s pkt).1 = after w pkt s (retries + 1) := by
  obtain ⟨k, hk, h1, -, h3⟩ := retry_bounded w retries ignoreNak pkt s
  rw [h1]
  rcases h3 with rfl | h3
  · rfl
  · exfalso
    apply h3
    obtain ⟨a, ha⟩ := h (after w pkt s k)
    exact ⟨a, _, ha, Or.inr rfl⟩

/-! ### C32 -/

/-- The acknowledgement `PLM.Write` waits for: a direct ack or nak from the addressed device. -/
def Spec.AnswerFrom (dst : Address) (m : Message) : Prop := m.src = dst ∧ (isAck m.flags ∨ isNak m.flags)

/-- Receiving any number of messages none of which is the awaited answer. -/
inductive Spec.Skipped {σ : Type} (io : PlmIO σ) (dst : Address) : σ → σ → Prop
  | none (s : σ) : Skipped io dst s s
  | more (s s1 s2 : σ) (p : Packet) (m : Message) (hrx : io.rxMsg s = (s1, .packet p))
      (hdec : Message.zero.unmarshalBinary p.payload = (m, none)) (hno : ¬ AnswerFrom dst m)
      (h : Skipped io dst s1 s2) : Skipped io dst s s2

/-- How the wait ends: with the first awaited answer (a NAK carries `ErrNak`), an undecodable message, a
timeout, or a closed port. -/
inductive Spec.Ends {σ : Type} (io : PlmIO σ) (dst : Address) : σ → σ → MRes → Prop
  | ack (s s' : σ) (p : Packet) (m : Message) (hrx : io.rxMsg s = (s', .packet p))
      (hdec : Message.zero.unmarshalBinary p.payload = (m, .none)) (hs : m.src = dst) (ha : isAck m.flags) :
      Ends io dst s s' (.ret (some m) .none)
  | nak (s s' : σ) (p : Packet) (m : Message) (hrx : io.rxMsg s = (s', .packet p))
      (hdec : Message.zero.unmarshalBinary p.payload = (m, .none)) (hs : m.src = dst) (ha : isNak m.flags) :
      Ends io dst s s' (.ret (some m) (some .devNak))
  | bad (s s' : σ) (p : Packet) (m : Message) (e : Err) (hrx : io.rxMsg s = (s', .packet p))
      (hdec : Message.zero.unmarshalBinary p.payload = (m, some e)) : Ends io dst s s' (.ret (some m) (some e))
  | late (s s' : σ) (hrx : io.rxMsg s = (s', .timeout)) :
      Ends io dst s s' (.ret .none (some (.wrapped .insReadTimeout)))
  | closed (s s' : σ) (hrx : io.rxMsg s = (s', .closed)) : Ends io dst s s' .panic

theorem awaitAck_iff {σ : Type} (io : PlmIO σ) (dst : Address) (s s' : σ) (r : MRes) :
    (∃ fuel, Plm.awaitAck io dst fuel s = some (s', r)) ↔
      ∃ s1, Skipped io dst s s1 ∧ Ends io dst s1 s' r := by
  have hflag := fun m : Message => flag_classification m.flags
  have hmatch : ∀ m : Message, (m.src = dst ∧ (m.flags.ack = true ∨ m.flags.nak = true)) ↔ AnswerFrom dst m := by
    intro m
    unfold AnswerFrom
    rw [(hflag m).1, (hflag m).2.1]
  constructor
  · rintro ⟨fuel, h⟩
    induction fuel generalizing s with
    | zero => simp [Plm.awaitAck] at h
    | succ fuel ih =>
      rw [Plm.awaitAck, Plm.read] at h
      rcases hrx : io.rxMsg s with ⟨s1, p | _ | _⟩
      · rw [hrx] at h
        dsimp only at h
        rcases hdec : Message.zero.unmarshalBinary p.payload with ⟨m, _ | e⟩
        · rw [hdec] at h
          dsimp only at h
          by_cases hm : m.src = dst ∧ (m.flags.ack = true ∨ m.flags.nak = true)
          · rw [if_pos hm] at h
            simp only [Option.some.injEq, Prod.mk.injEq] at h
            obtain ⟨rfl, rfl⟩ := h
            refine ⟨s, .none s, ?_⟩
            by_cases hn : m.flags.nak = true
            · rw [if_pos hn]
              exact .nak s s1 p m hrx hdec hm.1 ((hflag m).2.1.mp hn)
            · rw [if_neg hn]
              exact .ack s s1 p m hrx hdec hm.1 ((hflag m).1.mp (by tauto))
          · rw [if_neg hm] at h
            obtain ⟨s2, h1, h2⟩ := ih s1 h
            exact ⟨s2, .more s s1 s2 p m hrx hdec (fun ha => hm ((hmatch m).mpr ha)) h1, h2⟩
        · rw [hdec] at h
          simp only [Option.some.injEq, Prod.mk.injEq] at h
          obtain ⟨rfl, rfl⟩ := h
          exact ⟨s, .none s, .bad s s1 p m e hrx hdec⟩
      · rw [hrx] at h
        simp only [Option.some.injEq, Prod.mk.injEq] at h
        obtain ⟨rfl, rfl⟩ := h
        exact ⟨s, .none s, .closed s s1 hrx⟩
      · rw [hrx] at h
        simp only [Option.some.injEq, Prod.mk.injEq] at h
        obtain ⟨rfl, rfl⟩ := h
        exact ⟨s, .none s, .late s s1 hrx⟩
  · rintro ⟨s1, hsk, hend⟩
    induction hsk with
    | none s =>
      refine ⟨1, ?_⟩
      rw [Plm.awaitAck, Plm.read]
      cases hend with
      | ack p m hrx hdec hs ha =>
        have hnn : ¬ m.flags.nak = true := fun hn => (hflag m).2.2.1 ⟨(hflag m).1.mpr ha, hn⟩
        simp [hrx, hdec, hs, (hflag m).1.mpr ha, hnn]
      | nak p m hrx hdec hs ha => simp [hrx, hdec, hs, (hflag m).2.1.mpr ha]
      | bad p m e hrx hdec => simp [hrx, hdec]
      | late hrx => simp [hrx]
      | closed hrx => simp [hrx]
    | more s s1 s2 p m hrx hdec hno h ih =>
      obtain ⟨fuel, hf⟩ := ih hend
      refine ⟨fuel + 1, ?_⟩
      rw [Plm.awaitAck, Plm.read]
      simp only [hrx, hdec]
      rw [if_neg (fun hh => hno ((hmatch m).mp hh)), hf]

/-- C32: if `PLM.Write` returns without error, the result is a positive acknowledgement from the
device the message was addressed to; if it returns `ErrNak` with a message, that message is a
NAK from that device. Messages skipped in between were not answers from it. -/
theorem plm_write_ack_source {σ : Type} (io : PlmIO σ) (retries : Int) (fuel : Nat) (s s' : σ) (msg : Message)
    (ack : Option Message) (e : Option Err) (h : Plm.write io retries fuel s msg = some (s', .ret ack e)) :
    (e = none → ∃ m, ack = some m ∧ m.src = msg.dst ∧ isAck m.flags) ∧
    (∀ m, e = some .devNak → ack = some m → m.src = msg.dst ∧ isNak m.flags) ∧
    (∀ m, ack = some m → ∃ s0 s1, Skipped io msg.dst s0 s1 ∧ Ends io msg.dst s1 s' (.ret ack e)) := by
  unfold Plm.write at h
  split at h
  · simp at h
  · simp only [Option.some.injEq, Prod.mk.injEq, MRes.ret.injEq] at h
    obtain ⟨-, rfl, rfl⟩ := h
    simp
  · rename_i s0 _ _
    obtain ⟨s1, h1, h2⟩ := (awaitAck_iff io msg.dst s0 s' _).mp ⟨fuel, h⟩
    refine ⟨?_, ?_, fun _ _ => ⟨s0, s1, h1, h2⟩⟩
    · intro he
      subst he
      cases h2 with
      | ack p m hrx hdec hs ha => exact ⟨m, rfl, hs, ha⟩
    · rintro m he rfl
      subst he
      cases h2 with
      | nak p _ hrx hdec hs ha => exact ⟨hs, ha⟩
      | bad p _ e hrx hdec =>
        exfalso
        -- decoding never reports devices.ErrNak
        have := congrArg Prod.snd hdec
        unfold Message.unmarshalBinary at this
        dsimp only at this
        split at this
        · split_ifs at this; simp at this
        · simp at this

/-- The converse of C32: an answer from the addressed device that arrives after any amount of unrelated
traffic ends the wait, once the modem has accepted the message. -/
theorem plm_write_answer {σ : Type} (io : PlmIO σ) (retries : Int) (s s0 s1 s' : σ) (msg : Message)
    (pa : Option Packet) (r : MRes)
    (hw : retryWrite (Plm.writePacket io) retries true s
      ⟨0x62#8, msg.marshalBinary.drop 3, 0#8⟩ = (s0, .ret pa none))
    (hsk : Skipped io msg.dst s0 s1) (hend : Ends io msg.dst s1 s' r) :
    ∃ fuel, Plm.write io retries fuel s msg = some (s', r) := by
  obtain ⟨fuel, hf⟩ := (awaitAck_iff io msg.dst s0 s' r).mpr ⟨s1, hsk, hend⟩
  refine ⟨fuel, ?_⟩
  unfold Plm.write
  simp only [PCmd.sendInsteonMsg]
  rw [hw]
  exact hf

/-- If the modem did not accept the message, its error is returned and nothing is waited for. -/
theorem plm_write_modem_error {σ : Type} (io : PlmIO σ) (retries : Int) (fuel : Nat) (s s0 : σ) (msg : Message)
    (pa : Option Packet) (e : Err)
    (hw : retryWrite (Plm.writePacket io) retries true s
      ⟨0x62#8, msg.marshalBinary.drop 3, 0#8⟩ = (s0, .ret pa (some e))) :
    Plm.write io retries fuel s msg = some (s0, .ret none (some e)) := by
  unfold Plm.write
  simp only [PCmd.sendInsteonMsg]
  rw [hw]

/-- A modem that accepts everything, then delivers a broadcast from someone else, an ack from someone
else and the ack from the device. -/
def trafficIO : PlmIO (Bytes × List Bytes) where
  tx := fun s b => ((b, s.2), none)
  rxPacket := fun s => match Packet.unmarshalBinary (s.1 ++ [0x06#8]) with
    | .ok p => (s, .packet p)
    | _ => (s, .timeout)
  rxMsg := fun s => match s.2 with
    | [] => (s, .timeout)
    | m :: ms => ((s.1, ms), .packet ⟨0x50#8, m, 0⟩)

example : ((Plm.write trafficIO 3 10 ([], [[9, 9, 9, 0, 0, 1, 0x8f, 0x11, 1], [9, 9, 9, 1, 2, 3, 0x2f, 0x11, 0xff],
      [4, 5, 6, 1, 2, 3, 0x2f, 0x11, 0xff]]) ⟨0, 0x040506#32, 0x0a#8, 0x11ff#64, []⟩).map (·.2)) =
    some (.ret (some ⟨0x040506#32, 0x010203#32, 0x2f#8, 0x11ff#64, []⟩) none) := by decide

/-! ### C33 -/

/-- The port as seen by `PLM.Read` and `PLM.WritePacket` when nothing happens concurrently. -/
def portIO : PlmIO PortSt where
  tx := fun s _ => (s, none)
  rxPacket := fun s => let r := Port.recv s.pktQ s.closed false; ({ s with pktQ := r.1 }, r.2)
  rxMsg := fun s => let r := Port.recv s.msgQ s.closed false; ({ s with msgQ := r.1 }, r.2)

theorem run_closed (s : PortSt) (es : List PortEv) (h : s.closed = true ∨ PortEv.fail ∈ es) :
    (Port.run s es).1.closed = true := by
  induction es generalizing s with
  | nil => simpa [Port.run] using h
  | cons e es ih =>
    simp only [Port.run]
    apply ih
    rcases h with h | h
    · left
      cases e with
      | arrive p => simp [Port.step, h]
      | fail => rfl
      | recvMsg l => exact h
      | recvPkt l => exact h
    · simp only [List.mem_cons] at h
      rcases h with rfl | h
      · left; rfl
      · exact Or.inr h

/-- C33 as it really is: after any history in which the port was closed, messages still buffered are
delivered normally; after them `Read` panics (nil dereference), and so does `WritePacket`. -/
theorem closed_port_partial (es : List PortEv) (h : PortEv.fail ∈ es) (pkt : Packet) :
    let s := (Port.run Port.init es).1
    (∀ p q, s.msgQ = p :: q → (Plm.read portIO s).2 =
      .ret (some (Message.zero.unmarshalBinary p.payload).1) (Message.zero.unmarshalBinary p.payload).2) ∧
    (s.msgQ = [] → (Plm.read portIO s).2 = .panic) ∧
    (s.pktQ = [] → (Plm.writePacket portIO s pkt).2 = .panic) := by
  have hc := run_closed Port.init es (Or.inr h)
  dsimp only
  refine ⟨?_, ?_, ?_⟩
  · intro p q hq
    simp [Plm.read, portIO, Port.recv, hq]
  · intro hq
    simp [Plm.read, portIO, Port.recv, hq, hc]
  · intro hq
    simp [Plm.writePacket, portIO, Port.recv, hq, hc]

/-- C33 is false of the code: after the port is closed, reading is not an error but a panic. -/
theorem closed_port_error_refuted :
    ¬ ∀ es : List PortEv, PortEv.fail ∈ es → ∃ m e, (Plm.read portIO (Port.run Port.init es).1).2 = .ret m (some e) := by
  intro h
  obtain ⟨m, e, h⟩ := h [.fail] (by simp)
  rw [(closed_port_partial [.fail] (by simp) ⟨0, [], 0⟩).2.1 rfl] at h
  simp at h

example : PortEv.fail ∈ [PortEv.arrive ⟨0x50#8, [1], 0⟩, .fail] ∧
    (Port.run Port.init [PortEv.arrive ⟨0x50#8, [1], 0⟩, .fail]).1.msgQ = [⟨0x50#8, [1], 0⟩] := by decide

/-! ### C34 -/

/-- The four switches. -/
inductive Spec.Switch | linking | monitor | led | deadman

/-- Position of a switch in the configuration byte. -/
def Spec.Switch.bit : Switch → Nat
  | .linking => 7 | .monitor => 6 | .led => 5 | .deadman => 4

/-- Reading a switch through the API. -/
def Spec.Switch.get : Switch → Config → Bool
  | .linking => Config.automaticLinking | .monitor => Config.monitorMode
  | .led => Config.automaticLED | .deadman => Config.deadmanMode

/-- Setting a switch through the API. -/
def Spec.Switch.set : Switch → Bool → Config → Config
  | .linking, true => Config.setAutomaticLinking | .linking, false => Config.clearAutomaticLinking
  | .monitor, true => Config.setMonitorMode | .monitor, false => Config.clearMonitorMode
  | .led, true => Config.setAutomaticLED | .led, false => Config.clearAutomaticLED
  | .deadman, true => Config.setDeadmanMode | .deadman, false => Config.clearDeadmanMode

/-- C34: each switch reads its own bit; setting one sets exactly that bit. -/
theorem config_switches (c : Config) (sw : Switch) (v : Bool) (i : Nat) :
    sw.get c = c.getLsbD sw.bit ∧
    (sw.set v c).getLsbD i = (if i = sw.bit then v else c.getLsbD i) := by
  have h : ∀ c : Config, ∀ i : Fin 8, ∀ v : Bool,
      (Switch.linking.get c = c.getLsbD 7 ∧ Switch.monitor.get c = c.getLsbD 6 ∧
        Switch.led.get c = c.getLsbD 5 ∧ Switch.deadman.get c = c.getLsbD 4) ∧
      (Switch.linking.set v c).getLsbD i = (if i.val = 7 then v else c.getLsbD i) ∧
      (Switch.monitor.set v c).getLsbD i = (if i.val = 6 then v else c.getLsbD i) ∧
      (Switch.led.set v c).getLsbD i = (if i.val = 5 then v else c.getLsbD i) ∧
      (Switch.deadman.set v c).getLsbD i = (if i.val = 4 then v else c.getLsbD i) := by
    decide +kernel
  by_cases hi : i < 8
  · obtain ⟨⟨h1, h2, h3, h4⟩, h5, h6, h7, h8⟩ := h c ⟨i, hi⟩ v
    cases sw
    · exact ⟨h1, h5⟩
    · exact ⟨h2, h6⟩
    · exact ⟨h3, h7⟩
    · exact ⟨h4, h8⟩
  · obtain ⟨⟨h1, h2, h3, h4⟩, -⟩ := h c 0 v
    have hge : 8 ≤ i := by omega
    have hb : i ≠ sw.bit := by cases sw <;> simp [Switch.bit] <;> omega
    rw [if_neg hb, BitVec.getLsbD_of_ge _ _ hge, BitVec.getLsbD_of_ge _ _ hge]
    exact ⟨by cases sw <;> assumption, rfl⟩

/-- C34: what is sent is one byte holding exactly the four switches, and a configuration that is sent
and read back has all four switches unchanged. -/
theorem config_wire (c recv : Config) :
    (∃ b, c.marshalBinary = [b] ∧ (∀ i < 4, b.getLsbD i = false) ∧ (∀ sw : Switch, b.getLsbD sw.bit = sw.get c)) ∧
    (recv.unmarshalBinary c.marshalBinary).2 = none ∧
    ∀ sw : Switch, sw.get (recv.unmarshalBinary c.marshalBinary).1 = sw.get c := by
  have h : ∀ c : Config, (∀ i : Fin 4, (c &&& 0xf0#8).getLsbD i = false) ∧
      ((c &&& 0xf0#8).getLsbD 7 = c.getLsbD 7 ∧ (c &&& 0xf0#8).getLsbD 6 = c.getLsbD 6 ∧
      (c &&& 0xf0#8).getLsbD 5 = c.getLsbD 5 ∧ (c &&& 0xf0#8).getLsbD 4 = c.getLsbD 4) := by
    decide +kernel
  obtain ⟨hlow, h7, h6, h5, h4⟩ := h c
  have hget : ∀ sw : Switch, (c &&& 0xf0#8).getLsbD sw.bit = sw.get c := by
    intro sw
    rw [(config_switches c sw true 0).1]
    cases sw <;> assumption
  refine ⟨⟨c &&& 0xf0#8, rfl, fun i hi => hlow ⟨i, hi⟩, hget⟩, rfl, ?_⟩
  intro sw
  rw [← hget sw, (config_switches _ sw true 0).1]
  rfl

/-- The letter that stands for a switch that is on. -/
def Spec.Switch.letter : Switch → String
  | .linking => "L" | .monitor => "M" | .led => "A" | .deadman => "D"

/-- C34: the text of a configuration shows each switch by its letter, in the order of the bits, and a switch that is off by a dot. -/
theorem config_text (c : Config) :
    c.string = [Switch.linking, .monitor, .led, .deadman].flatMap (fun sw => ascii (if c.getLsbD sw.bit then sw.letter else ".")) := by
  revert c
  decide +kernel

/-- An empty reply is an error, not a configuration. -/
theorem config_short (c : Config) : ∃ e, (c.unmarshalBinary []).2 = some e := ⟨_, rfl⟩

example : Switch.monitor.get (Switch.monitor.set true 0x8f#8) = true ∧
    (Switch.monitor.set true 0x8f#8).marshalBinary = [0xc0#8] := by decide

end Insteon
