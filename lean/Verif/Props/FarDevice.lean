import Verif.Spec.SerialDevice
import Verif.Props.Live
import Verif.Props.DeviceWrite

/-
C131, C132: link databases of devices written over a serial line.
-/

namespace Insteon
open Spec

/-! ### One attempt -/

/-- Between calls: the queues hold what is left of earlier traffic and nothing is on the line. -/
structure Idle (w : Wired FarDevice) (left : List Message) : Prop where
  isOpen : w.port.closed = false
  pkts : w.port.pktQ = []
  msgs : w.port.msgQ = asPackets left
  wire : w.wire = []

theorem idle_eq (w : Wired FarDevice) (left : List Message) (h : Idle w left) :
    w = ⟨⟨asPackets left, [], false⟩, [], w.dev⟩ := by
  obtain ⟨⟨a, b, c⟩, d, e⟩ := w
  obtain ⟨h1, h2, h3, h4⟩ := h
  simp only at h1 h2 h3 h4
  subst h1 h2 h3 h4
  rfl

theorem wired_packet (react : FarDevice → Bytes → FarDevice × Bytes) (left ms : List Message) (its : Items) (dev : FarDevice) (p : Packet)
    (hok : ∀ it ∈ its, Quiet it.1 ∧ it.2.wellFormed)
    (hm : (its.map fun it => it.2.packet).filter Port.isMsg = asPackets ms)
    (hp : (its.map fun it => it.2.packet).filter (fun p => !Port.isMsg p) = [p])
    (hroom : left.length + ms.length ≤ 10) :
    (Wired.io react).rxPacket ⟨⟨asPackets left, [], false⟩, line its, dev⟩ =
      (⟨⟨asPackets (left ++ ms), [], false⟩, [], dev⟩, .packet p) := by
  simp only [Wired.io, Wired.feed, arrivals_line its hok]
  rw [run_arrivals _ _ rfl (by rw [hm]; simpa [asPackets] using hroom) (by rw [hp]; simp), hm, hp]
  simp [Port.recv, asPackets]

/-- The frames of an answer: their form and the packets in them. -/
theorem answer_items (w : Waiting) (msg : Message) (st : Byte) (tail : Items) (ms : List Message) (hw : w.ok)
    (htail : ∀ it ∈ tail, Quiet it.1 ∧ it.2.wellFormed) (hp : tail.map (fun it => it.2.packet) = asPackets ms) :
    (∀ it ∈ w.items msg st ++ tail, Quiet it.1 ∧ it.2.wellFormed) ∧
    ((w.items msg st ++ tail).map fun it => it.2.packet).filter Port.isMsg = asPackets (w.messages ++ ms) ∧
    ((w.items msg st ++ tail).map fun it => it.2.packet).filter (fun p => !Port.isMsg p) = [(reply msg st).packet] := by
  have hpk : (w.items msg st ++ tail).map (fun it => it.2.packet) =
      asPackets w.before.messages ++ [(reply msg st).packet] ++ asPackets w.after.messages ++ asPackets ms := by
    simp only [Waiting.items, List.map_append, traffic_packets, List.map_cons, List.map_nil, hp]
  have hr : Port.isMsg (reply msg st).packet = false := by rw [reply_packet]; rfl
  refine ⟨?_, ?_, ?_⟩
  · intro it hit
    simp only [Waiting.items, List.mem_append, List.mem_singleton] at hit
    rcases hit with ((h | rfl) | h) | h
    · exact traffic_ok_items _ hw.1 _ h
    · exact ⟨hw.2.1, reply_wellFormed _ _⟩
    · exact traffic_ok_items _ hw.2.2 _ h
    · exact htail _ h
  · rw [hpk]
    simp only [List.filter_append, filter_asPackets, List.filter_cons, hr, List.filter_nil]
    simp [Waiting.messages, asPackets]
  · rw [hpk]
    simp only [List.filter_append, filter_asPackets, List.filter_cons, hr, List.filter_nil]
    simp

theorem outcome_items (device : Address) (o : Outcome) (h : o.lawful device) :
    (∀ it ∈ o.items, Quiet it.1 ∧ it.2.wellFormed) ∧ o.items.map (fun it => it.2.packet) = asPackets o.messages := by
  have hgen : ∀ (noise : Bytes) (m : Message) (later : Traffic), Quiet noise → later.ok →
      (∀ it ∈ (noise, heard m) :: later.items, Quiet it.1 ∧ it.2.wellFormed) ∧
      ((noise, heard m) :: later.items).map (fun it => it.2.packet) = asPackets (m :: later.messages) := by
    intro noise m later hn hl
    constructor
    · intro it hit
      simp only [List.mem_cons] at hit
      rcases hit with rfl | h
      · exact ⟨hn, heard_wellFormed _⟩
      · exact traffic_ok_items _ hl _ h
    · rw [List.map_cons, traffic_packets]; rfl
  rcases o with ⟨noise, m, later⟩ | ⟨noise, m, later⟩ | _ | _
  · exact hgen _ _ _ h.1 h.2.2.2.2.1
  · exact hgen _ _ _ h.1 h.2.2.2.2.1
  · exact ⟨by simp [Outcome.items], rfl⟩
  · exact ⟨by simp [Outcome.items], rfl⟩

theorem far_attempt (react : FarDevice → Bytes → FarDevice × Bytes) (dev dev' : FarDevice) (left ms : List Message) (msg : Message)
    (w : Waiting) (st : Byte) (tail : Items) (hw : w.ok)
    (htail : ∀ it ∈ tail, Quiet it.1 ∧ it.2.wellFormed) (hp : tail.map (fun it => it.2.packet) = asPackets ms)
    (hroom : left.length + (w.messages ++ ms).length ≤ 10) (hst : st = 0x06#8 ∨ st = 0x15#8)
    (hreact : react dev (request msg) = (dev', line (w.items msg st ++ tail))) :
    Plm.writePacket (Wired.io react) ⟨⟨asPackets left, [], false⟩, [], dev⟩ ⟨0x62#8, afterSource msg, 0#8⟩ =
      (⟨⟨asPackets (left ++ (w.messages ++ ms)), [], false⟩, [], dev'⟩,
        .ret (some (reply msg st).packet) (if st = 0x15#8 then some .plmNak else none)) := by
  obtain ⟨h1, h2, h3⟩ := answer_items w msg st tail ms hw htail hp
  have htx : (Wired.io react).tx ⟨⟨asPackets left, [], false⟩, [], dev⟩ (0x02#8 :: 0x62#8 :: afterSource msg) =
      (⟨⟨asPackets left, [], false⟩, line (w.items msg st ++ tail), dev'⟩, none) := by
    have : react dev (0x02#8 :: 0x62#8 :: afterSource msg) = _ := hreact
    simp only [Wired.io, this, List.nil_append]
  have hrx := wired_packet react left (w.messages ++ ms) _ dev' _ h1 h2 h3 hroom
  rcases hst with rfl | rfl
  · rw [if_neg (by decide)]
    refine (writePacket_success _ _ _ _ _).mpr ⟨_, _, htx, hrx, rfl, ?_⟩
    rw [reply_packet]
    refine ⟨rfl, by dsimp only; decide, rfl, fun _ _ => ?_⟩
    exact ⟨_, _, _, rfl⟩
  · rw [if_pos rfl]
    refine writePacket_nak _ _ _ _ _ _ htx hrx ?_ ?_ ?_
    · rw [reply_packet]; dsimp only; decide
    · rw [reply_packet]
    · intro _; rw [reply_packet]; simp

/-! ### All attempts -/

theorem plain_lawful (device : Address) (h24 : device.toNat < 2 ^ 24) : (Turn.plain device).lawful device := by
  refine ⟨⟨⟨by simp [Traffic.ok], by simp [Quiet], by simp [Traffic.ok]⟩, by simp [Waiting.messages, Traffic.messages]⟩, ?_⟩
  refine ⟨by simp [Quiet], ⟨h24, by dsimp only; decide, ?_, ?_⟩, ⟨rfl, Or.inl (Or.inl ?_)⟩, ?_, ?_, ?_⟩
  · dsimp only; decide
  · simp [isExtended]
  · dsimp only; decide
  · unfold isNak; dsimp only; decide
  · simp [Traffic.ok]
  · simp [Traffic.messages]

/-- Some messages are left over from earlier traffic, none of them an answer of the device. -/
def LeftOver (device : Address) (left : List Message) : Prop := ∀ m ∈ left, Proper m ∧ ¬ AnswerFrom device m

theorem foreign_leftOver (device : Address) (w : Waiting) (h : w.foreign device) : LeftOver device w.messages := by
  intro m hm
  refine ⟨?_, h.2 m hm⟩
  simp only [Waiting.messages, Traffic.messages, List.mem_append, List.mem_map] at hm
  rcases hm with ⟨x, hx, rfl⟩ | ⟨x, hx, rfl⟩
  · exact (h.1.1 x hx).2
  · exact (h.1.2.2 x hx).2

theorem far_refuse (device : Address) (msg : Message) (mem : Nat → Byte) (w : Waiting) (rest : List Turn) (left : List Message)
    (hw : w.foreign device) (hroom : left.length + w.messages.length ≤ 10) :
    Plm.writePacket (Wired.io (FarDevice.react device)) ⟨⟨asPackets left, [], false⟩, [], ⟨mem, .refuse w :: rest⟩⟩
        ⟨0x62#8, afterSource msg, 0#8⟩ =
      (⟨⟨asPackets (left ++ w.messages), [], false⟩, [], ⟨mem, rest⟩⟩, .ret (some (reply msg 0x15#8).packet) (some .plmNak)) := by
  have := far_attempt (FarDevice.react device) ⟨mem, .refuse w :: rest⟩ ⟨mem, rest⟩ left [] msg w 0x15#8 [] hw.1 (by simp) rfl
    (by simpa using hroom) (Or.inr rfl) (by simp [FarDevice.react, request, Waiting.items, reply])
  simpa using this

theorem far_accept (device : Address) (msg : Message) (mem : Nat → Byte) (w : Waiting) (o : Outcome) (turns : List Turn)
    (left : List Message) (hw : w.foreign device) (ho : o.lawful device) (hturn : turns.headD (Turn.plain device) = .accept w o)
    (hroom : left.length + w.messages.length + o.messages.length ≤ 10) :
    Plm.writePacket (Wired.io (FarDevice.react device)) ⟨⟨asPackets left, [], false⟩, [], ⟨mem, turns⟩⟩
        ⟨0x62#8, afterSource msg, 0#8⟩ =
      (⟨⟨asPackets (left ++ (w.messages ++ o.messages)), [], false⟩, [],
        ⟨if o.done then sentTo device mem (afterSource msg) else mem, turns.tail⟩⟩, .ret (some (reply msg 0x06#8).packet) none) := by
  obtain ⟨h1, h2⟩ := outcome_items device o ho
  have := far_attempt (FarDevice.react device) ⟨mem, turns⟩ ⟨if o.done then sentTo device mem (afterSource msg) else mem, turns.tail⟩
    left o.messages msg w 0x06#8 o.items hw.1 h1 h2 (by simp; omega) (Or.inl rfl)
    (by simp only [FarDevice.react, request, hturn, Waiting.items, reply])
  simpa using this

/-- The retries: the modem keeps refusing, or the message is sent. -/
theorem far_retry (device : Address) (h24 : device.toNat < 2 ^ 24) (msg : Message) (retries : Nat) (mem : Nat → Byte)
    (turns : List Turn) (n : Nat) (left : List Message) (cur : PRes) (hn : n ≤ retries)
    (hlaw : ∀ t ∈ turns, t.lawful device) (hleft : LeftOver device left) (hroom : Roomy left.length turns) :
    (∃ left' turns' a, LeftOver device left' ∧ (∀ t ∈ turns', t.lawful device) ∧ Roomy left'.length turns' ∧
      fatesOf retries n turns = .lost .plmNak :: fatesOf retries 0 turns' ∧
      retryLoop (Plm.writePacket (Wired.io (FarDevice.react device))) true ⟨0x62#8, afterSource msg, 0#8⟩ (retries + 1 - n)
        ⟨⟨asPackets left, [], false⟩, [], ⟨mem, turns⟩⟩ cur =
        (⟨⟨asPackets left', [], false⟩, [], ⟨mem, turns'⟩⟩, .ret a (some .plmNak))) ∨
    (∃ (left' : List Message) (o : Outcome) (turns' : List Turn) (a : Option Packet), LeftOver device left' ∧ o.lawful device ∧ (∀ t ∈ turns', t.lawful device) ∧
      left'.length + o.messages.length ≤ 10 ∧ Roomy o.behind.length turns' ∧
      (fatesOf retries n turns).headD .done = o.fate ∧ (fatesOf retries n turns).tail = fatesOf retries 0 turns' ∧
      retryLoop (Plm.writePacket (Wired.io (FarDevice.react device))) true ⟨0x62#8, afterSource msg, 0#8⟩ (retries + 1 - n)
        ⟨⟨asPackets left, [], false⟩, [], ⟨mem, turns⟩⟩ cur =
        (⟨⟨asPackets (left' ++ o.messages), [], false⟩, [],
          ⟨if o.done then sentTo device mem (afterSource msg) else mem, turns'⟩⟩, .ret a none)) := by
  induction turns generalizing n left cur with
  | nil =>
    right
    obtain ⟨k, hk⟩ : ∃ k, retries + 1 - n = k + 1 := ⟨retries - n, by omega⟩
    have hp := plain_lawful device h24
    refine ⟨left, (.confirms [] ⟨device, 0, 0x2f#8, 0x2f00#64, []⟩ []), [], some (reply msg 0x06#8).packet, hleft, hp.2, by simp, hroom, by simp [Outcome.behind, Traffic.messages, Roomy], rfl, rfl, ?_⟩
    rw [hk, retryLoop]
    have := far_accept device msg mem ⟨[], [], []⟩ (.confirms [] ⟨device, 0, 0x2f#8, 0x2f00#64, []⟩ []) [] left hp.1 hp.2 rfl
      (by simp only [Roomy] at hroom; simpa [Waiting.messages, Traffic.messages, Outcome.messages] using hroom)
    rw [this]
    simp [retryable, Waiting.messages, Traffic.messages, Outcome.messages]
  | cons t turns ih =>
    obtain ⟨k, hk⟩ : ∃ k, retries + 1 - n = k + 1 := ⟨retries - n, by omega⟩
    have hrest : ∀ t ∈ turns, t.lawful device := fun t ht => hlaw t (by simp [ht])
    rw [hk, retryLoop]
    cases t with
    | refuse w =>
      have hw : w.foreign device := hlaw (.refuse w) (List.mem_cons_self ..)
      have hleft' : LeftOver device (left ++ w.messages) := by
        intro m hm
        rcases List.mem_append.mp hm with h | h
        · exact hleft m h
        · exact foreign_leftOver device w hw m h
      rw [far_refuse device msg mem w turns left hw hroom.1]
      simp only [retryable, beq_self_eq_true, Bool.and_self, Bool.true_or, if_true]
      by_cases hnr : n = retries
      · left
        have : k = 0 := by omega
        subst this
        refine ⟨left ++ w.messages, turns, _, hleft', hrest, ?_, ?_, rfl⟩
        · simpa using hroom.2
        · simp [fatesOf, hnr]
      · have := ih (n + 1) (left ++ w.messages) (.ret (some (reply msg 0x15#8).packet) (some .plmNak)) (by omega) hrest hleft' (by simpa using hroom.2)
        rw [show retries + 1 - (n + 1) = k by omega] at this
        simpa only [fatesOf, if_neg hnr] using this
    | accept w o =>
      right
      have hwo : w.foreign device ∧ o.lawful device := hlaw (.accept w o) (List.mem_cons_self ..)
      rw [far_accept device msg mem w o _ left hwo.1 hwo.2 rfl hroom.1]
      refine ⟨left ++ w.messages, o, turns, some (reply msg 0x06#8).packet, ?_, hwo.2, hrest, ?_, hroom.2, rfl, rfl, ?_⟩
      · intro m hm
        rcases List.mem_append.mp hm with h | h
        · exact hleft m h
        · exact foreign_leftOver device w hwo.1 m h
      · simpa using hroom.1
      · simp [retryable]

/-! ### The answer of the device -/

theorem far_rxMsg (react : FarDevice → Bytes → FarDevice × Bytes) (dev : FarDevice) (m : Message) (ms : List Message) (h : Proper m) :
    Plm.read (Wired.io react) ⟨⟨asPackets (m :: ms), [], false⟩, [], dev⟩ =
      (⟨⟨asPackets ms, [], false⟩, [], dev⟩, .ret (some m) none) := by
  have hdec := heard_decode m h
  have hrx : (Wired.io react).rxMsg ⟨⟨asPackets (m :: ms), [], false⟩, [], dev⟩ =
      (⟨⟨asPackets ms, [], false⟩, [], dev⟩, .packet (heard m).packet) := rfl
  simp only [Plm.read, hrx, hdec]

theorem far_await (react : FarDevice → Bytes → FarDevice × Bytes) (device : Address) (dev : FarDevice) (left ms : List Message) (fuel : Nat)
    (hleft : LeftOver device left) (hf : left.length < fuel) :
    Plm.awaitAck (Wired.io react) device fuel ⟨⟨asPackets (left ++ ms), [], false⟩, [], dev⟩ =
      Plm.awaitAck (Wired.io react) device (fuel - left.length) ⟨⟨asPackets ms, [], false⟩, [], dev⟩ := by
  induction left generalizing fuel with
  | nil => rfl
  | cons m left ih =>
    obtain ⟨fuel, rfl⟩ : ∃ k, fuel = k + 1 := ⟨fuel - 1, by simp at hf; omega⟩
    have hm := hleft m (by simp)
    have hfl := flag_classification m.flags
    rw [Plm.awaitAck, List.cons_append, far_rxMsg _ _ _ _ hm.1]
    dsimp only
    rw [if_neg, ih fuel (fun x hx => hleft x (by simp [hx])) (by simp at hf; omega)]
    · simp
    · rintro ⟨ha, hb⟩
      rw [hfl.1, hfl.2.1] at hb
      exact hm.2 ⟨ha, hb⟩

theorem far_answer (react : FarDevice → Bytes → FarDevice × Bytes) (device : Address) (dev : FarDevice) (left : List Message) (o : Outcome)
    (fuel : Nat) (hleft : LeftOver device left) (ho : o.lawful device) (hf : left.length < fuel) :
    ∃ a e, Plm.awaitAck (Wired.io react) device fuel ⟨⟨asPackets (left ++ o.messages), [], false⟩, [], dev⟩ =
        some (⟨⟨asPackets o.behind, [], false⟩, [], dev⟩, .ret a e) ∧
      o.fate = (match e with | none => .done | some e => if o.done then .unconfirmed e else .lost e) := by
  rw [far_await react device dev left o.messages fuel hleft hf]
  obtain ⟨k, hk⟩ : ∃ k, fuel - left.length = k + 1 := ⟨fuel - left.length - 1, by omega⟩
  rw [hk, Plm.awaitAck]
  have hquiet : Plm.read (Wired.io react) ⟨⟨asPackets [], [], false⟩, [], dev⟩ =
      (⟨⟨asPackets [], [], false⟩, [], dev⟩, .ret none (some (.wrapped .insReadTimeout))) := rfl
  rcases o with ⟨noise, m, later⟩ | ⟨noise, m, later⟩ | _ | _
  · have hfl := flag_classification m.flags
    have hn : ¬ m.flags.nak = true := by rw [hfl.2.1]; exact ho.2.2.2.1
    simp only [Outcome.messages]
    rw [far_rxMsg _ _ _ _ ho.2.1]
    dsimp only
    rw [if_pos ⟨ho.2.2.1.1, by rw [hfl.1, hfl.2.1]; exact ho.2.2.1.2⟩]
    exact ⟨_, _, rfl, by simp [hn, Outcome.fate]⟩
  · have hfl := flag_classification m.flags
    have hn : m.flags.nak = true := by rw [hfl.2.1]; exact ho.2.2.2.1
    simp only [Outcome.messages]
    rw [far_rxMsg _ _ _ _ ho.2.1]
    dsimp only
    rw [if_pos ⟨ho.2.2.1.1, by rw [hfl.1, hfl.2.1]; exact ho.2.2.1.2⟩]
    exact ⟨_, _, rfl, by simp [hn, Outcome.fate, Outcome.done]⟩
  · simp only [Outcome.messages]
    rw [hquiet]
    exact ⟨_, _, rfl, rfl⟩
  · simp only [Outcome.messages]
    rw [hquiet]
    exact ⟨_, _, rfl, rfl⟩

/-! ### The serial line hides nothing but the traffic -/

/-- The device across the line and the device at hand. -/
def Same (device : Address) (retries : Nat) (w : Wired FarDevice) (d : AldbDev) : Prop :=
  ∃ left turns, w = ⟨⟨asPackets left, [], false⟩, [], ⟨d.mem, turns⟩⟩ ∧ LeftOver device left ∧
    (∀ t ∈ turns, t.lawful device) ∧ Roomy left.length turns ∧ d.fates = fatesOf retries 0 turns

theorem aldb_write_eq (d : AldbDev) (m : Message) (e : Option Err) (done : Bool) (fate : Fate) (hf : d.fates.headD .done = fate)
    (he : fate = (match e with | none => .done | some e => if done then .unconfirmed e else .lost e)) (hd : e = none → done = true) :
    ∃ a, aldbIO.write d m = (⟨if done then obey d.mem m else d.mem, d.fates.tail, d.inbox⟩, .ret a e) := by
  obtain ⟨mem, fates, inbox⟩ := d
  rcases fates with _ | ⟨_ | e' | e', fs⟩ <;> cases e <;> cases done <;> simp_all [aldbIO, acks]

/-- A write request as `BasicDevice` sends it. -/
structure ToDevice (device : Address) (m : Message) : Prop where
  dst : m.dst = device
  ext : isExtended m.flags
  payload : m.payload.length = 14

theorem fit_id (n : Nat) (l : Bytes) (h : l.length = n) : fit n l = l := by
  induction n generalizing l with
  | zero => rw [List.length_eq_zero_iff] at h; rw [h]; rfl
  | succ n ih =>
    cases l with
    | nil => simp at h
    | cons b l => rw [fit, ih l (by simpa using h)]

theorem sentTo_request (device : Address) (h24 : device.toNat < 2 ^ 24) (mem : Nat → Byte) (m : Message) (h : ToDevice device m) :
    sentTo device mem (afterSource m) = obey mem m := by
  have hd : BitVec.ofNat 32 ((BitVec.ofNat 8 (m.dst.toNat / 65536)).toNat * 65536 + (BitVec.ofNat 8 (m.dst.toNat / 256)).toNat * 256
      + (BitVec.ofNat 8 m.dst.toNat).toNat) = device := by
    rw [h.dst]
    apply BitVec.eq_of_toNat_eq
    simp only [BitVec.toNat_ofNat]
    omega
  unfold sentTo
  have hr : requested (afterSource m) = some ⟨0, device, m.flags,
      BitVec.ofNat 64 ((BitVec.ofNat 8 (m.command.toNat / 256)).toNat * 256 + (BitVec.ofNat 8 m.command.toNat).toNat), m.payload⟩ := by
    unfold afterSource addr3
    rw [if_pos h.ext, fit_id 14 m.payload h.payload]
    simp only [List.cons_append, List.nil_append, requested, hd]
  rw [hr]
  dsimp only
  rw [if_pos rfl]
  unfold obey
  have hc : cmd1 ⟨0, device, m.flags,
      BitVec.ofNat 64 ((BitVec.ofNat 8 (m.command.toNat / 256)).toNat * 256 + (BitVec.ofNat 8 m.command.toNat).toNat), m.payload⟩ = cmd1 m := by
    simp only [cmd1, BitVec.toNat_ofNat]
    omega
  dsimp only
  rw [hc]

theorem same_write (device : Address) (h24 : device.toNat < 2 ^ 24) (retries fuel : Nat) (hfuel : 10 < fuel) (w : Wired FarDevice)
    (d : AldbDev) (m : Message) (hm : ToDevice device m) (h : Same device retries w d) :
    ∃ w' d' a a' e, (Wired.msgIO (FarDevice.react device) retries fuel).write w m = (w', .ret a e) ∧
      aldbIO.write d m = (d', .ret a' e) ∧ Same device retries w' d' := by
  obtain ⟨left, turns, rfl, hleft, hlaw, hroom, hfates⟩ := h
  have hmb : m.marshalBinary.drop 3 = afterSource m := afterSource_drop m
  simp only [Wired.msgIO, Plm.write, retryWrite, hmb, PCmd.sendInsteonMsg, hm.dst]
  rw [show ((retries : Int) + 1).toNat = retries + 1 - 0 by omega]
  rcases far_retry device h24 m retries d.mem turns 0 left (.ret none none) (by omega) hlaw hleft hroom with
    ⟨left', turns', a, h1, h2, h3, h4, h5⟩ | ⟨left', o, turns', a, h1, h2, h3, h4, h5, h6, h7, h8⟩
  · rw [h5]
    rw [h4] at hfates
    refine ⟨_, ⟨d.mem, fatesOf retries 0 turns', d.inbox⟩, _, none, _, rfl, ?_, left', turns', rfl, h1, h2, h3, rfl⟩
    obtain ⟨mem, fates, inbox⟩ := d
    simp only at hfates
    subst hfates
    rfl
  · rw [h8]
    dsimp only
    obtain ⟨a', e, g1, g2⟩ := far_answer (FarDevice.react device) device
      ⟨if o.done then sentTo device d.mem (afterSource m) else d.mem, turns'⟩ left' o fuel h1 h2 (by omega)
    rw [g1]
    dsimp only
    rw [← hfates] at h6 h7
    obtain ⟨a2, g3⟩ := aldb_write_eq d m e o.done o.fate h6 g2 (by
      intro he; subst he; rcases o with _ | _ | _ | _ <;> simp_all [Outcome.fate, Outcome.done])
    refine ⟨_, _, _, _, _, rfl, g3, o.behind, turns', ?_, ?_, h3, h5, h7⟩
    · rw [sentTo_request device h24 d.mem m hm]
    · intro x hx
      rcases o with ⟨noise, m, later⟩ | ⟨noise, m, later⟩ | _ | _ <;> simp only [Outcome.behind, List.not_mem_nil] at hx
      · have hfor := h2.2.2.2.2
        refine ⟨?_, hfor.2 x hx⟩
        simp only [Traffic.messages, List.mem_map] at hx
        obtain ⟨y, hy, rfl⟩ := hx
        exact (hfor.1 y hy).2
      · have hfor := h2.2.2.2.2
        refine ⟨?_, hfor.2 x hx⟩
        simp only [Traffic.messages, List.mem_map] at hx
        obtain ⟨y, hy, rfl⟩ := hx
        exact (hfor.1 y hy).2

/-! ### Link writes -/

theorem writePayload_length (i : Int) (l : LinkRecord) (buf : Bytes)
    (h : (⟨LinkRequest.writeLink, Ldb.memAddressOf i, 0, some l⟩ : LinkRequest).marshalBinary = .ok buf) : buf.length = 14 := by
  have h9 : (copyPad 9 l.marshalBinary).length = 9 := by rw [copyPad_fit]; simp [fit_length]
  have : (⟨LinkRequest.writeLink, Ldb.memAddressOf i, 0, some l⟩ : LinkRequest).marshalBinary =
    .ok ([0#8, 2#8, ((Ldb.memAddressOf i) >>> 8).setWidth 8, ((Ldb.memAddressOf i) &&& 0xff#64).setWidth 8] ++ [8]
      ++ copyPad 9 l.marshalBinary) := rfl
  rw [this] at h
  simp only [Out.ok.injEq] at h
  rw [← h]
  simp [h9]

theorem prepared_toDevice (info : DeviceInfo) (c : Command) (buf : Bytes) (h : buf.length = 14) :
    ToDevice info.address (Device.prepare info ⟨0, 0, 0, c, buf⟩) := by
  have hne : buf ≠ [] := by intro h'; rw [h'] at h; simp at h
  by_cases hv : info.engineVersion = 2#64
  · rw [prepare_i2cs info _ (by simpa using hne) hv]
    refine ⟨rfl, by dsimp only; decide, ?_⟩
    simp [h, setChecksum, fit_length]
  · rw [prepare_extended info _ (by simpa using hne) hv]
    exact ⟨rfl, by dsimp only; decide, h⟩

section
variable (info : DeviceInfo) (h24 : info.address.toNat < 2 ^ 24) (retries fuel : Nat) (hfuel : 10 < fuel)
include h24 hfuel

/-- The device over the serial line. -/
local notation "farIO" => Device.io info (Wired.msgIO (FarDevice.react info.address) retries fuel)
local notation "nearIO" => Device.io info aldbIO

theorem same_writeLink (w : Wired FarDevice) (d : AldbDev) (ldb : Ldb) (i : Int) (l : LinkRecord) (h : Same info.address retries w d) :
    ∃ w' d' ldb' r, Ldb.writeLink farIO w ldb i l = (w', ldb', r) ∧ Ldb.writeLink nearIO d ldb i l = (d', ldb', r) ∧
      Same info.address retries w' d' := by
  unfold Ldb.writeLink
  by_cases hi : i > ldb.links.length
  · rw [if_pos hi, if_pos hi]
    exact ⟨_, _, _, _, rfl, rfl, h⟩
  · rw [if_neg hi, if_neg hi]
    rcases hb : (⟨LinkRequest.writeLink, Ldb.memAddressOf i, 0, some l⟩ : LinkRequest).marshalBinary with buf | e | _
    · dsimp only
      obtain ⟨w', d', a, a', e, g1, g2, g3⟩ := same_write info.address h24 retries fuel hfuel w d
        (Device.prepare info ⟨0, 0, 0, Cmd.readWriteALDB, buf⟩) (prepared_toDevice info _ buf (writePayload_length i l buf hb)) h
      simp only [Device.io, Device.write, g1, g2]
      cases e with
      | some e => exact ⟨_, _, _, _, rfl, rfl, g3⟩
      | none =>
        dsimp only
        split_ifs <;> exact ⟨_, _, _, _, rfl, rfl, g3⟩
    · exact ⟨_, _, _, _, rfl, rfl, h⟩
    · exact ⟨_, _, _, _, rfl, rfl, h⟩

theorem same_writeLinksLoop (links : List LinkRecord) (i : Nat) (w : Wired FarDevice) (d : AldbDev) (ldb : Ldb)
    (h : Same info.address retries w d) :
    ∃ w' d' ldb' r, Ldb.writeLinksLoop farIO i links w ldb = (w', ldb', r) ∧ Ldb.writeLinksLoop nearIO i links d ldb = (d', ldb', r) ∧
      Same info.address retries w' d' := by
  induction links generalizing i w d ldb with
  | nil => exact ⟨_, _, _, _, rfl, rfl, h⟩
  | cons l links ih =>
    obtain ⟨w', d', ldb', r, g1, g2, g3⟩ := same_writeLink info h24 retries fuel hfuel w d ldb i (Ldb.notLast l) h
    rw [Ldb.writeLinksLoop, Ldb.writeLinksLoop, g1, g2]
    rcases r with (_ | e) | _ | _
    · exact ih _ _ _ _ g3
    · exact ⟨_, _, _, _, rfl, rfl, g3⟩
    · exact ⟨_, _, _, _, rfl, rfl, g3⟩
    · exact ⟨_, _, _, _, rfl, rfl, g3⟩

theorem same_writeLinks (done : Int) (links : List LinkRecord) (w : Wired FarDevice) (d : AldbDev) (ldb : Ldb)
    (h : Same info.address retries w d) :
    ∃ w' d' ldb' r, Ldb.writeLinks farIO done w ldb links = (w', ldb', r) ∧ Ldb.writeLinks nearIO done d ldb links = (d', ldb', r) ∧
      Same info.address retries w' d' := by
  unfold Ldb.writeLinks
  obtain ⟨w1, d1, ldb1, r, g1, g2, g3⟩ := same_writeLinksLoop info h24 retries fuel hfuel links 0 w d ldb h
  rw [g1, g2]
  rcases r with (_ | e) | _ | _
  · dsimp only
    obtain ⟨w2, d2, ldb2, r, k1, k2, k3⟩ := same_writeLink info h24 retries fuel hfuel w1 d1 ldb1 ldb1.links.length Ldb.endRecord g3
    rw [k1, k2]
    rcases r with (_ | e) | _ | _ <;> exact ⟨_, _, _, _, rfl, rfl, k3⟩
  all_goals exact ⟨_, _, _, _, rfl, rfl, g3⟩

end

/-! ### C131 -/

theorem fateDone_not (fates : List Fate) (k : Nat) (e : Err) (h : fates[k]? = some (.lost e) ∨ fates[k]? = some (.unconfirmed e)) :
    ¬ fateDone fates k := by
  unfold fateDone
  rcases h with h | h <;> rw [h] <;> simp

/-- C131: rewriting a device's link database over a serial line, whatever else the line carries and whatever becomes of the
requests. The call returns without a panic, and without an error exactly if each of its commands was, possibly after some refusals of the
modem, carried out and confirmed; then the slots hold the links and the end record follows, and if the cached list was not longer
the device's database is the new list. Otherwise it stops at the first command that was not; the slots before it hold the new
links and all others are as they were, except that a slot written without confirmation may be the new one. -/
theorem device_rewrite_serial (info : DeviceInfo) (h24 : info.address.toNat < 2 ^ 24) (retries fuel : Nat) (hfuel : 10 < fuel)
    (mem : Nat → Byte) (turns : List Turn) (hlaw : ∀ t ∈ turns, t.lawful info.address) (hroom : Roomy 0 turns)
    (ldb : Ldb) (done : Int) (links : List LinkRecord)
    (hmax : max links.length ldb.links.length < 512) (hend : ∀ l ∈ links, ¬ isEnd (raw l)) :
    ∃ w' ldb' r, Ldb.writeLinks (Device.io info (Wired.msgIO (FarDevice.react info.address) retries fuel)) done
        (Wired.init ⟨mem, turns⟩) ldb links = (w', ldb', .ok r) ∧
      (r = none ↔ ∀ j ≤ links.length, fateDone (fatesOf retries 0 turns) j) ∧
      (r = none →
        (∀ j, (h : j < links.length) → slot w'.dev.mem j = raw links[j]) ∧
        (∀ j, links.length ≤ j → j < 512 → j ≠ max links.length ldb.links.length → slot w'.dev.mem j = slot mem j) ∧
        isEnd (slot w'.dev.mem (max links.length ldb.links.length)) ∧
        (ldb.links.length ≤ links.length → database w'.dev.mem = links.map raw)) ∧
      (∀ e, r = some e → ∃ k ≤ links.length, (∀ j < k, fateDone (fatesOf retries 0 turns) j) ∧
        ((fatesOf retries 0 turns)[k]? = some (.lost e) ∨ (fatesOf retries 0 turns)[k]? = some (.unconfirmed e)) ∧
        (∀ j, (hj : j < links.length) → j < k → slot w'.dev.mem j = raw links[j]) ∧
        (∀ j, k ≤ j → j < 512 → slot w'.dev.mem j = slot mem j ∨
          ((fatesOf retries 0 turns)[k]? = some (.unconfirmed e) ∧
            ((j = k ∧ ∃ hj : j < links.length, slot w'.dev.mem j = raw links[j]) ∨
             (k = links.length ∧ j = max links.length ldb.links.length ∧ slot w'.dev.mem j = List.replicate 8 0))))) := by
  have hsame : Same info.address retries (Wired.init ⟨mem, turns⟩) ⟨mem, fatesOf retries 0 turns, []⟩ :=
    ⟨[], turns, rfl, by simp [LeftOver], hlaw, hroom, rfl⟩
  obtain ⟨w', d', ldb', r, h1, h2, h3⟩ := same_writeLinks info h24 retries fuel hfuel done links _ _ ldb hsame
  have hmem : w'.dev.mem = d'.mem := by
    obtain ⟨left, ts, rfl, -⟩ := h3
    rfl
  obtain ⟨k, hk, g1, ⟨hk1, g2⟩ | ⟨hk1, e, m, g2, g3⟩⟩ := writeLinks_dev info mem (fatesOf retries 0 turns) [] ldb done links
  · have hr : r = .ok none := by rw [g2] at h2; simp only [Prod.mk.injEq] at h2; exact h2.2.2.symm
    subst hr
    obtain ⟨k1, k2, k3, -, k5⟩ := write_links_partial info mem _ [] ldb ldb' done links d' hmax hend h2
    rw [← hmem] at k1 k2 k3 k5
    refine ⟨w', ldb', none, h1, ?_, fun _ => ⟨k1, k2, k3, k5⟩, by simp⟩
    simp only [true_iff]
    exact fun j hj => g1 j (by omega)
  · have hr : r = .ok (some e) := by rw [g2] at h2; simp only [Prod.mk.injEq] at h2; exact h2.2.2.symm
    subst hr
    have hi := interrupted_rewrite info mem _ [] ldb ldb' done links d' e hmax hend h2
    rw [← hmem] at hi
    refine ⟨w', ldb', some e, h1, ?_, by simp, ?_⟩
    · simp only [reduceCtorEq, false_iff]
      intro hall
      refine fateDone_not _ k e ?_ (hall k hk1)
      rcases g3 with ⟨g, -⟩ | ⟨g, -⟩ | ⟨g, -⟩
      · exact Or.inl g
      · exact Or.inr g
      · exact Or.inr g
    · rintro e' he
      simp only [Option.some.injEq] at he
      subst he
      obtain ⟨k, i1, i2, i3, i4, i5, -⟩ := hi
      exact ⟨k, i1, i2, i3, i4, i5⟩

/-! ### C132 -/

/-- All goes well in the end: accepted requests are carried out and confirmed, and no request is refused more than `retries` times
in a row. -/
structure Spec.Benign (retries : Nat) (turns : List Turn) : Prop where
  confirmed : ∀ t ∈ turns, (∃ w, t = .refuse w) ∨ ∃ w noise m later, t = .accept w (.confirms noise m later)
  patient : ∀ pre run post, turns = pre ++ run ++ post → (∀ t ∈ run, ∃ w, t = .refuse w) → run.length ≤ retries

theorem benign_fates (retries : Nat) (turns : List Turn) (n : Nat) (hconf : ∀ t ∈ turns, (∃ w, t = Turn.refuse w) ∨
      ∃ w noise m later, t = .accept w (.confirms noise m later))
    (hfirst : ∀ run post, turns = run ++ post → (∀ t ∈ run, ∃ w, t = Turn.refuse w) → n + run.length ≤ retries)
    (hpat : ∀ pre run post, turns = pre ++ run ++ post → (∀ t ∈ run, ∃ w, t = Turn.refuse w) → run.length ≤ retries) :
    ∀ f ∈ fatesOf retries n turns, f = .done := by
  induction turns generalizing n with
  | nil => simp [fatesOf]
  | cons t turns ih =>
    have hrest : ∀ pre run post, turns = pre ++ run ++ post → (∀ t ∈ run, ∃ w, t = Turn.refuse w) → run.length ≤ retries :=
      fun pre run post h hr => hpat (t :: pre) run post (by rw [h]; simp) hr
    rcases hconf t (by simp) with ⟨w, rfl⟩ | ⟨w, noise, m, later, rfl⟩
    · have h1 := hfirst [.refuse w] turns rfl (by simp)
      simp only [List.length_cons, List.length_nil] at h1
      rw [fatesOf, if_neg (by omega)]
      refine ih (n + 1) (fun t ht => hconf t (by simp [ht])) (fun run post h hr => ?_) hrest
      have := hfirst (.refuse w :: run) post (by rw [h]; rfl) (by simpa using hr)
      simp only [List.length_cons] at this
      omega
    · rw [fatesOf]
      intro f hf
      simp only [List.mem_cons] at hf
      rcases hf with rfl | hf
      · rfl
      · exact ih 0 (fun t ht => hconf t (by simp [ht]))
          (fun run post h hr => by have := hrest [] run post (by simpa using h) hr; omega) hrest f hf

/-- C132: if the device carries out and confirms what reaches it and the modem does not refuse a request more often than it is
repeated, then rewriting the device's database over the serial line succeeds, however much noise and traffic there is, as
long as no more than ten messages pile up; the device then has exactly the new links. -/
theorem device_rewrite_succeeds (info : DeviceInfo) (h24 : info.address.toNat < 2 ^ 24) (retries fuel : Nat) (hfuel : 10 < fuel)
    (mem : Nat → Byte) (turns : List Turn) (hlaw : ∀ t ∈ turns, t.lawful info.address) (hroom : Roomy 0 turns)
    (hben : Benign retries turns) (ldb : Ldb) (done : Int) (links : List LinkRecord)
    (hmax : links.length < 512) (hcache : ldb.links.length ≤ links.length) (hend : ∀ l ∈ links, ¬ isEnd (raw l)) :
    ∃ w' ldb', Ldb.writeLinks (Device.io info (Wired.msgIO (FarDevice.react info.address) retries fuel)) done
        (Wired.init ⟨mem, turns⟩) ldb links = (w', ldb', .ok none) ∧ database w'.dev.mem = links.map raw := by
  obtain ⟨w', ldb', r, h1, h2, h3, -⟩ := device_rewrite_serial info h24 retries fuel hfuel mem turns hlaw hroom ldb done links
    (by omega) hend
  have hf := benign_fates retries turns 0 hben.confirmed
    (fun run post h hr => by have := hben.patient [] run post (by simpa using h) hr; omega) hben.patient
  have hr : r = none := by
    rw [h2]
    intro j _
    unfold fateDone
    rcases hx : (fatesOf retries 0 turns)[j]? with _ | f
    · exact Or.inl rfl
    · right; rw [hf f (List.mem_of_getElem? hx)]
  subst hr
  exact ⟨w', ldb', h1, (h3 rfl).2.2.2 hcache⟩

/-- A busy line: the first request is refused with a message of another device in between, the second is confirmed after noise and
a broadcast, the third is carried out but the confirmation gets lost. -/
def exTurns : List Turn :=
  [.refuse ⟨[([0x00#8, 0x15#8], ⟨0x112233#32, 0x445566#32, 0x0b#8, 0x1100#64, []⟩)], [], []⟩,
   .accept ⟨[], [0xff#8], [([], ⟨0x112233#32, 0x000001#32, 0xcb#8, 0x0c1100#64, []⟩)]⟩
     (.confirms [0x00#8] ⟨0x050607#32, 0x445566#32, 0x2b#8, 0x2f00#64, []⟩ [([], ⟨0x112233#32, 0x445566#32, 0x0b#8, 0x1300#64, []⟩)]),
   .accept ⟨[], [], []⟩ .unheard]

theorem exTurns_lawful : (∀ t ∈ exTurns, t.lawful 0x050607#32) ∧ Roomy 0 exTurns := by
  constructor
  · intro t ht
    simp only [exTurns, List.mem_cons, List.not_mem_nil, or_false] at ht
    rcases ht with rfl | rfl | rfl
    all_goals
      simp only [Turn.lawful, Outcome.lawful, Waiting.foreign, Waiting.ok, Traffic.foreign, Traffic.ok, Traffic.messages,
        Waiting.messages, List.mem_cons, List.not_mem_nil, or_false, forall_eq, List.map_cons, List.map_nil, List.append_nil,
        List.nil_append, false_imp_iff, implies_true, and_true, true_and, AnswerFrom]
    · exact ⟨⟨⟨quiet_cons _ _ _ (by simp) (quiet_one _), ⟨by decide, by decide, by decide, by decide⟩⟩, quiet_nil⟩, by simp⟩
    · refine ⟨⟨⟨quiet_one _, ⟨quiet_nil, ⟨by decide, by decide, by decide, by decide⟩⟩⟩, by simp⟩, quiet_one _,
        ⟨by decide, by decide, by decide, by decide⟩, ?_, ?_, ⟨quiet_nil, ⟨by decide, by decide, by decide, by decide⟩⟩, by simp⟩
      · exact Or.inl (Or.inl (by decide))
      · unfold isNak; decide
    · exact quiet_nil
  · simp [exTurns, Roomy, Waiting.messages, Traffic.messages, Outcome.messages, Outcome.behind]

example : fatesOf 3 0 exTurns = [.done, .unconfirmed (.wrapped .insReadTimeout)] := rfl

example : Benign 3 (exTurns.take 2) := by
  refine ⟨?_, ?_⟩
  · intro t ht
    simp only [exTurns, List.take_succ_cons, List.take_zero, List.mem_cons, List.not_mem_nil, or_false] at ht
    rcases ht with rfl | rfl
    · exact Or.inl ⟨_, rfl⟩
    · exact Or.inr ⟨_, _, _, _, rfl⟩
  · intro pre run post h _
    have := congrArg List.length h
    simp only [exTurns, List.take_succ_cons, List.take_zero, List.length_cons, List.length_nil, List.length_append] at this
    omega

end Insteon
