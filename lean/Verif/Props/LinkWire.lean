import Verif.Spec.LinkWire
import Verif.Props.FarDevice
import Verif.Props.Control
import Verif.Props.Network
import Verif.Model.ModemCmd

/-
C200: linking over the serial line.
-/

namespace Insteon
open Spec

/-! ### One exchange -/

/-- The messages among the packets of some frames, and the others. -/
def Spec.Items.heardOf (its : Items) : List Packet := (its.map fun it => it.2.packet).filter Port.isMsg
def Spec.Items.repliesOf (its : Items) : List Packet := (its.map fun it => it.2.packet).filter fun p => !Port.isMsg p

/-- The result of a command for which `h` is the next packet. -/
def answered (pkt h : Packet) : PRes :=
  match Plm.checkAck pkt h with
  | .ok e => .ret (some h) e
  | _ => .panic

theorem wired_step {τ : Type} (react : τ → Bytes → τ × Bytes) (mq pq t : List Packet) (its : Items) (dev dev' : τ) (pkt h : Packet)
    (hreact : react dev pkt.marshalBinary = (dev', line its)) (hok : ∀ it ∈ its, Quiet it.1 ∧ it.2.wellFormed)
    (hm : mq.length + its.heardOf.length ≤ 10) (hp : pq.length + its.repliesOf.length ≤ 10)
    (hq : pq ++ its.repliesOf = h :: t) :
    Plm.writePacket (Wired.io react) ⟨⟨mq, pq, false⟩, [], dev⟩ pkt =
      (⟨⟨mq ++ its.heardOf, t, false⟩, [], dev'⟩, answered pkt h) := by
  have htx : (Wired.io react).tx ⟨⟨mq, pq, false⟩, [], dev⟩ pkt.marshalBinary = (⟨⟨mq, pq, false⟩, line its, dev'⟩, none) := by
    simp only [Wired.io, hreact, List.nil_append]
  have hrx : (Wired.io react).rxPacket ⟨⟨mq, pq, false⟩, line its, dev'⟩ = (⟨⟨mq ++ its.heardOf, t, false⟩, [], dev'⟩, .packet h) := by
    simp only [Wired.io, Wired.feed, arrivals_line its hok]
    rw [run_arrivals _ _ rfl (by simpa [Items.heardOf] using hm) (by simpa [Items.repliesOf] using hp)]
    simp only [Items.repliesOf] at hq
    simp only [hq, Port.recv, Items.heardOf]
    simp
  unfold Plm.writePacket
  rw [htx]
  dsimp only
  rw [hrx]
  dsimp only
  unfold answered
  rcases Plm.checkAck pkt h with e | e | _ <;> rfl

variable {p : Premises}

theorem report_ok (n : Net) (d : Nat) : ∀ it ∈ p.report n d, Quiet it.1 ∧ it.2.wellFormed := by
  intro it
  unfold Premises.report
  rcases n.mode with _ | ⟨c, g, l⟩
  · intro hit; simp at hit
  · intro hit
    dsimp only at hit
    by_cases h : p.reports = true ∧ c ≠ d ∧ (c = 0 ∨ d = 0)
    · rw [if_pos h] at hit
      simp only [List.mem_singleton] at hit
      subst hit
      refine ⟨quiet_nil, ?_⟩
      simp [Frame.wellFormed, lengthTable, addr3, Premises.reportFrame]
    · rw [if_neg h] at hit; simp at hit

theorem report_packets (n : Net) (d : Nat) : (p.report n d).heardOf = [] ∧
    ((p.report n d).repliesOf = [] ∨ ∃ x : Bytes, (p.report n d).repliesOf = [⟨0x53#8, x, 0#8⟩]) := by
  unfold Premises.report
  rcases n.mode with _ | ⟨c, g, l⟩
  · exact ⟨rfl, Or.inl rfl⟩
  · dsimp only
    by_cases h : p.reports = true ∧ c ≠ d ∧ (c = 0 ∨ d = 0)
    · rw [if_pos h]
      simp [Items.heardOf, Items.repliesOf, Frame.packet, Port.isMsg, PCmd.stdMsgReceived, PCmd.extMsgReceived, Premises.reportFrame]
    · rw [if_neg h]; exact ⟨rfl, Or.inl rfl⟩

theorem report_heardOf (n : Net) (d : Nat) : (p.report n d).heardOf = [] := (report_packets n d).1

/-- The packets in the modem's report: none or one, which is not an acknowledgement. -/
theorem report_repliesOf (n : Net) (d : Nat) : (p.report n d).repliesOf = [] ∨
    ∃ x : Bytes, (p.report n d).repliesOf = [⟨0x53#8, x, 0#8⟩] := (report_packets n d).2

/-! ### Commands to the modem -/

/-- A confirmed command is a success. -/
theorem answered_self (c : Byte) (x : Bytes) (hc : c = 0x64#8 ∨ c = 0x65#8) :
    answered ⟨c, x, 0#8⟩ ⟨c, x, 0x06#8⟩ = .ret (some ⟨c, x, 0x06#8⟩) none := by
  rcases hc with rfl | rfl <;>
    simp [answered, Plm.checkAck, Packet.isACK, Packet.isNAK, PCmd.getInfo, PCmd.getConfig, PCmd.sendInsteonMsg]

/-- A report instead of a confirmation is a failure. -/
theorem answered_report (pkt : Packet) (x : Bytes) : answered pkt ⟨0x53#8, x, 0#8⟩ = .ret (some ⟨0x53#8, x, 0#8⟩) (some .noAck) := by
  simp [answered, Plm.checkAck, Packet.isACK, Packet.isNAK]

/-- The confirmation of another command is a failure. -/
theorem answered_other (pkt h : Packet) (h6 : 0x60 ≤ h.command.toNat) (ha : h.ack = 0x06#8) (hne : h.command ≠ pkt.command) :
    answered pkt h = .ret (some h) (some .wrongAck) := by
  simp [answered, Plm.checkAck, Packet.isACK, Packet.isNAK, h6, ha, hne]

theorem modem_enter_frame (g : Group) (n : Net) :
    p.react n (⟨0x64#8, [0x03#8, g], 0#8⟩ : Packet).marshalBinary =
      (n.press p.net 0 g, line (([], ⟨0x64#8, [0x03#8, g, 0x06#8]⟩) :: p.report n 0)) := rfl

theorem modem_unlink_frame (g : Group) (n : Net) :
    p.react n (⟨0x64#8, [0xff#8, g], 0#8⟩ : Packet).marshalBinary =
      ({ n with mode := some (0, g, false) }, line [([], ⟨0x64#8, [0xff#8, g, 0x06#8]⟩)]) := rfl

theorem modem_exit_frame (n : Net) :
    p.react n (⟨0x65#8, [], 0#8⟩ : Packet).marshalBinary = (n.leave 0, line [([], ⟨0x65#8, [0x06#8]⟩)]) := rfl

theorem frame64_ok (m g : Byte) : Quiet ([] : Bytes) ∧ (⟨0x64#8, [m, g, 0x06#8]⟩ : Frame).wellFormed :=
  ⟨quiet_nil, by simp [Frame.wellFormed, lengthTable]⟩

theorem frame65_ok : Quiet ([] : Bytes) ∧ (⟨0x65#8, [0x06#8]⟩ : Frame).wellFormed :=
  ⟨quiet_nil, by simp [Frame.wellFormed, lengthTable]⟩

theorem modem_enter (g : Group) (n : Net) :
    p.modem.enterLinkingMode ⟨⟨[], [], false⟩, [], n⟩ g = (⟨⟨[], (p.report n 0).repliesOf, false⟩, [], n.press p.net 0 g⟩, .ok none) := by
  have h64 : ∀ its : Items, Items.heardOf (([], ⟨0x64#8, [0x03#8, g, 0x06#8]⟩) :: its) = its.heardOf ∧
      Items.repliesOf (([], ⟨0x64#8, [0x03#8, g, 0x06#8]⟩) :: its) = ⟨0x64#8, [0x03#8, g], 0x06#8⟩ :: its.repliesOf := by
    intro its
    simp [Items.heardOf, Items.repliesOf, Frame.packet, Port.isMsg, PCmd.stdMsgReceived, PCmd.extMsgReceived]
  have hl : (p.report n 0).repliesOf.length ≤ 1 := by
    rcases report_repliesOf (p := p) n 0 with h | ⟨x, h⟩ <;> rw [h] <;> simp
  have := wired_step p.react [] [] (p.report n 0).repliesOf _ n _ _ ⟨0x64#8, [0x03#8, g], 0x06#8⟩ (modem_enter_frame g n)
    (by
      intro it hit
      rcases List.mem_cons.mp hit with rfl | h
      · exact frame64_ok _ _
      · exact report_ok _ _ it h)
    (by rw [(h64 _).1, report_heardOf]; simp) (by rw [(h64 _).2]; simp; omega) (by rw [(h64 _).2]; rfl)
  show LinkTimed.modemError (Plm.writePacket (Wired.io p.react) ⟨⟨[], [], false⟩, [], n⟩ ⟨0x64#8, [0x03#8, g], 0#8⟩) = _
  rw [this, answered_self 0x64#8 [0x03#8, g] (Or.inl rfl), (h64 _).1, report_heardOf]
  rfl

theorem modem_unlink (g : Group) (n : Net) :
    p.modem.enterUnlinkingMode ⟨⟨[], [], false⟩, [], n⟩ g = (⟨⟨[], [], false⟩, [], { n with mode := some (0, g, false) }⟩, .ok none) := by
  have h := wired_step p.react [] [] [] _ n _ _ ⟨0x64#8, [0xff#8, g], 0x06#8⟩ (modem_unlink_frame g n)
    (by intro it hit; simp only [List.mem_singleton] at hit; subst hit; exact frame64_ok _ _)
    (by simp [Items.heardOf, Frame.packet, Port.isMsg, PCmd.stdMsgReceived, PCmd.extMsgReceived])
    (by simp [Items.repliesOf, Frame.packet, Port.isMsg, PCmd.stdMsgReceived, PCmd.extMsgReceived])
    (by simp [Items.repliesOf, Frame.packet, Port.isMsg, PCmd.stdMsgReceived, PCmd.extMsgReceived])
  show LinkTimed.modemError (Plm.writePacket (Wired.io p.react) ⟨⟨[], [], false⟩, [], n⟩ ⟨0x64#8, [0xff#8, g], 0#8⟩) = _
  rw [h, answered_self 0x64#8 [0xff#8, g] (Or.inl rfl)]
  rfl

/-- Cancelling with other packets waiting or without. -/
theorem modem_exit (n : Net) (mq pq t : List Packet) (h : Packet) (hm : mq.length ≤ 9) (hp : pq.length ≤ 9)
    (hq : pq ++ [⟨0x65#8, [], 0x06#8⟩] = h :: t) :
    p.modem.exitLinkingMode ⟨⟨mq, pq, false⟩, [], n⟩ =
      (⟨⟨mq, t, false⟩, [], n.leave 0⟩, (answered ⟨0x65#8, [], 0#8⟩ h).error) := by
  have h := wired_step p.react mq pq t _ n _ _ h (modem_exit_frame n)
    (by intro it hit; simp only [List.mem_singleton] at hit; subst hit; exact frame65_ok)
    (by simp [Items.heardOf, Frame.packet, Port.isMsg, PCmd.stdMsgReceived, PCmd.extMsgReceived]; omega)
    (by simp [Items.repliesOf, Frame.packet, Port.isMsg, PCmd.stdMsgReceived, PCmd.extMsgReceived]; omega)
    (by rw [← hq]; simp [Items.repliesOf, Frame.packet, Port.isMsg, PCmd.stdMsgReceived, PCmd.extMsgReceived])
  show LinkTimed.modemError (Plm.writePacket (Wired.io p.react) ⟨⟨mq, pq, false⟩, [], n⟩ ⟨0x65#8, [], 0#8⟩) = _
  rw [h]
  have hh : ∀ r : PRes, ∀ s : Wired Net, LinkTimed.modemError (s, r) = (s, r.error) := by
    intro r s; rcases r with ⟨a, e⟩ | _ <;> rfl
  rw [hh]
  simp [Items.heardOf, Frame.packet, Port.isMsg, PCmd.stdMsgReceived, PCmd.extMsgReceived]

/-! ### Messages to devices -/

/-- The message a device sends for a command with data of 14 zeros or none. -/
theorem prep_facts (info : DeviceInfo) (c : Command) (x : Bytes) (hx : x = [] ∨ x = List.replicate 14 0#8) :
    (Device.prepare info ⟨0, 0, 0, c, x⟩).dst = info.address ∧
    cmd1 (Device.prepare info ⟨0, 0, 0, c, x⟩) = c.toNat / 256 % 256 ∧ cmd2 (Device.prepare info ⟨0, 0, 0, c, x⟩) = c.toNat % 256 ∧
    (isExtended (Device.prepare info ⟨0, 0, 0, c, x⟩).flags ↔ x ≠ []) ∧
    (if x = [] then (Device.prepare info ⟨0, 0, 0, c, x⟩).payload = [] else (Device.prepare info ⟨0, 0, 0, c, x⟩).payload.length = 14) ∧
    (info.engineVersion = 2#64 → x ≠ [] → checksumOk (Device.prepare info ⟨0, 0, 0, c, x⟩)) := by
  obtain ⟨m, h1, h2, h3, h4, -, h6, h7⟩ := sends_command info c x (by rcases hx with rfl | rfl <;> simp) (Option Message)
    ⟨fun s => (s, .panic), fun _ m => (some m, .panic)⟩ none
  have hm : m = Device.prepare info ⟨0, 0, 0, c, x⟩ := by
    have := congrArg Prod.fst h1
    simp only [Device.sendCommand, Device.send, Device.write] at this
    exact (Option.some.inj this).symm
  subst hm
  refine ⟨h2, h3, h4, h6, ?_, fun he hn => ?_⟩
  · by_cases hv : info.engineVersion = 2#64 ∧ x ≠ []
    · rw [if_pos hv] at h7; rw [if_neg hv.2]; exact h7.1
    · rw [if_neg hv] at h7
      rw [h7]
      rcases hx with rfl | rfl <;> simp
  · rw [if_pos ⟨he, hn⟩] at h7; exact h7.2.2

/-- A message to device `d` with data of 14 bytes or none. -/
structure For (p : Premises) (d : Nat) (m : Message) : Prop where
  dst : m.dst = p.net.addr d
  data : if isExtended m.flags then m.payload.length = 14 else m.payload = []

theorem for_prepared (d : Nat) (info : DeviceInfo) (hk : p.Knows d info) (c : Command) (x : Bytes) (hx : x = [] ∨ x = List.replicate 14 0#8) :
    For p d (Device.prepare info ⟨0, 0, 0, c, x⟩) := by
  obtain ⟨h1, -, -, h4, h5, -⟩ := prep_facts info c x hx
  refine ⟨h1.trans hk.address, ?_⟩
  by_cases hn : x = []
  · rw [if_neg (by rw [h4]; simp [hn])]; rw [if_pos hn] at h5; exact h5
  · rw [if_pos (h4.mpr hn)]; rw [if_neg hn] at h5; exact h5

theorem device_frame (hp : p.net.Ok) (d : Nat) (hd : p.who (p.net.addr d) = some d) (m : Message) (hm : For p d m) (n : Net) :
    p.react n (⟨0x62#8, afterSource m, 0#8⟩ : Packet).marshalBinary =
      ((p.obeys n d m).1, line (([], reply m 0x06#8) :: ((p.obeys n d m).2.1 ++ [([], heard (p.answers d m (p.obeys n d m).2.2))]))) := by
  have h24 := hp.addr d
  have hw := hd
  have hd' : BitVec.ofNat 32 ((BitVec.ofNat 8 (m.dst.toNat / 65536)).toNat * 65536 + (BitVec.ofNat 8 (m.dst.toNat / 256)).toNat * 256
      + (BitVec.ofNat 8 m.dst.toNat).toNat) = p.net.addr d := by
    rw [hm.dst]
    apply BitVec.eq_of_toNat_eq
    simp only [BitVec.toNat_ofNat]
    omega
  have hr : requested (afterSource m) = some ⟨0, p.net.addr d, m.flags,
      BitVec.ofNat 64 ((BitVec.ofNat 8 (m.command.toNat / 256)).toNat * 256 + (BitVec.ofNat 8 m.command.toNat).toNat), m.payload⟩ := by
    unfold afterSource addr3
    have hdat := hm.data
    by_cases hx : isExtended m.flags
    · rw [if_pos hx] at hdat ⊢
      rw [fit_id 14 m.payload hdat]
      simp only [List.cons_append, List.nil_append, requested, hd']
    · rw [if_neg hx] at hdat ⊢
      rw [hdat]
      simp only [List.cons_append, List.nil_append, requested, hd']
  have hc1 : cmd1 ⟨0, p.net.addr d, m.flags,
      BitVec.ofNat 64 ((BitVec.ofNat 8 (m.command.toNat / 256)).toNat * 256 + (BitVec.ofNat 8 m.command.toNat).toNat), m.payload⟩ = cmd1 m := by
    simp only [cmd1, BitVec.toNat_ofNat]
    omega
  have hc2 : cmd2 ⟨0, p.net.addr d, m.flags,
      BitVec.ofNat 64 ((BitVec.ofNat 8 (m.command.toNat / 256)).toNat * 256 + (BitVec.ofNat 8 m.command.toNat).toNat), m.payload⟩ = cmd2 m := by
    simp only [cmd2, BitVec.toNat_ofNat]
    omega
  have hob : p.obeys n d ⟨0, p.net.addr d, m.flags,
      BitVec.ofNat 64 ((BitVec.ofNat 8 (m.command.toNat / 256)).toNat * 256 + (BitVec.ofNat 8 m.command.toNat).toNat), m.payload⟩ = p.obeys n d m := by
    have hacc : p.Accepts d ⟨0, p.net.addr d, m.flags,
      BitVec.ofNat 64 ((BitVec.ofNat 8 (m.command.toNat / 256)).toNat * 256 + (BitVec.ofNat 8 m.command.toNat).toNat), m.payload⟩ ↔ p.Accepts d m := by
      simp only [Premises.Accepts, checksumOk, hc1, hc2]
    simp only [Premises.obeys, hc1, hc2, hacc]
  have han : ∀ b, p.answers d ⟨0, p.net.addr d, m.flags,
      BitVec.ofNat 64 ((BitVec.ofNat 8 (m.command.toNat / 256)).toNat * 256 + (BitVec.ofNat 8 m.command.toNat).toNat), m.payload⟩ b = p.answers d m b := by
    intro b
    simp only [Premises.answers, hc1, hc2]
  simp only [Premises.react, Packet.marshalBinary, List.cons_append, List.nil_append, Premises.receive, hr, hw, hob, han]
  simp [reply]

/-- A device that agrees acknowledges. -/
theorem answers_proper (hp : p.net.Ok) (d : Nat) (m : Message) : Proper (p.answers d m true) ∧ (p.answers d m true).src = p.net.addr d ∧
    (p.answers d m true).flags.ack = true ∧ (p.answers d m true).flags.nak = false := by
  simp only [Premises.answers, if_true]
  refine ⟨⟨hp.addr d, hp.addr 0, ?_, ?_⟩, by decide, by decide⟩
  · have h1 : cmd1 m < 256 := by unfold cmd1; omega
    have h2 : cmd2 m < 256 := by unfold cmd2; omega
    rw [show commandClass 0x2f#8 = 0 by decide]
    simp only [BitVec.toNat_ofNat]
    omega
  · rw [if_neg (show ¬ isExtended 0x2f#8 by decide)]

section
variable (hp : p.net.Ok) (retries fuel : Nat)

theorem device_items (m : Message) (its : Items) (ans : Message) (hok : ∀ it ∈ its, Quiet it.1 ∧ it.2.wellFormed) (hh : its.heardOf = []) :
    (∀ it ∈ ([], reply m 0x06#8) :: (its ++ [([], heard ans)]), Quiet it.1 ∧ it.2.wellFormed) ∧
    Items.heardOf (([], reply m 0x06#8) :: (its ++ [([], heard ans)])) = [(heard ans).packet] ∧
    Items.repliesOf (([], reply m 0x06#8) :: (its ++ [([], heard ans)])) = (reply m 0x06#8).packet :: its.repliesOf := by
  have hr : Port.isMsg (reply m 0x06#8).packet = false := by rw [reply_packet]; rfl
  refine ⟨?_, ?_, ?_⟩
  · intro it hit
    simp only [List.mem_cons, List.mem_append, List.not_mem_nil, or_false] at hit
    rcases hit with rfl | h | rfl
    · exact ⟨quiet_nil, reply_wellFormed _ _⟩
    · exact hok _ h
    · exact ⟨quiet_nil, heard_wellFormed _⟩
  · unfold Items.heardOf at hh ⊢
    simp only [List.map_cons, List.map_append, List.map_nil, List.filter_cons, List.filter_append, hr, hh, List.filter_nil, heard_isMsg]
    rfl
  · unfold Items.repliesOf
    simp only [List.map_cons, List.map_append, List.map_nil, List.filter_cons, List.filter_append, hr, List.filter_nil, heard_isMsg]
    simp

/-- The confirmation of a message. -/
theorem answered_reply (m : Message) : answered ⟨0x62#8, afterSource m, 0#8⟩ (reply m 0x06#8).packet = .ret (some (reply m 0x06#8).packet) none := by
  rw [reply_packet]
  simp [answered, Plm.checkAck, Packet.isACK, Packet.isNAK, PCmd.getInfo, PCmd.getConfig, PCmd.sendInsteonMsg]
  rw [if_neg (by omega)]

/-- The confirmation of another message. -/
theorem answered_previous (a b : Bytes) (hne : a ≠ b) :
    answered ⟨0x62#8, b, 0#8⟩ ⟨0x62#8, [0, 0, 0] ++ a, 0x06#8⟩ = .ret (some ⟨0x62#8, [0, 0, 0] ++ a, 0x06#8⟩) (some .wrongPayload) := by
  have h3 : ¬ ([0, 0, 0] ++ a).length < 3 := by simp
  unfold answered Plm.checkAck
  simp only [Packet.isACK, Packet.isNAK, PCmd.getInfo, PCmd.getConfig, PCmd.sendInsteonMsg, if_neg h3]
  simp [hne]

include hp in
/-- Writing to a device that agrees, when the program and the modem are in step. -/
theorem device_write_clean (hf : 1 ≤ fuel) (d : Nat) (hd : p.who (p.net.addr d) = some d) (m : Message) (hm : For p d m) (n : Net) (hb : (p.obeys n d m).2.2 = true)
    (hrep : (p.obeys n d m).2.1 = [] ∨ (p.obeys n d m).2.1 = p.report n d) :
    (Wired.msgIO p.react retries fuel).write ⟨⟨[], [], false⟩, [], n⟩ m =
      (⟨⟨[], (p.obeys n d m).2.1.repliesOf, false⟩, [], (p.obeys n d m).1⟩, .ret (some (p.answers d m true)) none) := by
  have hok : ∀ it ∈ (p.obeys n d m).2.1, Quiet it.1 ∧ it.2.wellFormed := by
    rcases hrep with h | h <;> rw [h]
    · simp
    · exact report_ok n d
  have hh : (p.obeys n d m).2.1.heardOf = [] := by
    rcases hrep with h | h <;> rw [h]
    · rfl
    · exact report_heardOf n d
  have hl : (p.obeys n d m).2.1.repliesOf.length ≤ 1 := by
    rcases hrep with h | h <;> rw [h]
    · simp [Items.repliesOf]
    · rcases report_repliesOf (p := p) n d with h | ⟨x, h⟩ <;> rw [h] <;> simp
  obtain ⟨i1, i2, i3⟩ := device_items m (p.obeys n d m).2.1 (p.answers d m (p.obeys n d m).2.2) hok hh
  have hstep := wired_step p.react [] [] (p.obeys n d m).2.1.repliesOf _ n _ _ (reply m 0x06#8).packet (device_frame hp d hd m hm n) i1
    (by rw [i2]; simp) (by rw [i3]; simp; omega) (by rw [i3]; rfl)
  rw [i2, answered_reply, hb] at hstep
  obtain ⟨hpr, hsrc, hack, hnak⟩ := answers_proper hp d m
  obtain ⟨fuel, rfl⟩ : ∃ k, fuel = k + 1 := ⟨fuel - 1, by omega⟩
  simp only [Wired.msgIO, Plm.write, retryWrite, afterSource_drop, PCmd.sendInsteonMsg]
  rw [show ((retries : Int) + 1).toNat = retries + 1 by omega, retryLoop, hstep]
  dsimp only
  rw [if_neg (by simp [retryable])]
  dsimp only
  rw [Plm.awaitAck]
  have hrx : (Wired.io p.react).rxMsg ⟨⟨[] ++ [(heard (p.answers d m true)).packet], (p.obeys n d m).2.1.repliesOf, false⟩, [], (p.obeys n d m).1⟩ =
      (⟨⟨[], (p.obeys n d m).2.1.repliesOf, false⟩, [], (p.obeys n d m).1⟩, .packet (heard (p.answers d m true)).packet) := rfl
  simp only [Plm.read, hrx, heard_decode _ hpr]
  rw [if_pos ⟨hsrc.trans hm.dst.symm, Or.inl hack⟩, hnak]
  rfl

include hp in
/-- Writing to a device when another packet is waiting that is not its confirmation: the message gets through, the call fails, and packet and acknowledgement wait for
the next one. -/
theorem device_write_stale (d : Nat) (hd : p.who (p.net.addr d) = some d) (m : Message) (hm : For p d m) (n : Net) (hb : (p.obeys n d m).2.2 = true)
    (hrep : (p.obeys n d m).2.1 = []) (mq : List Packet) (hmq : mq.length ≤ 9) (h : Packet) (e : Err)
    (ha : answered ⟨0x62#8, afterSource m, 0#8⟩ h = .ret (some h) (some e)) (he : e = .noAck ∨ e = .wrongAck ∨ e = .wrongPayload) :
    (Wired.msgIO p.react retries fuel).write ⟨⟨mq, [h], false⟩, [], n⟩ m =
      (⟨⟨mq ++ [(heard (p.answers d m true)).packet], [(reply m 0x06#8).packet], false⟩, [], (p.obeys n d m).1⟩, .ret none (some e)) := by
  obtain ⟨i1, i2, i3⟩ := device_items m (p.obeys n d m).2.1 (p.answers d m (p.obeys n d m).2.2) (by rw [hrep]; simp) (by rw [hrep]; rfl)
  have hnil : (p.obeys n d m).2.1.repliesOf = [] := by rw [hrep]; rfl
  have hstep := wired_step p.react mq [h] [(reply m 0x06#8).packet] _ n _ _ h (device_frame hp d hd m hm n) i1
    (by rw [i2]; simp; omega) (by rw [i3, hnil]; simp) (by rw [i3, hnil]; rfl)
  rw [i2, ha, hb] at hstep
  simp only [Wired.msgIO, Plm.write, retryWrite, afterSource_drop, PCmd.sendInsteonMsg]
  rw [show ((retries : Int) + 1).toNat = retries + 1 by omega, retryLoop, hstep]
  dsimp only
  rw [if_neg (by rcases he with rfl | rfl | rfl <;> simp [retryable])]

/-! ### The calls of a party -/

/-- A device with the engine `Knows` says carries out what the program sends it to enter linking mode. -/
theorem obeys_enter (d : Nat) (info : DeviceInfo) (hk : p.Knows d info) (g : Group) (n : Net) (c : Command) (x : Bytes)
    (hc1 : c.toNat / 256 % 256 = 9) (hc2 : c.toNat % 256 = g.toNat) (hx : x = [] ∨ x = List.replicate 14 0#8) (he : info.engineVersion = 2#64 → x ≠ []) :
    p.obeys n d (Device.prepare info ⟨0, 0, 0, c, x⟩) = (n.press p.net d g, p.report n d, true) := by
  obtain ⟨-, h2, h3, h4, -, h6⟩ := prep_facts info c x hx
  have hacc : p.Accepts d (Device.prepare info ⟨0, 0, 0, c, x⟩) := by
    intro hv
    have hv' : info.engineVersion = 2#64 := hk.engine.trans hv
    exact ⟨h4.mpr (he hv'), h6 hv' (he hv')⟩
  unfold Premises.obeys
  rw [h2, h3, hc1, hc2]
  simp only [BitVec.ofNat_toNat, BitVec.setWidth_eq, hacc]
  rfl

theorem obeys_unlink (d : Nat) (info : DeviceInfo) (hk : p.Knows d info) (g : Group) (n : Net) (c : Command) (x : Bytes)
    (hc1 : c.toNat / 256 % 256 = 10) (hc2 : c.toNat % 256 = g.toNat) (hx : x = [] ∨ x = List.replicate 14 0#8) (he : info.engineVersion = 2#64 → x ≠ []) :
    p.obeys n d (Device.prepare info ⟨0, 0, 0, c, x⟩) = ({ n with mode := some (d, g, false) }, [], true) := by
  obtain ⟨-, h2, h3, h4, -, h6⟩ := prep_facts info c x hx
  have hacc : p.Accepts d (Device.prepare info ⟨0, 0, 0, c, x⟩) := by
    intro hv
    have hv' : info.engineVersion = 2#64 := hk.engine.trans hv
    exact ⟨h4.mpr (he hv'), h6 hv' (he hv')⟩
  unfold Premises.obeys
  rw [h2, h3, hc1, hc2]
  simp only [BitVec.ofNat_toNat, BitVec.setWidth_eq, hacc]
  rfl

theorem obeys_exit (d : Nat) (info : DeviceInfo) (n : Net) :
    p.obeys n d (Device.prepare info ⟨0, 0, 0, Cmd.exitLinkingMode, []⟩) = (n.leave d, [], true) := by
  obtain ⟨-, h2, -⟩ := prep_facts info Cmd.exitLinkingMode [] (Or.inl rfl)
  unfold Premises.obeys
  rw [h2, show (Cmd.exitLinkingMode).toNat / 256 % 256 = 8 by decide]
  rfl

theorem sub_command (c : Command) (g : Group) (k : Nat) (hc : c.toNat / 256 % 256 = k) :
    (c.subCommand (g.setWidth 64)).toNat / 256 % 256 = k ∧ (c.subCommand (g.setWidth 64)).toNat % 256 = g.toNat := by
  subst hc
  have hg : (g.setWidth 64).toNat = g.toNat := by rw [BitVec.toNat_setWidth]; omega
  have := g.isLt
  rw [subCommand_toNat, hg]
  omega

include hp in
/-- Sending a command a device agrees to, when the program and the modem are in step. -/
theorem device_send_clean (hf : 1 ≤ fuel) (d : Nat) (info : DeviceInfo) (hk : p.Knows d info) (c : Command) (x : Bytes)
    (hx : x = [] ∨ x = List.replicate 14 0#8) (n n' : Net) (its : Items) (hob : p.obeys n d (Device.prepare info ⟨0, 0, 0, c, x⟩) = (n', its, true))
    (hrep : its = [] ∨ its = p.report n d) :
    Device.sendCommand info (Wired.msgIO p.react retries fuel) ⟨⟨[], [], false⟩, [], n⟩ c x = (⟨⟨[], its.repliesOf, false⟩, [], n'⟩, .ok none) := by
  have h := device_write_clean hp retries fuel hf d hk.found _ (for_prepared d info hk c x hx) n (by rw [hob]) (by rw [hob]; exact hrep)
  rw [hob] at h
  simp only [Device.sendCommand, Device.send, Device.write, h]

include hp in
theorem device_send_stale (d : Nat) (info : DeviceInfo) (hk : p.Knows d info) (c : Command) (x : Bytes)
    (hx : x = [] ∨ x = List.replicate 14 0#8) (n n' : Net) (hob : p.obeys n d (Device.prepare info ⟨0, 0, 0, c, x⟩) = (n', [], true))
    (mq : List Packet) (hmq : mq.length ≤ 9) (h : Packet) (e : Err)
    (ha : answered ⟨0x62#8, afterSource (Device.prepare info ⟨0, 0, 0, c, x⟩), 0#8⟩ h = .ret (some h) (some e))
    (he : e = .noAck ∨ e = .wrongAck ∨ e = .wrongPayload) :
    Device.sendCommand info (Wired.msgIO p.react retries fuel) ⟨⟨mq, [h], false⟩, [], n⟩ c x =
      (⟨⟨mq ++ [(heard (p.answers d (Device.prepare info ⟨0, 0, 0, c, x⟩) true)).packet], [(reply (Device.prepare info ⟨0, 0, 0, c, x⟩) 0x06#8).packet], false⟩,
        [], n'⟩, .ok (some e)) := by
  have h := device_write_stale hp retries fuel d hk.found _ (for_prepared d info hk c x hx) n (by rw [hob]) (by rw [hob]) mq hmq h e ha he
  rw [hob] at h
  simp only [Device.sendCommand, Device.send, Device.write, h]

/-- What a device sends to enter linking mode. -/
theorem device_enter_eq (d : Nat) (info : DeviceInfo) (hk : p.Knows d info) (g : Group) : ∃ c x, (x = [] ∨ x = List.replicate 14 0#8) ∧
    c.toNat / 256 % 256 = 9 ∧
    (∀ w, (p.device retries fuel info).enterLinkingMode w g = Device.sendCommand info (Wired.msgIO p.react retries fuel) w c x) ∧
    ∀ n, p.obeys n d (Device.prepare info ⟨0, 0, 0, c, x⟩) = (n.press p.net d g, p.report n d, true) := by
  have hs : ∀ (w : Wired Net) (c : Command) (x : Bytes), LinkTimed.linkingMode info (Wired.msgIO p.react retries fuel) (fun _ s => s) w c x =
      Device.sendCommand info (Wired.msgIO p.react retries fuel) w c x := by
    intro w c x
    unfold LinkTimed.linkingMode
    rcases Device.sendCommand info (Wired.msgIO p.react retries fuel) w c x with ⟨s, (_ | e) | e | _⟩ <;> rfl
  by_cases hv : info.engineVersion = verI2Cs
  · obtain ⟨s1, s2⟩ := sub_command Cmd.enterLinkingModeExt g 9 (by decide)
    refine ⟨_, _, Or.inr rfl, s1, ?_, fun n => obeys_enter d info hk g n _ _ s1 s2 (Or.inr rfl) (by simp)⟩
    intro w
    show LinkTimed.enterLinkingMode info _ _ w g = _
    unfold LinkTimed.enterLinkingMode
    rw [if_pos hv, hs]
  · obtain ⟨s1, s2⟩ := sub_command Cmd.enterLinkingMode g 9 (by decide)
    refine ⟨_, _, Or.inl rfl, s1, ?_, fun n => obeys_enter d info hk g n _ _ s1 s2 (Or.inl rfl) (fun h => absurd h hv)⟩
    intro w
    show LinkTimed.enterLinkingMode info _ _ w g = _
    unfold LinkTimed.enterLinkingMode
    rw [if_neg hv, hs]

include hp in
theorem party_enter (hf : 1 ≤ fuel) (d : Nat) (P : LinkTimed.Party (Wired Net)) (hP : p.Is retries fuel d P) (g : Group) (n : Net) :
    P.enterLinkingMode ⟨⟨[], [], false⟩, [], n⟩ g = (⟨⟨[], (p.report n d).repliesOf, false⟩, [], n.press p.net d g⟩, .ok none) := by
  rcases hP with ⟨rfl, rfl⟩ | ⟨info, hk, rfl⟩
  · exact modem_enter g n
  · obtain ⟨c, x, hx, -, h1, h2⟩ := device_enter_eq retries fuel d info hk g
    rw [h1, device_send_clean hp retries fuel hf d info hk c x hx n _ _ (h2 n) (Or.inr rfl)]

include hp in
theorem party_unlink (hf : 1 ≤ fuel) (d : Nat) (P : LinkTimed.Party (Wired Net)) (hP : p.Is retries fuel d P) (g : Group) (n : Net) :
    P.enterUnlinkingMode ⟨⟨[], [], false⟩, [], n⟩ g = (⟨⟨[], [], false⟩, [], { n with mode := some (d, g, false) }⟩, .ok none) := by
  rcases hP with ⟨rfl, rfl⟩ | ⟨info, hk, rfl⟩
  · exact modem_unlink g n
  · obtain ⟨s1, s2⟩ := sub_command Cmd.enterUnlinkingMode g 10 (by decide)
    have hx : (if info.engineVersion = verI2Cs then List.replicate 14 0#8 else []) = [] ∨
        (if info.engineVersion = verI2Cs then List.replicate 14 0#8 else []) = List.replicate 14 (0#8 : Byte) := by
      by_cases hv : info.engineVersion = verI2Cs
      · rw [if_pos hv]; exact Or.inr rfl
      · rw [if_neg hv]; exact Or.inl rfl
    have he : info.engineVersion = 2#64 → (if info.engineVersion = verI2Cs then List.replicate 14 (0#8 : Byte) else []) ≠ [] := by
      intro hv; rw [if_pos (show info.engineVersion = verI2Cs from hv)]; simp
    have h := device_send_clean hp retries fuel hf d info hk _ _ hx n _ _ (obeys_unlink d info hk g n _ _ s1 s2 hx he) (Or.inl rfl)
    simp only [Premises.device, LinkTimed.Party.device, LinkTimed.enterUnlinkingMode, LinkTimed.linkingMode, h]
    simp only [Items.repliesOf, List.map_nil, List.filter_nil]

include hp in
theorem party_exit (hf : 1 ≤ fuel) (d : Nat) (P : LinkTimed.Party (Wired Net)) (hP : p.Is retries fuel d P) (n : Net) :
    P.exitLinkingMode ⟨⟨[], [], false⟩, [], n⟩ = (⟨⟨[], [], false⟩, [], n.leave d⟩, .ok none) := by
  rcases hP with ⟨rfl, rfl⟩ | ⟨info, hk, rfl⟩
  · rw [modem_exit n [] [] [] ⟨0x65#8, [], 0x06#8⟩ (by simp) (by simp) rfl, answered_self _ _ (Or.inr rfl)]
    rfl
  · have h := device_send_clean hp retries fuel hf d info hk Cmd.exitLinkingMode [] (Or.inl rfl) n _ _ (obeys_exit d info n) (Or.inl rfl)
    show Device.sendCommand info (Wired.msgIO p.react retries fuel) ⟨⟨[], [], false⟩, [], n⟩ Cmd.exitLinkingMode [] = _
    rw [h]
    rfl

/-- The message that makes a device leave linking mode, its confirmation and its acknowledgement. -/
def exitMsg (info : DeviceInfo) : Message := Device.prepare info ⟨0, 0, 0, Cmd.exitLinkingMode, []⟩
def exitConfirmed (info : DeviceInfo) : Packet := (reply (exitMsg info) 0x06#8).packet
def exitHeard (p : Premises) (d : Nat) (info : DeviceInfo) : Packet := (heard (p.answers d (exitMsg info) true)).packet

include hp in
theorem device_exit_stale (d : Nat) (info : DeviceInfo) (hk : p.Knows d info) (n : Net) (mq : List Packet) (hmq : mq.length ≤ 9) (h : Packet) (e : Err)
    (ha : ∀ x, answered ⟨0x62#8, x, 0#8⟩ h = .ret (some h) (some e)) (he : e = .noAck ∨ e = .wrongAck ∨ e = .wrongPayload) :
    (p.device retries fuel info).exitLinkingMode ⟨⟨mq, [h], false⟩, [], n⟩ =
      (⟨⟨mq ++ [exitHeard p d info], [exitConfirmed info], false⟩, [], n.leave d⟩, .ok (some e)) := by
  have h := device_send_stale hp retries fuel d info hk Cmd.exitLinkingMode [] (Or.inl rfl) n _ (obeys_exit d info n) mq hmq h e (ha _) he
  show Device.sendCommand info (Wired.msgIO p.react retries fuel) ⟨⟨mq, [_], false⟩, [], n⟩ Cmd.exitLinkingMode [] = _
  rw [h]
  rfl
end

/-! ### The session -/

theorem press_waiting (nd : NetDef) (n : Net) (c r : Nat) (hcr : c ≠ r) (g g' : Group) (b : Bool) :
    Net.press nd r g' { n with mode := some (c, g, b) } = if b then n.linked nd c r g else n.unlinked nd c r g := by
  simp only [Net.press, if_neg hcr]
  cases b <;> rfl

theorem linked_mode (nd : NetDef) (n : Net) (c r : Nat) (g : Group) : (n.linked nd c r g).mode = none := rfl
theorem unlinked_mode (nd : NetDef) (n : Net) (c r : Nat) (g : Group) : (n.unlinked nd c r g).mode = none := rfl

theorem leave_none (n : Net) (h : n.mode = none) (d : Nat) : n.leave d = n := by unfold Net.leave; rw [h]

theorem press_waiting_mode (nd : NetDef) (n : Net) (c r : Nat) (hcr : c ≠ r) (g g' : Group) (b : Bool) :
    (Net.press nd r g' { n with mode := some (c, g, b) }).mode = none := by
  rw [press_waiting nd n c r hcr g g' b]; cases b <;> rfl

theorem report_silent (n : Net) (c r : Nat) (g : Group) (b : Bool) (h : p.reports = false ∨ (c ≠ 0 ∧ r ≠ 0)) :
    p.report { n with mode := some (c, g, b) } r = [] := by
  unfold Premises.report
  dsimp only
  rw [if_neg]
  rintro ⟨h1, -, h3⟩
  rcases h with h | h
  · rw [h] at h1; exact absurd h1 (by decide)
  · rcases h3 with h3 | h3
    · exact h.1 h3
    · exact h.2 h3

theorem report_given (n : Net) (c r : Nat) (hcr : c ≠ r) (g : Group) (b : Bool) (h : p.reports = true) (h0 : c = 0 ∨ r = 0) :
    ∃ x : Bytes, (p.report { n with mode := some (c, g, b) } r).repliesOf = [⟨0x53#8, x, 0#8⟩] := by
  unfold Premises.report
  dsimp only
  rw [if_pos ⟨h, hcr, h0⟩]
  exact ⟨_, rfl⟩

section
variable (hp : p.net.Ok) (retries fuel : Nat) (hf : 1 ≤ fuel)

include hp hf in
theorem session_clean (c r : Nat) (hcr : c ≠ r) (C R : LinkTimed.Party (Wired Net)) (hC : p.Is retries fuel c C) (hR : p.Is retries fuel r R) (g : Group) (b : Bool)
    (n : Net) (hs : p.reports = false ∨ (c ≠ 0 ∧ r ≠ 0)) :
    LinkTimed.session g C R ⟨⟨[], [], false⟩, [], { n with mode := some (c, g, b) }⟩ =
      (⟨⟨[], [], false⟩, [], Net.press p.net r g { n with mode := some (c, g, b) }⟩, .ok none) := by
  have hm := press_waiting_mode p.net n c r hcr g g b
  simp only [LinkTimed.session, party_enter hp retries fuel hf r R hR, report_silent n c r g b hs,
    show Items.repliesOf [] = [] from rfl, party_exit hp retries fuel hf c C hC, party_exit hp retries fuel hf r R hR, leave_none _ hm]

include hp hf in
theorem session_modem_first (r : Nat) (info : DeviceInfo) (hk : p.Knows r info) (g : Group) (b : Bool) (n : Net) (hs : p.reports = true) :
    LinkTimed.session g p.modem (p.device retries fuel info) ⟨⟨[], [], false⟩, [], { n with mode := some (0, g, b) }⟩ =
      (⟨⟨[exitHeard p r info], [exitConfirmed info], false⟩, [], Net.press p.net r g { n with mode := some (0, g, b) }⟩, .ok none) := by
  have hcr : 0 ≠ r := Ne.symm hk.ne
  have hm := press_waiting_mode p.net n 0 r hcr g g b
  obtain ⟨x, hx⟩ := report_given (p := p) n 0 r hcr g b hs (Or.inl rfl)
  have h1 := party_enter hp retries fuel hf r _ (Or.inr ⟨info, hk, rfl⟩) g { n with mode := some (0, g, b) }
  have h2 := modem_exit (p := p) (Net.press p.net r g { n with mode := some (0, g, b) }) [] [⟨0x53#8, x, 0#8⟩] _ _ (by simp) (by simp) rfl
  have h3 := device_exit_stale hp retries fuel r info hk (Net.press p.net r g { n with mode := some (0, g, b) }) [] (by simp) ⟨0x65#8, [], 0x06#8⟩ .wrongAck
    (fun y => answered_other _ _ (by decide) rfl (show (0x65#8 : Byte) ≠ 0x62#8 by decide)) (by simp)
  rw [hx] at h1
  rw [answered_report, leave_none _ hm, show List.append [] [(⟨0x65#8, [], 0x06#8⟩ : Packet)] = [⟨0x65#8, [], 0x06#8⟩] from rfl] at h2
  rw [leave_none _ hm] at h3
  simp only [LinkTimed.session, h1, h2, PRes.error, h3, List.nil_append]

include hp hf in
theorem session_device_first (c : Nat) (info : DeviceInfo) (hk : p.Knows c info) (g : Group) (b : Bool) (n : Net) (hs : p.reports = true) :
    LinkTimed.session g (p.device retries fuel info) p.modem ⟨⟨[], [], false⟩, [], { n with mode := some (c, g, b) }⟩ =
      (⟨⟨[exitHeard p c info], [⟨0x65#8, [], 0x06#8⟩], false⟩, [], Net.press p.net 0 g { n with mode := some (c, g, b) }⟩, .ok none) := by
  have hcr : c ≠ 0 := hk.ne
  have hm := press_waiting_mode p.net n c 0 hcr g g b
  obtain ⟨x, hx⟩ := report_given (p := p) n c 0 hcr g b hs (Or.inr rfl)
  have h1 := party_enter hp retries fuel hf 0 _ (Or.inl ⟨rfl, rfl⟩) g { n with mode := some (c, g, b) }
  have h2 := device_exit_stale hp retries fuel c info hk (Net.press p.net 0 g { n with mode := some (c, g, b) }) [] (by simp) ⟨0x53#8, x, 0#8⟩ .noAck
    (fun y => answered_report _ _) (by simp)
  have h3 := modem_exit (p := p) (Net.press p.net 0 g { n with mode := some (c, g, b) }) [exitHeard p c info] [exitConfirmed info] _ _ (by simp) (by simp) rfl
  rw [hx] at h1
  rw [leave_none _ hm] at h2
  rw [answered_other _ _ (by rw [exitConfirmed, reply_packet]; show 0x60 ≤ (0x62#8 : Byte).toNat; decide) (by rw [exitConfirmed, reply_packet])
    (by rw [exitConfirmed, reply_packet]; show (0x62#8 : Byte) ≠ 0x65#8; decide),
    leave_none _ hm, show List.append [] [(⟨0x65#8, [], 0x06#8⟩ : Packet)] = [⟨0x65#8, [], 0x06#8⟩] from rfl] at h3
  simp only [LinkTimed.session, h1, h2, PRes.error, h3, List.nil_append]

include hp hf in
/-- The session whoever takes part. -/
theorem session_any (c r : Nat) (hcr : c ≠ r) (C R : LinkTimed.Party (Wired Net)) (hC : p.Is retries fuel c C) (hR : p.Is retries fuel r R) (g : Group) (b : Bool)
    (n : Net) : ∃ w', LinkTimed.session g C R ⟨⟨[], [], false⟩, [], { n with mode := some (c, g, b) }⟩ = (w', .ok none) ∧
      w'.dev = Net.press p.net r g { n with mode := some (c, g, b) } ∧ (p.reports = false ∨ (c ≠ 0 ∧ r ≠ 0) → InStep w') := by
  by_cases hs : p.reports = false ∨ (c ≠ 0 ∧ r ≠ 0)
  · exact ⟨_, session_clean hp retries fuel hf c r hcr C R hC hR g b n hs, rfl, fun _ => ⟨rfl, rfl⟩⟩
  · have hr : p.reports = true := by
      cases h : p.reports
      · exact absurd (Or.inl h) hs
      · rfl
    rcases hC with ⟨rfl, rfl⟩ | ⟨ic, hkc, rfl⟩
    · rcases hR with ⟨rfl, rfl⟩ | ⟨ir, hkr, rfl⟩
      · exact absurd rfl hcr
      · exact ⟨_, session_modem_first hp retries fuel hf r ir hkr g b n hr, rfl, fun h => absurd h hs⟩
    · rcases hR with ⟨rfl, rfl⟩ | ⟨ir, hkr, rfl⟩
      · exact ⟨_, session_device_first hp retries fuel hf c ic hkc g b n hr, rfl, fun h => absurd h hs⟩
      · exact absurd (Or.inr ⟨hkc.ne, hkr.ne⟩) hs

omit hp hf in
theorem exit_differs (info : DeviceInfo) (c : Command) (x : Bytes) (hx : x = [] ∨ x = List.replicate 14 0#8) (hc : c.toNat / 256 % 256 ≠ 8) :
    afterSource (exitMsg info) ≠ afterSource (Device.prepare info ⟨0, 0, 0, c, x⟩) := by
  intro h
  obtain ⟨-, a1, -⟩ := prep_facts info Cmd.exitLinkingMode [] (Or.inl rfl)
  obtain ⟨-, b1, -⟩ := prep_facts info c x hx
  have k1 : ∀ m : Message, (afterSource m)[4]? = some (BitVec.ofNat 8 (cmd1 m)) := by
    intro m
    simp only [afterSource, addr3, cmd1, List.cons_append, List.nil_append, List.getElem?_cons_succ, List.getElem?_cons_zero]
    congr 1
    apply BitVec.eq_of_toNat_eq
    simp only [BitVec.toNat_ofNat]
    omega
  have := k1 (exitMsg info)
  rw [h, k1, b1, exitMsg, a1, show (Cmd.exitLinkingMode).toNat / 256 % 256 = 8 by decide] at this
  have := congrArg BitVec.toNat (Option.some.inj this)
  simp only [BitVec.toNat_ofNat] at this
  omega

/-! ### C200 -/

include hp hf in
/-- Linking two parties over the serial line, when nothing is waiting to be read and nobody is waiting for a partner, succeeds, and makes the link. When the modem does
not report links or is not one of the two, nothing is left waiting to be read. -/
theorem line_link (c r : Nat) (hcr : c ≠ r) (C R : LinkTimed.Party (Wired Net)) (hC : p.Is retries fuel c C) (hR : p.Is retries fuel r R) (g : Group)
    (w : Wired Net) (hw : InStep w) (hm : w.dev.mode = none) :
    ∃ w', LinkTimed.forceLink g C R w = (w', .ok none) ∧ w'.dev = w.dev.linked p.net c r g ∧ (p.reports = false ∨ (c ≠ 0 ∧ r ≠ 0) → InStep w') := by
  obtain ⟨port, wire, n⟩ := w
  obtain ⟨rfl, rfl⟩ : port = ⟨[], [], false⟩ ∧ wire = [] := hw
  have hrep : p.report n c = [] := by unfold Premises.report; rw [show n.mode = none from hm]
  have hpr : n.press p.net c g = { n with mode := some (c, g, true) } := by unfold Net.press; rw [show n.mode = none from hm]
  have h1 := party_enter hp retries fuel hf c C hC g n
  rw [hrep, hpr] at h1
  obtain ⟨w', h2, h3, h4⟩ := session_any hp retries fuel hf c r hcr C R hC hR g true n
  refine ⟨w', ?_, ?_, h4⟩
  · simp only [LinkTimed.forceLink, h1, show Items.repliesOf [] = [] from rfl, h2]
  · rw [h3, press_waiting p.net n c r hcr g g true]; rfl

include hp hf in
/-- The same for unlinking. -/
theorem line_unlink (c r : Nat) (hcr : c ≠ r) (C R : LinkTimed.Party (Wired Net)) (hC : p.Is retries fuel c C) (hR : p.Is retries fuel r R) (g : Group)
    (w : Wired Net) (hw : InStep w) :
    ∃ w', LinkTimed.unlink g C R w = (w', .ok none) ∧ w'.dev = w.dev.unlinked p.net c r g ∧ (p.reports = false ∨ (c ≠ 0 ∧ r ≠ 0) → InStep w') := by
  obtain ⟨port, wire, n⟩ := w
  obtain ⟨rfl, rfl⟩ : port = ⟨[], [], false⟩ ∧ wire = [] := hw
  have h1 := party_unlink hp retries fuel hf c C hC g n
  obtain ⟨w', h2, h3, h4⟩ := session_any hp retries fuel hf c r hcr C R hC hR g false n
  refine ⟨w', ?_, ?_, h4⟩
  · simp only [LinkTimed.unlink, h1, h2]
  · rw [h3, press_waiting p.net n c r hcr g g false]; rfl

include hp in
/-- What has become of the databases: both parties have their half-links, no record in use is lost, only half-links have come, and nobody else is concerned. -/
theorem linked_network (c r : Nat) (hcr : c ≠ r) (g : Group) (n : Net) :
    (n.linked p.net c r g).Has c true (p.net.addr r) g ∧ (n.linked p.net c r g).Has r false (p.net.addr c) g ∧
    (∀ d, ∀ x ∈ n.db d, inUseBit x.flags → x ∈ (n.linked p.net c r g).db d) ∧
    (∀ d, ∀ x ∈ (n.linked p.net c r g).db d, inUseBit x.flags → x ∈ n.db d ∨ (d = c ∧ HalfLink true (p.net.addr r) g x) ∨ (d = r ∧ HalfLink false (p.net.addr c) g x)) ∧
    (∀ d, d ≠ c → d ≠ r → (n.linked p.net c r g).db d = n.db d) ∧ (n.linked p.net c r g).mode = none := by
  have hc : (n.linked p.net c r g).db c = p.net.install (n.db c) (p.net.record true g (p.net.addr r)) := by simp [Net.linked, Net.setDb, hcr]
  have hr : (n.linked p.net c r g).db r = p.net.install (n.db r) (p.net.record false g (p.net.addr c)) := by simp [Net.linked, Net.setDb]
  have ho : ∀ d, d ≠ c → d ≠ r → (n.linked p.net c r g).db d = n.db d := by intro d h1 h2; simp [Net.linked, Net.setDb, h1, h2]
  have r1 := hp.record true g (p.net.addr r)
  have r2 := hp.record false g (p.net.addr c)
  have u1 : inUseBit (p.net.record true g (p.net.addr r)).flags := r1.1
  have u2 : inUseBit (p.net.record false g (p.net.addr c)).flags := r2.1
  refine ⟨⟨_, ?_, r1⟩, ⟨_, ?_, r2⟩, ?_, ?_, ho, rfl⟩
  · rw [hc]; exact (hp.install _ _ _ u1 u1).mpr (Or.inl rfl)
  · rw [hr]; exact (hp.install _ _ _ u2 u2).mpr (Or.inl rfl)
  · intro d x hx hu
    by_cases h1 : d = c
    · subst h1; rw [hc]; exact (hp.install _ _ _ hu u1).mpr (Or.inr hx)
    · by_cases h2 : d = r
      · subst h2; rw [hr]; exact (hp.install _ _ _ hu u2).mpr (Or.inr hx)
      · rw [ho d h1 h2]; exact hx
  · intro d x hx hu
    by_cases h1 : d = c
    · subst h1
      rw [hc] at hx
      rcases (hp.install _ _ _ hu u1).mp hx with rfl | h
      · exact Or.inr (Or.inl ⟨rfl, r1⟩)
      · exact Or.inl h
    · by_cases h2 : d = r
      · subst h2
        rw [hr] at hx
        rcases (hp.install _ _ _ hu u2).mp hx with rfl | h
        · exact Or.inr (Or.inr ⟨rfl, r2⟩)
        · exact Or.inl h
      · rw [ho d h1 h2] at hx; exact Or.inl hx

omit hf hp in
/-- After unlinking neither of the two has its half-link, every other record is as it was, and nobody else is concerned. -/
theorem unlinked_network (c r : Nat) (hcr : c ≠ r) (g : Group) (n : Net) :
    ¬ (n.unlinked p.net c r g).Has c true (p.net.addr r) g ∧ ¬ (n.unlinked p.net c r g).Has r false (p.net.addr c) g ∧
    (∀ d, ∀ x, inUseBit x.flags → (x ∈ (n.unlinked p.net c r g).db d ↔
      x ∈ n.db d ∧ ¬ (d = c ∧ HalfLink true (p.net.addr r) g x) ∧ ¬ (d = r ∧ HalfLink false (p.net.addr c) g x))) ∧
    (n.unlinked p.net c r g).mode = none := by
  have hc : (n.unlinked p.net c r g).db c = freeHalf true (p.net.addr r) g (n.db c) := by simp [Net.unlinked, Net.setDb, hcr]
  have hr : (n.unlinked p.net c r g).db r = freeHalf false (p.net.addr c) g (n.db r) := by simp [Net.unlinked, Net.setDb]
  have ho : ∀ d, d ≠ c → d ≠ r → (n.unlinked p.net c r g).db d = n.db d := by intro d h1 h2; simp [Net.unlinked, Net.setDb, h1, h2]
  have hfree : ∀ (b : Bool) a db x, inUseBit x.flags → (x ∈ freeHalf b a g db ↔ x ∈ db ∧ ¬ HalfLink b a g x) :=
    fun b a db x hu => freeHalf_mem b a g db x hu
  have hall : ∀ d, ∀ x, inUseBit x.flags → (x ∈ (n.unlinked p.net c r g).db d ↔
      x ∈ n.db d ∧ ¬ (d = c ∧ HalfLink true (p.net.addr r) g x) ∧ ¬ (d = r ∧ HalfLink false (p.net.addr c) g x)) := by
    intro d x hu
    by_cases h1 : d = c
    · subst h1; rw [hc, hfree _ _ _ _ hu]; simp [hcr]
    · by_cases h2 : d = r
      · subst h2; rw [hr, hfree _ _ _ _ hu]; simp [h1]
      · rw [ho d h1 h2]; simp [h1, h2]
  refine ⟨?_, ?_, hall, rfl⟩
  · rintro ⟨l, h1, h2⟩
    exact ((hall c l h2.1).mp h1).2.1 ⟨rfl, h2⟩
  · rintro ⟨l, h1, h2⟩
    exact ((hall r l h2.1).mp h1).2.2 ⟨rfl, h2⟩

include hp hf in
/-- `plm crosslink` with a modem that does not report links: both links are made, and nothing is left waiting to be read. -/
theorem crosslink_partial (hs : p.reports = false) (d : Nat) (info : DeviceInfo) (hk : p.Knows d info) (g : Group) (w : Wired Net) (hw : InStep w)
    (hm : w.dev.mode = none) :
    ∃ w', LinkTimed.linkBoth true true g p.modem (p.device retries fuel info) w = (w', .ok none) ∧
      w'.dev = (w.dev.linked p.net 0 d g).linked p.net d 0 g ∧ InStep w' := by
  obtain ⟨w1, h1, h2, h3⟩ := line_link hp retries fuel hf 0 d (Ne.symm hk.ne) _ _ (Or.inl ⟨rfl, rfl⟩) (Or.inr ⟨info, hk, rfl⟩) g w hw hm
  obtain ⟨w2, k1, k2, k3⟩ := line_link hp retries fuel hf d 0 hk.ne _ _ (Or.inr ⟨info, hk, rfl⟩) (Or.inl ⟨rfl, rfl⟩) g w1 (h3 (Or.inl hs)) (by rw [h2]; rfl)
  refine ⟨w2, ?_, by rw [k2, h2], k3 (Or.inl hs)⟩
  simp only [LinkTimed.linkBoth, if_true, h1, k1]

include hp hf in
/-- With a modem that reports links it is not so, whatever the device, the group and the links there are: the second link is not made, the call fails, and the device is
left waiting in linking mode. -/
theorem crosslink_refuted (hs : p.reports = true) (d : Nat) (info : DeviceInfo) (hk : p.Knows d info) (g : Group) (w : Wired Net) (hw : InStep w)
    (hm : w.dev.mode = none) :
    ∃ w', LinkTimed.linkBoth true true g p.modem (p.device retries fuel info) w = (w', .ok (some .wrongPayload)) ∧
      w'.dev.db = (w.dev.linked p.net 0 d g).db ∧ w'.dev.mode = some (d, g, true) := by
  obtain ⟨port, wire, n⟩ := w
  obtain ⟨rfl, rfl⟩ : port = ⟨[], [], false⟩ ∧ wire = [] := hw
  have hrep : p.report n 0 = [] := by unfold Premises.report; rw [show n.mode = none from hm]
  have hpr : n.press p.net 0 g = { n with mode := some (0, g, true) } := by unfold Net.press; rw [show n.mode = none from hm]
  have h1 := party_enter hp retries fuel hf 0 _ (Or.inl ⟨rfl, rfl⟩) g n
  rw [hrep, hpr] at h1
  have h2 := session_modem_first hp retries fuel hf d info hk g true n hs
  rw [press_waiting p.net n 0 d (Ne.symm hk.ne) g g true] at h2
  simp only [if_true] at h2
  obtain ⟨c, x, hx, hc, e1, e2⟩ := device_enter_eq retries fuel d info hk g
  have hob := e2 (n.linked p.net 0 d g)
  rw [show p.report (n.linked p.net 0 d g) d = [] from rfl] at hob
  have hne := exit_differs info c x hx (by rw [hc]; decide)
  have h3 := device_send_stale hp retries fuel d info hk c x hx _ _ hob [exitHeard p d info] (by simp) (exitConfirmed info) .wrongPayload
    (by rw [exitConfirmed, reply_packet]; exact answered_previous _ _ hne) (by simp)
  rw [← e1] at h3
  simp only [LinkTimed.linkBoth, if_true, LinkTimed.forceLink, h1, show Items.repliesOf [] = [] from rfl, h2, h3]
  exact ⟨_, rfl, rfl, rfl⟩

/-- A command of the modem that it confirms at once. -/
theorem modem_step (pkt : Packet) (c : Byte) (y : Bytes) (n n' : Net) (hr : p.react n pkt.marshalBinary = (n', line [([], ⟨c, y ++ [0x06#8]⟩)]))
    (hpk : (⟨c, y ++ [0x06#8]⟩ : Frame).packet = ⟨c, y, 0x06#8⟩) (hmsg : Port.isMsg ⟨c, y, 0x06#8⟩ = false)
    (hwf : (⟨c, y ++ [0x06#8]⟩ : Frame).wellFormed) (mq pq t : List Packet) (h : Packet) (hm : mq.length ≤ 9) (hq : pq.length ≤ 9)
    (hh : pq ++ [⟨c, y, 0x06#8⟩] = h :: t) :
    Plm.writePacket (Wired.io p.react) ⟨⟨mq, pq, false⟩, [], n⟩ pkt = (⟨⟨mq, t, false⟩, [], n'⟩, answered pkt h) := by
  have e1 : Items.heardOf [([], ⟨c, y ++ [0x06#8]⟩)] = [] := by simp [Items.heardOf, hpk, hmsg]
  have e2 : Items.repliesOf [([], ⟨c, y ++ [0x06#8]⟩)] = [⟨c, y, 0x06#8⟩] := by simp [Items.repliesOf, hpk, hmsg]
  have := wired_step p.react mq pq t _ n _ _ h hr (by intro it hit; simp only [List.mem_singleton] at hit; subst hit; exact ⟨quiet_nil, hwf⟩)
    (by rw [e1]; simp; omega) (by rw [e2]; simp; omega) (by rw [e2]; exact hh)
  rw [this, e1, List.append_nil]

/-- What a call that asks the modem something sends, what comes back, and what the call makes of it. -/
structure AskedModem (p : Premises) (n : Net) (retries : Nat) (call : ModemCall) (pkt : Packet) (c : Byte) (y : Bytes) : Prop where
  react : ∃ n', p.react n pkt.marshalBinary = (n', line [([], ⟨c, y ++ [0x06#8]⟩)])
  packet : (⟨c, y ++ [0x06#8]⟩ : Frame).packet = ⟨c, y, 0x06#8⟩
  msg : Port.isMsg ⟨c, y, 0x06#8⟩ = false
  wf : (⟨c, y ++ [0x06#8]⟩ : Frame).wellFormed
  cmd : pkt.command = c ∧ c ≠ 0x62#8 ∧ c ≠ 0x65#8
  good : answered pkt ⟨c, y, 0x06#8⟩ = .ret (some ⟨c, y, 0x06#8⟩) none
  ok : ∀ w w' : Wired Net, Plm.writePacket (Wired.io p.react) w pkt = (w', .ret (some ⟨c, y, 0x06#8⟩) none) →
    (call.exec (Wired.io p.react) retries w).2 = .ok none
  bad : ∀ (w w' : Wired Net) h, Plm.writePacket (Wired.io p.react) w pkt = (w', .ret (some h) (some .wrongAck)) →
    (call.exec (Wired.io p.react) retries w).2 = .ok (some .wrongAck)

theorem retry_settled (w : Wired Net → Packet → Wired Net × PRes) (retries : Nat) (s s' : Wired Net) (pkt : Packet) (a : Option Packet) (e : Option Err)
    (h : w s pkt = (s', .ret a e)) (he : e = none ∨ e = some .wrongAck) : retryWrite w retries true s pkt = (s', .ret a e) := by
  unfold retryWrite
  rw [show ((retries : Int) + 1).toNat = retries + 1 by omega, retryLoop, h]
  dsimp only
  rw [if_neg (by rcases he with rfl | rfl <;> simp [retryable])]

theorem asked_modem (n : Net) (hm : n.mode = none) (retries : Nat) (call : ModemCall) (ha : AsksModem call) : ∃ pkt c y, AskedModem p n retries call pkt c y := by
  cases call with
  | info =>
    refine ⟨⟨0x60#8, [], 0#8⟩, 0x60#8, addr3 (p.net.addr 0) ++ [(p.product 0).1, (p.product 0).2.1, (p.product 0).2.2], ⟨n, rfl⟩, rfl, rfl, ?_, ⟨rfl, by decide, by decide⟩, ?_,
      ?_, ?_⟩
    · simp [Frame.wellFormed, lengthTable, addr3]
    · simp [answered, Plm.checkAck, Packet.isACK, Packet.isNAK, PCmd.getInfo]
    · intro w w' h
      have := retry_settled _ retries _ _ _ _ _ h (Or.inl rfl)
      simp only [ModemCall.exec, Plm.info, PCmd.getInfo, this]
      rfl
    · intro w w' x h
      have := retry_settled _ retries _ _ _ _ _ h (Or.inr rfl)
      simp only [ModemCall.exec, Plm.info, PCmd.getInfo, this]
      rfl
  | config =>
    refine ⟨⟨0x73#8, [], 0#8⟩, 0x73#8, [0x00#8, 0x00#8, 0x00#8], ⟨n, rfl⟩, rfl, rfl, ?_, ⟨rfl, by decide, by decide⟩, ?_, ?_, ?_⟩
    · simp [Frame.wellFormed, lengthTable]
    · simp [answered, Plm.checkAck, Packet.isACK, Packet.isNAK, PCmd.getInfo, PCmd.getConfig]
    · intro w w' h
      have := retry_settled _ retries _ _ _ _ _ h (Or.inl rfl)
      simp only [ModemCall.exec, Plm.config, PCmd.getConfig, this]
      rfl
    · intro w w' x h
      have := retry_settled _ retries _ _ _ _ _ h (Or.inr rfl)
      simp only [ModemCall.exec, Plm.config, PCmd.getConfig, this]
      rfl
  | setConfig v =>
    refine ⟨⟨0x6b#8, v.marshalBinary, 0#8⟩, 0x6b#8, v.marshalBinary, ⟨n, rfl⟩, rfl, rfl, ?_, ⟨rfl, by decide, by decide⟩, ?_, ?_, ?_⟩
    · simp [Frame.wellFormed, lengthTable, Config.marshalBinary]
    · simp [answered, Plm.checkAck, Packet.isACK, Packet.isNAK, PCmd.getInfo, PCmd.getConfig, PCmd.sendInsteonMsg]
    · intro w w' h
      have := retry_settled _ retries _ _ _ _ _ h (Or.inl rfl)
      simp only [ModemCall.exec, Plm.setConfig, PCmd.setConfig, this]
    · intro w w' x h
      have := retry_settled _ retries _ _ _ _ _ h (Or.inr rfl)
      simp only [ModemCall.exec, Plm.setConfig, PCmd.setConfig, this]
  | enterLinking g =>
    refine ⟨⟨0x64#8, [0x03#8, g], 0#8⟩, 0x64#8, [0x03#8, g], ⟨n.press p.net 0 g, ?_⟩, rfl, rfl, (frame64_ok _ _).2, ⟨rfl, by decide, by decide⟩, answered_self _ _ (Or.inl rfl), ?_, ?_⟩
    · rw [modem_enter_frame]; unfold Premises.report; rw [hm]; rfl
    · intro w w' h
      have : PlmLinks.enterLinkingMode (Plm.asWriter (Wired.io p.react)) w g = _ := h
      simp only [ModemCall.exec, this, PRes.error]
    · intro w w' x h
      have : PlmLinks.enterLinkingMode (Plm.asWriter (Wired.io p.react)) w g = _ := h
      simp only [ModemCall.exec, this, PRes.error]
  | enterUnlinking g =>
    refine ⟨⟨0x64#8, [0xff#8, g], 0#8⟩, 0x64#8, [0xff#8, g], ⟨_, modem_unlink_frame g n⟩, rfl, rfl, (frame64_ok _ _).2, ⟨rfl, by decide, by decide⟩,
      answered_self _ _ (Or.inl rfl), ?_, ?_⟩
    · intro w w' h
      have : PlmLinks.enterUnlinkingMode (Plm.asWriter (Wired.io p.react)) w g = _ := h
      simp only [ModemCall.exec, this, PRes.error]
    · intro w w' x h
      have : PlmLinks.enterUnlinkingMode (Plm.asWriter (Wired.io p.react)) w g = _ := h
      simp only [ModemCall.exec, this, PRes.error]
  | _ => exact ha.elim

/-- Every call that asks the modem something succeeds as long as nothing is left waiting to be read. -/
theorem next_call (w : Wired Net) (hw : InStep w) (hm : w.dev.mode = none) (call : ModemCall) (ha : AsksModem call) :
    (call.exec (Wired.io p.react) retries w).2 = .ok none := by
  obtain ⟨port, wire, n⟩ := w
  obtain ⟨rfl, rfl⟩ : port = ⟨[], [], false⟩ ∧ wire = [] := hw
  obtain ⟨pkt, c, y, k⟩ := asked_modem (p := p) n hm retries call ha
  obtain ⟨n', hr⟩ := k.react
  have := modem_step pkt c y n n' hr k.packet k.msg k.wf [] [] [] _ (by simp) (by simp) rfl
  rw [k.good] at this
  exact k.ok _ _ this

theorem stale_call (n : Net) (hm : n.mode = none) (mq : List Packet) (hmq : mq.length ≤ 9) (h : Packet) (hh : h.command = 0x62#8 ∨ h.command = 0x65#8) (hack : h.ack = 0x06#8)
    (call : ModemCall) (ha : AsksModem call) :
    (call.exec (Wired.io p.react) retries ⟨⟨mq, [h], false⟩, [], n⟩).2 = .ok (some .wrongAck) := by
  obtain ⟨pkt, c, y, k⟩ := asked_modem (p := p) n hm retries call ha
  obtain ⟨n', hr⟩ := k.react
  have := modem_step pkt c y n n' hr k.packet k.msg k.wf mq [h] _ _ hmq (by simp) rfl
  rw [answered_other _ _ (by rcases hh with e | e <;> rw [e] <;> decide) hack
    (by rw [k.cmd.1]; rcases hh with e | e <;> rw [e]; exacts [Ne.symm k.cmd.2.1, Ne.symm k.cmd.2.2])] at this
  exact k.bad _ _ _ this

include hp hf in
/-- But the call after the modem has been linked with a device, when it reports links, fails although the modem has done what it was told. -/
theorem next_call_refuted (hs : p.reports = true) (c r : Nat) (hcr : c ≠ r) (h0 : c = 0 ∨ r = 0) (C R : LinkTimed.Party (Wired Net)) (hC : p.Is retries fuel c C)
    (hR : p.Is retries fuel r R) (g : Group) (w : Wired Net) (hw : InStep w) (hm : w.dev.mode = none) (call : ModemCall) (ha : AsksModem call) :
    ∃ w', LinkTimed.forceLink g C R w = (w', .ok none) ∧ (call.exec (Wired.io p.react) retries w').2 = .ok (some .wrongAck) := by
  obtain ⟨port, wire, n⟩ := w
  obtain ⟨rfl, rfl⟩ : port = ⟨[], [], false⟩ ∧ wire = [] := hw
  have hrep : p.report n c = [] := by unfold Premises.report; rw [show n.mode = none from hm]
  have hpr : n.press p.net c g = { n with mode := some (c, g, true) } := by unfold Net.press; rw [show n.mode = none from hm]
  have h1 := party_enter hp retries fuel hf c C hC g n
  rw [hrep, hpr] at h1
  simp only [LinkTimed.forceLink, h1, show Items.repliesOf [] = [] from rfl]
  rcases hC with ⟨rfl, rfl⟩ | ⟨ic, hkc, rfl⟩
  · rcases hR with ⟨rfl, rfl⟩ | ⟨ir, hkr, rfl⟩
    · exact absurd rfl hcr
    · refine ⟨_, session_modem_first hp retries fuel hf r ir hkr g true n hs, ?_⟩
      exact stale_call retries _ (press_waiting_mode p.net n 0 r hcr g g true) _ (by simp) _ (Or.inl (by rw [exitConfirmed, reply_packet]))
        (by rw [exitConfirmed, reply_packet]) call ha
  · rcases hR with ⟨rfl, rfl⟩ | ⟨ir, hkr, rfl⟩
    · refine ⟨_, session_device_first hp retries fuel hf c ic hkc g true n hs, ?_⟩
      exact stale_call retries _ (press_waiting_mode p.net n c 0 hcr g g true) _ (by simp) _ (Or.inr rfl) rfl call ha
    · rcases h0 with h | h
      · exact absurd h hkc.ne
      · exact absurd h hkr.ne

include hp hf in
/-- So does the next command for the device that has just been linked, whatever it is. -/
theorem next_message_refuted (hs : p.reports = true) (d : Nat) (info : DeviceInfo) (hk : p.Knows d info) (g : Group) (w : Wired Net) (hw : InStep w)
    (hm : w.dev.mode = none) (c : Command) (hc : c.toNat / 256 % 256 ≠ 0x08) (hc9 : c.toNat / 256 % 256 ≠ 0x09) (hca : c.toNat / 256 % 256 ≠ 0x0a) (x : Bytes)
    (hx : x = [] ∨ x = List.replicate 14 0#8) :
    ∃ w', LinkTimed.forceLink g p.modem (p.device retries fuel info) w = (w', .ok none) ∧
      (Device.sendCommand info (Wired.msgIO p.react retries fuel) w' c x).2 = .ok (some .wrongPayload) := by
  obtain ⟨port, wire, n⟩ := w
  obtain ⟨rfl, rfl⟩ : port = ⟨[], [], false⟩ ∧ wire = [] := hw
  have hrep : p.report n 0 = [] := by unfold Premises.report; rw [show n.mode = none from hm]
  have hpr : n.press p.net 0 g = { n with mode := some (0, g, true) } := by unfold Net.press; rw [show n.mode = none from hm]
  have h1 := party_enter hp retries fuel hf 0 _ (Or.inl ⟨rfl, rfl⟩) g n
  rw [hrep, hpr] at h1
  have h2 := session_modem_first hp retries fuel hf d info hk g true n hs
  simp only [LinkTimed.forceLink, h1, show Items.repliesOf [] = [] from rfl]
  refine ⟨_, h2, ?_⟩
  have hob : ∀ n, p.obeys n d (Device.prepare info ⟨0, 0, 0, c, x⟩) = (n, [], true) := by
    intro n
    obtain ⟨-, b1, -⟩ := prep_facts info c x hx
    unfold Premises.obeys
    rw [b1, if_neg hc, if_neg hc9, if_neg hca]
  have hne := exit_differs info c x hx hc
  have h3 := fun n => device_send_stale hp retries fuel d info hk c x hx n n (hob n) [exitHeard p d info] (by simp) (exitConfirmed info) .wrongPayload
    (by rw [exitConfirmed, reply_packet]; exact answered_previous _ _ hne) (by simp)
  rw [h3]
end

/-! Concrete cases: a modem and two devices, the first with the third version of the engine. -/

/-- A house with devices 1 and 2. -/
def aHouse (reports : Bool) : Premises where
  net := plainNet
  who := fun a => if a = plainNet.addr 1 then some 1 else if a = plainNet.addr 2 then some 2 else none
  engine := fun d => if d = 1 then 2#64 else 1#64
  product := fun _ => (0x01#8, 0x20#8, 0x41#8)
  reports := reports

def house1 : DeviceInfo := ⟨plainNet.addr 1, (0x01#8, 0x20#8), 0x41, 2#64⟩
def house2 : DeviceInfo := ⟨plainNet.addr 2, (0x01#8, 0x20#8), 0x41, 1#64⟩

theorem aHouse_knows (b : Bool) : (aHouse b).Knows 1 house1 ∧
    (aHouse b).Knows 2 house2 :=
  ⟨⟨by decide, by cases b <;> decide, rfl, rfl⟩, ⟨by decide, by cases b <;> decide, rfl, rfl⟩⟩

/-- Nothing is linked, nothing waits. -/
def atRest : Wired Net := ⟨⟨[], [], false⟩, [], ⟨fun _ => [], none, []⟩⟩

example : ∃ w', LinkTimed.forceLink 7#8 ((aHouse true).device 3 10 house1)
    ((aHouse true).device 3 10 house2) atRest = (w', .ok none) ∧
    w'.dev.Has 1 true (plainNet.addr 2) 7#8 ∧ w'.dev.Has 2 false (plainNet.addr 1) 7#8 ∧ InStep w' := by
  obtain ⟨w', h1, h2, h3⟩ := line_link (p := aHouse true) plainNet_ok 3 10 (by omega) 1 2 (by decide) _ _ (Or.inr ⟨_, (aHouse_knows true).1, rfl⟩)
    (Or.inr ⟨_, (aHouse_knows true).2, rfl⟩) 7#8 atRest ⟨rfl, rfl⟩ rfl
  obtain ⟨k1, k2, -⟩ := linked_network (p := aHouse true) plainNet_ok 1 2 (by decide) 7#8 atRest.dev
  exact ⟨w', h1, h2 ▸ k1, h2 ▸ k2, h3 (Or.inr ⟨by decide, by decide⟩)⟩

example : ∃ w', LinkTimed.linkBoth true true 7#8 (aHouse false).modem ((aHouse false).device 3 10 house1) atRest = (w', .ok none) ∧
    InStep w' := by
  obtain ⟨w', h1, -, h3⟩ := crosslink_partial (p := aHouse false) plainNet_ok 3 10 (by omega) rfl 1 _ (aHouse_knows false).1 7#8 atRest ⟨rfl, rfl⟩ rfl
  exact ⟨w', h1, h3⟩

example : ∃ w', LinkTimed.linkBoth true true 7#8 (aHouse true).modem ((aHouse true).device 3 10 house1) atRest =
    (w', .ok (some .wrongPayload)) ∧ w'.dev.mode = some (1, 7#8, true) ∧ ¬ w'.dev.Has 1 true (plainNet.addr 0) 7#8 := by
  obtain ⟨w', h1, h2, h3⟩ := crosslink_refuted (p := aHouse true) plainNet_ok 3 10 (by omega) rfl 1 _ (aHouse_knows true).1 7#8 atRest ⟨rfl, rfl⟩ rfl
  refine ⟨w', h1, h3, ?_⟩
  unfold Net.Has
  rw [h2]
  decide

example : ∃ w', LinkTimed.unlink 7#8 (aHouse true).modem ((aHouse true).device 3 10 house1) atRest = (w', .ok none) := by
  obtain ⟨w', h, -⟩ := line_unlink (p := aHouse true) plainNet_ok 3 10 (by omega) 0 1 (by decide) _ _ (Or.inl ⟨rfl, rfl⟩)
    (Or.inr ⟨_, (aHouse_knows true).1, rfl⟩) 7#8 atRest ⟨rfl, rfl⟩
  exact ⟨w', h⟩

example : ∃ w', LinkTimed.forceLink 7#8 (aHouse true).modem ((aHouse true).device 3 10 house1) atRest = (w', .ok none) ∧
    (ModemCall.exec (Wired.io (aHouse true).react) 3 w' .info).2 = .ok (some .wrongAck) :=
  next_call_refuted (p := aHouse true) plainNet_ok 3 10 (by omega) rfl 0 1 (by decide) (Or.inl rfl) _ _ (Or.inl ⟨rfl, rfl⟩)
    (Or.inr ⟨_, (aHouse_knows true).1, rfl⟩) 7#8 atRest ⟨rfl, rfl⟩ rfl .info trivial

example : ∃ w', LinkTimed.forceLink 7#8 (aHouse true).modem ((aHouse true).device 3 10 house1) atRest = (w', .ok none) ∧
    (Device.sendCommand house1 (Wired.msgIO (aHouse true).react 3 10) w' Cmd.lightOn []).2 = .ok (some .wrongPayload) :=
  next_message_refuted (p := aHouse true) plainNet_ok 3 10 (by omega) rfl 1 _ (aHouse_knows true).1 7#8 atRest ⟨rfl, rfl⟩ rfl Cmd.lightOn (by decide) (by decide)
    (by decide) [] (Or.inl rfl)

example : (ModemCall.exec (Wired.io (aHouse true).react) 3 atRest .info).2 = .ok none := next_call (p := aHouse true) 3 atRest ⟨rfl, rfl⟩ rfl .info trivial

end Insteon
