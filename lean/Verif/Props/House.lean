import Verif.Props.Filters
import Verif.Props.Control
import Verif.Spec.House

/-
C160: how often a command is carried out.
-/

namespace Insteon
open Insteon.Spec

namespace House
variable (fates : Nat → Bytes → FrameFate)

theorem command_bytes_wire (m : Message) : m.marshalBinary.drop 3 = commandBytes m := by
  have hb : ∀ a : Address, a.bytes = [BitVec.ofNat 8 (a.toNat / 65536), BitVec.ofNat 8 (a.toNat / 256), BitVec.ofNat 8 a.toNat] := by
    intro a
    have h := address_bytes_big_endian a
    rcases hx : a.bytes with _ | ⟨x, _ | ⟨y, _ | ⟨z, _ | ⟨w, t⟩⟩⟩⟩ <;> rw [hx] at h <;>
      simp only [List.map_cons, List.map_nil, List.cons.injEq, reduceCtorEq, and_false, and_true] at h
    simp only [List.cons.injEq, and_true]
    refine ⟨?_, ?_, ?_⟩ <;> apply BitVec.eq_of_toNat_eq <;> simp [h]
  have hc := command_bytes m.command
  have h1 : m.command.command1.setWidth 8 = BitVec.ofNat 8 (m.command.toNat / 256) := by
    apply BitVec.eq_of_toNat_eq; simp [hc.2.1]
  have h2 : m.command.command2.setWidth 8 = BitVec.ofNat 8 m.command.toNat := by
    apply BitVec.eq_of_toNat_eq; simp [hc.2.2]
  have he := (flag_classification m.flags).2.2.2.1
  unfold Message.marshalBinary commandBytes
  rw [hb, hb, h1, h2]
  by_cases hx : isExtended m.flags
  · rw [if_pos hx, if_pos (he.mpr hx), copyPad_fit]; rfl
  · rw [if_neg hx, if_neg fun h => hx (he.mp h)]; rfl

/-- One attempt, from a state in which nothing is waiting to be read from the modem. -/
theorem attempt (a : Address) (pkt : Packet) (h : House) (hp : (fates h.turn pkt.marshalBinary).Prompt) (hf : (fates h.turn pkt.marshalBinary).Honest a) (h0 : h.replies = []) :
    let r := Plm.writePacket (House.io fates) h pkt
    (r.1.messages = h.messages ++ (fates h.turn pkt.marshalBinary).messages) ∧
    (r.1.runs = if (fates h.turn pkt.marshalBinary).done then h.runs ++ [pkt.marshalBinary.drop 2] else h.runs) ∧ r.1.turn = h.turn + 1 ∧
    (∀ x e, r.2 = .ret x e → retryable true e = true → (fates h.turn pkt.marshalBinary).done = false ∧ r.1.replies = []) := by
  dsimp only
  unfold Plm.writePacket
  simp only [House.io, h0, List.nil_append]
  rcases he : (fates h.turn pkt.marshalBinary).err with _ | e
  · dsimp only
    rcases hp with hr | ⟨p, hr⟩
    · simp only [hr, House.take]
      refine ⟨trivial, trivial, trivial, fun x e h => ?_⟩
      cases h
      intro h; exact absurd h (by decide)
    · simp only [hr, House.take]
      rcases hc : Plm.checkAck pkt p with e | e | _
      · refine ⟨rfl, rfl, rfl, fun x e' h => ?_⟩
        cases h
        intro h
        refine ⟨hf.refused p (by rw [hr]; simp) ?_, rfl⟩
        have hn : e = some .plmNak ∨ e = some .plmReadTimeout := by
          simpa [retryable] using h
        have hnak : p.isNAK = true := by
          by_contra hnn
          unfold Plm.checkAck at hc
          dsimp only at hc
          simp only [hnn, if_false] at hc
          rcases hn with rfl | rfl <;> split_ifs at hc <;> simp at hc
        exact (isNAK_iff p).mp hnak
      · exact ⟨rfl, rfl, rfl, fun x e' h => by cases h⟩
      · exact ⟨rfl, rfl, rfl, fun x e' h => by cases h⟩
  · dsimp only
    refine ⟨rfl, rfl, rfl, fun x e' h => ?_⟩
    cases h
    intro h
    have hs := hf.system
    rw [he] at hs
    have hn : e = .plmNak ∨ e = .plmReadTimeout := by simpa [retryable] using h
    rcases hn with rfl | rfl
    · exact absurd rfl hs.1
    · exact absurd rfl hs.2

/-- All attempts. -/
theorem attempts_once (a : Address) (pkt : Packet) (hp : ∀ n b, (fates n b).Prompt) (hf : ∀ n b, (fates n b).Honest a) (n : Nat) :
    ∀ (h : House) (cur : PRes), h.replies = [] →
    let r := retryLoop (Plm.writePacket (House.io fates)) true pkt n h cur
    (r.1.runs = h.runs ∨ r.1.runs = h.runs ++ [pkt.marshalBinary.drop 2]) ∧
    ((∀ p, some p ∈ r.1.messages → AcksFor a p → some p ∈ h.messages) ∨ r.1.runs = h.runs ++ [pkt.marshalBinary.drop 2]) ∧
    r.1.messages.length ≤ h.messages.length + House.traffic fates pkt.marshalBinary h.turn n := by
  induction n with
  | zero => exact fun h cur h0 => ⟨.inl rfl, .inl fun p hp _ => hp, Nat.le_refl _⟩
  | succ n ih =>
    intro h cur h0
    obtain ⟨h1, h2, h3, h4⟩ := attempt fates a pkt h (hp _ _) (hf _ _) h0
    dsimp only
    rw [retryLoop]
    have hend : ∀ h' : House, h'.messages = h.messages ++ (fates h.turn pkt.marshalBinary).messages →
        (h'.runs = if (fates h.turn pkt.marshalBinary).done then h.runs ++ [pkt.marshalBinary.drop 2] else h.runs) →
        (h'.runs = h.runs ∨ h'.runs = h.runs ++ [pkt.marshalBinary.drop 2]) ∧
        ((∀ p, some p ∈ h'.messages → AcksFor a p → some p ∈ h.messages) ∨ h'.runs = h.runs ++ [pkt.marshalBinary.drop 2]) ∧
        h'.messages.length ≤ h.messages.length + House.traffic fates pkt.marshalBinary h.turn (n + 1) := by
      intro h' h1 h2
      have hl : h'.messages.length ≤ h.messages.length + House.traffic fates pkt.marshalBinary h.turn (n + 1) := by
        rw [h1, List.length_append, House.traffic]; omega
      by_cases hd : (fates h.turn pkt.marshalBinary).done = true
      · rw [hd, if_pos rfl] at h2
        exact ⟨.inr h2, .inr h2, hl⟩
      · rw [if_neg hd] at h2
        refine ⟨.inl h2, .inl fun p hm ha => ?_, hl⟩
        rw [h1, List.mem_append] at hm
        rcases hm with h | h
        · exact h
        · exact absurd ((hf _ _).acked p h ha) hd
    rcases hw : Plm.writePacket (House.io fates) h pkt with ⟨h', ⟨x, e⟩ | _⟩ <;> rw [hw] at h1 h2 h3 h4 <;> dsimp only at h1 h2 h3 h4 ⊢
    · by_cases hr : retryable true e = true
      · rw [if_pos hr]
        obtain ⟨hd, hn⟩ := h4 x e rfl hr
        rw [hd, if_neg (by simp)] at h2
        obtain ⟨i1, i2, i3⟩ := ih h' (.ret x e) hn
        rw [h2] at i1 i2
        rw [h1, h3, List.length_append] at i3
        refine ⟨i1, i2.imp (fun i2 p hm ha => ?_) id, by rw [House.traffic]; omega⟩
        have := i2 p hm ha
        rw [h1, List.mem_append] at this
        rcases this with h | h
        · exact h
        · have := (hf _ _).acked p h ha
          rw [hd] at this; cases this
      · rw [if_neg hr]
        exact hend h' h1 h2
    · exact hend h' h1 h2

/-- Waiting for the acknowledgement ends, changes nothing in the house, and succeeds with an acknowledgement that was there. -/
theorem await_house (a : Address) (fuel : Nat) : ∀ h : House, h.messages.length < fuel →
    ∃ h' r, Plm.awaitAck (House.io fates) a fuel h = some (h', r) ∧ h'.runs = h.runs ∧
      ∀ ack, r = .ret ack none → ∃ p, some p ∈ h.messages ∧ AcksFor a p := by
  induction fuel with
  | zero => exact fun h hl => absurd hl (by omega)
  | succ n ih =>
    intro h hl
    rw [Plm.awaitAck, Plm.read]
    simp only [House.io]
    rcases hm : h.messages with _ | ⟨_ | p, rest⟩
    · exact ⟨_, _, rfl, rfl, fun ack h => by cases h⟩
    · exact ⟨_, _, rfl, rfl, fun ack h => by cases h⟩
    · simp only [House.take]
      rcases hd : Message.zero.unmarshalBinary p.payload with ⟨m, _ | e⟩
      · dsimp only
        by_cases hc : m.src = a ∧ (m.flags.ack = true ∨ m.flags.nak = true)
        · rw [if_pos hc]
          refine ⟨_, _, rfl, rfl, fun ack hack => ⟨p, by simp, ?_⟩⟩
          simp only [MRes.ret.injEq] at hack
          have hnak : m.flags.nak = false := by
            by_contra hh
            rw [if_pos (by simpa using hh)] at hack
            simp at hack
          have hack' : m.flags.ack = true := by
            rcases hc.2 with h | h
            · exact h
            · rw [hnak] at h; cases h
          have hrest : 9 ≤ p.payload.length ∧ p.payload.getD 6 0 = m.flags ∧ m.src = Address.put (p.payload.take 3) := by
            rcases hq : p.payload with _ | ⟨s0, _ | ⟨s1, _ | ⟨s2, _ | ⟨d0, _ | ⟨d1, _ | ⟨d2, _ | ⟨f, _ | ⟨c1, _ | ⟨c2, rest⟩⟩⟩⟩⟩⟩⟩⟩⟩ <;>
              rw [hq] at hd <;> simp only [Message.unmarshalBinary, Prod.mk.injEq, reduceCtorEq, and_false] at hd
            split at hd
            · split at hd <;> simp only [Prod.mk.injEq, reduceCtorEq, and_false] at hd
              rw [← hd.1]; exact ⟨by simp, rfl, rfl⟩
            · simp only [Prod.mk.injEq] at hd
              rw [← hd.1]; exact ⟨by simp, rfl, rfl⟩
          refine ⟨hrest.1, ?_, ?_⟩
          · rw [hrest.2.1]; exact ((flag_classification m.flags).1).mp hack'
          · rw [← hc.1, hrest.2.2]
            rcases hq : p.payload with _ | ⟨s0, _ | ⟨s1, _ | ⟨s2, rest⟩⟩⟩ <;> rw [hq] at hrest <;> simp only [List.length_cons, List.length_nil] at hrest <;>
              try omega
            exact (address_put_bytes s0 s1 s2 []).2
        · rw [if_neg hc]
          have hl' : rest.length < n := by rw [hm] at hl; simp only [List.length_cons] at hl; omega
          obtain ⟨h', r, i1, i2, i3⟩ := ih { h with messages := rest } hl'
          refine ⟨h', r, i1, i2, fun ack hr => ?_⟩
          obtain ⟨q, hq, ha⟩ := i3 ack hr
          exact ⟨q, List.mem_cons_of_mem _ hq, ha⟩
      · exact ⟨_, _, rfl, rfl, fun ack h => by cases h⟩

/-- C160 for a message: with a modem that replies in time or not at all, the message is carried out at most once, whatever is lost or refused and
however often the frame is sent again. If success is reported and no acknowledgement from before was waiting, it is carried out once. What is
missing is the same for late replies: that is false (`command_once_refuted`). -/
theorem message_once_partial (msg : Message) (retries : Int) (fuel : Nat) (h : House) (hp : ∀ n b, (fates n b).Prompt)
    (hf : ∀ n b, (fates n b).Honest msg.dst) (h0 : h.replies = []) (hfuel : h.messages.length + House.traffic fates (0x02#8 :: 0x62#8 :: commandBytes msg) h.turn (retries + 1).toNat < fuel) :
    ∃ h' r, Plm.write (House.io fates) retries fuel h msg = some (h', r) ∧
      (h'.runs = h.runs ∨ h'.runs = h.runs ++ [commandBytes msg]) ∧
      ∀ ack, r = .ret ack none → (∀ p, some p ∈ h.messages → ¬ AcksFor msg.dst p) → h'.runs = h.runs ++ [commandBytes msg] := by
  have key := attempts_once fates msg.dst ⟨PCmd.sendInsteonMsg, msg.marshalBinary.drop 3, 0#8⟩ hp hf (retries + 1).toNat h (.ret none none) h0
  have hb : (⟨PCmd.sendInsteonMsg, msg.marshalBinary.drop 3, 0#8⟩ : Packet).marshalBinary.drop 2 = commandBytes msg := by
    rw [← command_bytes_wire]; rfl
  have hm : (⟨PCmd.sendInsteonMsg, msg.marshalBinary.drop 3, 0#8⟩ : Packet).marshalBinary = 0x02#8 :: 0x62#8 :: commandBytes msg := by
    rw [← hb]; rfl
  rw [hb, hm] at key
  dsimp only at key
  obtain ⟨k1, k2, k3⟩ := key
  unfold Plm.write retryWrite
  rcases hr : retryLoop (Plm.writePacket (House.io fates)) true ⟨PCmd.sendInsteonMsg, msg.marshalBinary.drop 3, 0#8⟩ (retries + 1).toNat h (.ret none none)
    with ⟨h1, ⟨x, _ | e⟩ | _⟩ <;> rw [hr] at k1 k2 k3 <;> dsimp only at k1 k2 k3 ⊢
  · obtain ⟨h', r, i1, i2, i3⟩ := await_house fates msg.dst fuel h1 (by omega)
    refine ⟨h', r, i1, by rwa [i2], fun ack hack hno => ?_⟩
    rw [i2]
    rcases k2 with k2 | k2
    · obtain ⟨p, hm, ha⟩ := i3 ack hack
      exact absurd ha (hno p (k2 p hm ha))
    · exact k2
  · exact ⟨_, _, rfl, k1, fun ack h => by cases h⟩
  · exact ⟨_, _, rfl, k1, fun ack h => by cases h⟩

/-- C160 for a control method of a device (all the methods of C90 send in this way): in such a house it is carried out at most once, and once if success
is reported. -/
theorem command_once_partial (info : DeviceInfo) (c1 c2 : Nat) (p : Bytes) (act : ∀ σ : Type, MsgIO σ → σ → σ × Out (Option Err))
    (hact : Sends info c1 c2 p act) (retries : Int) (fuel : Nat) (h : House) (hp : ∀ n b, (fates n b).Prompt) (hf : ∀ n b, (fates n b).Honest info.address)
    (h0 : h.replies = []) (hfuel : ∀ b, h.messages.length + House.traffic fates b h.turn (retries + 1).toNat < fuel) :
    ∃ m : Message, m.dst = info.address ∧ cmd1 m = c1 ∧ cmd2 m = c2 ∧
      let t := act House (Plm.msgIO (House.io fates) retries fuel) h
      (t.1.runs = h.runs ∨ t.1.runs = h.runs ++ [commandBytes m]) ∧
      (t.2 = .ok none → (∀ p, some p ∈ h.messages → ¬ AcksFor info.address p) → t.1.runs = h.runs ++ [commandBytes m]) := by
  obtain ⟨m, h1, hd, hc1, hc2, _⟩ := hact House (Plm.msgIO (House.io fates) retries fuel) h
  obtain ⟨h', r, w1, w2, w3⟩ := message_once_partial fates m retries fuel h hp (by rw [hd]; exact hf) h0 (hfuel _)
  refine ⟨m, hd, hc1, hc2, ?_⟩
  dsimp only
  rw [h1]
  have hw : (Plm.msgIO (House.io fates) retries fuel).write h m = (h', r) := by simp [Plm.msgIO, w1]
  rw [hw]
  refine ⟨w2, fun ht hno => ?_⟩
  rcases r with ⟨_ | ack, _ | e⟩ | _ <;> simp only [reported, reduceCtorEq, Out.ok.injEq] at ht
  exact w3 _ rfl (by rw [hd]; exact hno)

/-- C160 for the commands of `ic`, whose devices are opened with the filters for the hops and for trying again: the same holds, since the latter never tries again
(C51); the command has the hops asked for. -/
theorem ic_command_once_partial (info : DeviceInfo) (c1 c2 : Nat) (p : Bytes) (act : ∀ σ : Type, MsgIO σ → σ → σ × Out (Option Err))
    (hact : Sends info c1 c2 p act) (ttl : BitVec 64) (tries retries : Int) (fuel : Nat) (h : House) (hp : ∀ n b, (fates n b).Prompt)
    (hf : ∀ n b, (fates n b).Honest info.address) (hsys : ∀ n b, (fates n b).err ≠ some .devReadTimeout)
    (h0 : h.replies = []) (hfuel : ∀ b, h.messages.length + House.traffic fates b h.turn (retries + 1).toNat < fuel) :
    ∃ m : Message, m.dst = info.address ∧ cmd1 m = c1 ∧ cmd2 m = c2 ∧ hopsLeft m.flags = ttl.toNat % 4 ∧ maxHops m.flags = ttl.toNat % 4 ∧
      let t := act House (retryFilter tries (ttlFilter ttl (Plm.msgIO (House.io fates) retries fuel))) h
      (t.1.runs = h.runs ∨ t.1.runs = h.runs ++ [commandBytes m]) ∧
      (t.2 = .ok none → (∀ p, some p ∈ h.messages → ¬ AcksFor info.address p) → t.1.runs = h.runs ++ [commandBytes m]) := by
  obtain ⟨m, h1, hd, hc1, hc2, _⟩ := hact House (retryFilter tries (ttlFilter ttl (Plm.msgIO (House.io fates) retries fuel))) h
  obtain ⟨out, ho, hl, hm, -, -, hdst, hcmd, -, -, -⟩ := ttl_filter ttl (Plm.msgIO (House.io fates) retries fuel) h m
  have hw : (retryFilter tries (ttlFilter ttl (Plm.msgIO (House.io fates) retries fuel))).write h m =
      (Plm.msgIO (House.io fates) retries fuel).write h out := by
    obtain ⟨n, g1, g2, g3, g4, g5, -⟩ := retry_filter tries (ttlFilter ttl (Plm.msgIO (House.io fates) retries fuel)) h m
    have : n = 1 := by
      by_contra hne
      have := g4 0 (by omega)
      simp only [wOutcome, wAfter] at this
      rw [ho] at this
      exact plm_write_timeout (House.io fates) retries fuel h out (fun h b => hsys h.turn b) this
    subst this
    rw [g3, ← ho]
    simp [wOutcome, wAfter]
  have hdo : out.dst = info.address := by rw [hdst, hd]
  obtain ⟨h', r, w1, w2, w3⟩ := message_once_partial fates out retries fuel h hp (by rw [hdo]; exact hf) h0 (hfuel _)
  refine ⟨out, hdo, by rw [← hc1]; simp only [cmd1, hcmd], by rw [← hc2]; simp only [cmd2, hcmd], hl, hm, ?_⟩
  dsimp only
  rw [h1, hw]
  have hr : (Plm.msgIO (House.io fates) retries fuel).write h out = (h', r) := by simp [Plm.msgIO, w1]
  rw [hr]
  refine ⟨w2, fun ht hno => ?_⟩
  rcases r with ⟨_ | ack, _ | e⟩ | _ <;> simp only [reported, reduceCtorEq, Out.ok.injEq] at ht
  exact w3 _ rfl (by rw [hdo]; exact hno)

/-- An acknowledgement of device 11.22.33 for brighten. -/
def brightened : Packet := ⟨0x50, [0x11, 0x22, 0x33, 0, 0, 0, 0x2f, 0x15, 0x00], 0⟩
/-- The modem's replies to the frame with brighten. -/
def reply (status : Byte) : Packet := ⟨0x62, [0, 0, 0, 0x11, 0x22, 0x33, 0x0f, 0x15, 0x00], status⟩

/-- The dimmer. -/
def lamp : DeviceInfo := { address := 0x112233#32, devCat := (1, 0), firmwareVersion := 0, engineVersion := 1#64 }

/-- The frame is refused twice, then taken; the device carries it out and its acknowledgement comes. -/
def busyTwice : Nat → Bytes → FrameFate
  | 0, _ => ⟨none, false, [some (reply 0x15)], []⟩
  | 1, _ => ⟨none, false, [some (reply 0x15)], []⟩
  | _, _ => ⟨none, true, [some (reply 0x06)], [some brightened]⟩

example : (Dimmer.brighten lamp (Plm.msgIO (House.io busyTwice) 3 9) ⟨0, [], [], []⟩) =
    (⟨3, [], [], [[0x11, 0x22, 0x33, 0x0f, 0x15, 0x00]]⟩, .ok none) := by decide +kernel

theorem busyTwice_lawful (n : Nat) (b : Bytes) : (busyTwice n b).Prompt ∧ (busyTwice n b).Honest 0x112233#32 := by
  rcases n with _ | _ | n
  · refine ⟨.inr ⟨_, rfl⟩, fun _ _ _ => rfl, fun p h => by simp [busyTwice] at h, by simp [busyTwice]⟩
  · refine ⟨.inr ⟨_, rfl⟩, fun _ _ _ => rfl, fun p h => by simp [busyTwice] at h, by simp [busyTwice]⟩
  · refine ⟨.inr ⟨_, rfl⟩, fun p h hr => ?_, fun _ _ _ => rfl, by simp [busyTwice]⟩
    simp only [busyTwice, List.mem_singleton, Option.some.injEq] at h
    subst h
    exact absurd hr.2 (by decide)

/-- `command_once_partial` for that house. -/
example : ∃ m : Message, m.dst = lamp.address ∧ cmd1 m = 0x15 ∧ cmd2 m = 0x00 ∧
    let t := Dimmer.brighten lamp (Plm.msgIO (House.io busyTwice) 3 9) ⟨0, [], [], []⟩
    (t.1.runs = [] ∨ t.1.runs = [commandBytes m]) ∧ (t.2 = .ok none → (∀ p, some p ∈ [] → ¬ AcksFor lamp.address p) → t.1.runs = [commandBytes m]) :=
  command_once_partial busyTwice lamp 0x15 0x00 [] (fun _ io s => Dimmer.brighten lamp io s) (lighting_commands lamp).2.2.2.2.1 3 9 ⟨0, [], [], []⟩
    (fun n b => (busyTwice_lawful n b).1) (fun n b => (busyTwice_lawful n b).2) rfl (fun b => by simp [House.traffic, busyTwice])

/-- The first frame is refused late, after the call has given up; the frames after it are taken and carried out. -/
def refusedLate : Nat → Bytes → FrameFate
  | 0, _ => ⟨none, false, [none, some (reply 0x15)], []⟩
  | _, _ => ⟨none, true, [some (reply 0x06)], [some brightened]⟩

/-- C160 is false of the code when a reply of the modem is late: the second of two calls takes the refusal meant for the first, sends its frame again,
and the lamp is brightened twice for one call that reports success. -/
theorem command_once_refuted : ∃ fates : Nat → Bytes → FrameFate, (∀ n b, (fates n b).Honest 0x112233#32) ∧
    let first := Dimmer.brighten lamp (Plm.msgIO (House.io fates) 3 9) ⟨0, [], [], []⟩
    let second := Dimmer.brighten lamp (Plm.msgIO (House.io fates) 3 9) first.1
    first.2 = .ok (some (.wrapped .plmReadTimeout)) ∧ first.1.runs = [] ∧ second.2 = .ok none ∧
      second.1.runs = [[0x11, 0x22, 0x33, 0x0f, 0x15, 0x00], [0x11, 0x22, 0x33, 0x0f, 0x15, 0x00]] := by
  refine ⟨refusedLate, fun n b => ?_, by decide +kernel⟩
  rcases n with _ | n
  · exact ⟨fun _ _ _ => rfl, fun p h => by simp [refusedLate] at h, by simp [refusedLate]⟩
  · refine ⟨fun p h hr => ?_, fun _ _ _ => rfl, by simp [refusedLate]⟩
    simp only [refusedLate, List.mem_singleton, Option.some.injEq] at h
    subst h
    exact absurd hr.2 (by decide)

/-- The device carries out the first command and acknowledges it late; the second one does not reach it. -/
def ackedLate : Nat → Bytes → FrameFate
  | 0, _ => ⟨none, true, [some (reply 0x06)], [none, some brightened]⟩
  | _, _ => ⟨none, false, [some (reply 0x06)], []⟩

/-- C160 is false of the code when an acknowledgement of the device is late: the first call fails although the lamp was brightened, the second one
reports success although nothing was done. -/
theorem command_done_refuted : ∃ fates : Nat → Bytes → FrameFate, (∀ n b, (fates n b).Prompt) ∧ (∀ n b, (fates n b).Honest 0x112233#32) ∧
    let first := Dimmer.brighten lamp (Plm.msgIO (House.io fates) 3 9) ⟨0, [], [], []⟩
    let second := Dimmer.brighten lamp (Plm.msgIO (House.io fates) 3 9) first.1
    (∃ e, first.2 = .ok (some e)) ∧ first.1.runs.length = 1 ∧ second.2 = .ok none ∧ second.1.runs = first.1.runs := by
  refine ⟨ackedLate, fun n b => ?_, fun n b => ?_, ⟨.wrapped .insReadTimeout, by decide +kernel⟩, by decide +kernel⟩
  · rcases n with _ | n <;> exact .inr ⟨_, rfl⟩
  · rcases n with _ | n
    · refine ⟨fun p h hr => ?_, fun _ _ _ => rfl, by simp [ackedLate]⟩
      simp only [ackedLate, List.mem_singleton, Option.some.injEq] at h
      subst h
      exact absurd hr.2 (by decide)
    · exact ⟨fun _ _ _ => rfl, fun p h => by simp [ackedLate] at h, by simp [ackedLate]⟩

end House

end Insteon
