import Verif.Props.Command
import Verif.Props.Address

/-
C08-C14, C85: messages (message.go, util.go).
-/

namespace Insteon
open Spec

/-! ### C08 flag construction -/

/-- The eight message types as API constants, in order of their type number. -/
def messageTypes : List MessageType :=
  [.direct, .directAck, .allLinkCleanup, .allLinkCleanupAck, .broadcast, .directNak,
   .allLinkBroadcast, .allLinkCleanupNak]

theorem small_byte {b : Byte} (h : b.toNat ≤ 3) : b = 0#8 ∨ b = 1#8 ∨ b = 2#8 ∨ b = 3#8 := by
  revert b; decide

/-- A flag byte built from valid components reports exactly those components, both through the
accessors and by position. -/
theorem flag_components (t : MessageType) (ht : t ∈ messageTypes) (ext : Bool) (hops max : Byte)
    (hh : hops.toNat ≤ 3) (hm : max.toNat ≤ 3) :
    let f := Flags.make t ext hops max
    f.type = t ∧ f.extended = ext ∧ f.standard = !ext ∧ f.ttl = hops ∧ f.maxTTL = max
      ∧ f.toNat = t.toNat + (if ext then 16 else 0) + 4 * hops.toNat + max.toNat := by
  simp only [messageTypes, List.mem_cons, List.not_mem_nil, or_false] at ht
  rcases small_byte hh with rfl | rfl | rfl | rfl <;>
  rcases small_byte hm with rfl | rfl | rfl | rfl <;>
  rcases ht with rfl | rfl | rfl | rfl | rfl | rfl | rfl | rfl <;>
  cases ext <;> decide

example : MessageType.directNak ∈ messageTypes
    ∧ Flags.make .directNak true 2#8 3#8 = 0xbb#8 := by decide

/-- Hop counts above three give the all-zero flag byte. -/
theorem flag_invalid_hops (t : MessageType) (ext : Bool) (hops max : Byte)
    (h : 3 < hops.toNat ∨ 3 < max.toNat) : Flags.make t ext hops max = 0#8 := by
  simp [Flags.make, h]

/-- Different valid components never give the same flag byte. -/
theorem flag_injective (t t' : MessageType) (ht : t ∈ messageTypes) (ht' : t' ∈ messageTypes)
    (e e' : Bool) (h h' m m' : Byte) (hh : h.toNat ≤ 3) (hh' : h'.toNat ≤ 3) (hm : m.toNat ≤ 3)
    (hm' : m'.toNat ≤ 3) (eq : Flags.make t e h m = Flags.make t' e' h' m') :
    t = t' ∧ e = e' ∧ h = h' ∧ m = m' := by
  have a := flag_components t ht e h m hh hm
  have b := flag_components t' ht' e' h' m' hh' hm'
  simp only at a b
  rw [eq] at a
  exact ⟨a.1.symm.trans b.1, a.2.1.symm.trans b.2.1, a.2.2.2.1.symm.trans b.2.2.2.1,
    a.2.2.2.2.1.symm.trans b.2.2.2.2.1⟩

/-! ### C09 classification -/

/-- Every flag byte: ack and nak are disjoint and are the type numbers 1/3 and 5/7; exactly one of
standard and extended; the type is one of the eight; hop counters by position. -/
theorem flag_classification (f : Flags) :
    (f.ack = true ↔ isAck f) ∧ (f.nak = true ↔ isNak f) ∧ ¬ (f.ack = true ∧ f.nak = true)
      ∧ (f.extended = true ↔ isExtended f) ∧ f.standard = !f.extended
      ∧ messageTypes[typeNumber f]? = some f.type
      ∧ f.ttl.toNat = hopsLeft f ∧ f.maxTTL.toNat = maxHops f := by
  revert f; decide +kernel

/-- A documented type is exactly one of direct and broadcast; the broadcast types are precisely
broadcast and all-link broadcast; the all-link types are the four with that bit. -/
theorem type_classification (t : MessageType) (ht : t ∈ messageTypes) :
    (t.isBroadcast = true ↔ t = .broadcast ∨ t = .allLinkBroadcast)
      ∧ t.isDirect = !t.isBroadcast
      ∧ (t.isAllLink = true ↔ t = .allLinkCleanup ∨ t = .allLinkCleanupAck
          ∨ t = .allLinkCleanupNak ∨ t = .allLinkBroadcast) := by
  simp only [messageTypes, List.mem_cons, List.not_mem_nil, or_false] at ht
  rcases ht with rfl | rfl | rfl | rfl | rfl | rfl | rfl | rfl <;> decide

/-- The type of every flag byte is a documented one. -/
theorem flag_type_documented (f : Flags) : f.type ∈ messageTypes :=
  List.mem_of_getElem? (flag_classification f).2.2.2.2.2.1

/-- An acknowledgement is never a broadcast. -/
theorem ack_not_broadcast (f : Flags) (h : f.ack = true ∨ f.nak = true) :
    f.type.isBroadcast = false := by
  revert f; decide +kernel

example : Flags.ack 0x2f#8 = true ∧ Flags.nak 0xaf#8 = true ∧ Flags.ack 0x8f#8 = false := by decide

/-! ### C10 hop counters -/

theorem and3 (t : Byte) : t &&& 0x03#8 = BitVec.ofNat 8 (t.toNat % 4) := by
  revert t; decide +kernel

/-- `SetTTL` stores the value modulo 4 in the hops-left field and changes nothing else. -/
theorem setTTL_value (f : Flags) (t : Byte) :
    (f.setTTL t).toNat = f.toNat / 16 * 16 + t.toNat % 4 * 4 + f.toNat % 4 := by
  have h : t.toNat % 4 < 4 := by omega
  have e : f.setTTL t = (f &&& 0xf3#8) ||| (BitVec.ofNat 8 (t.toNat % 4) <<< 2) := by
    rw [Flags.setTTL, BitVec.and_comm 0x03#8, and3]
  rw [e]
  clear e
  generalize t.toNat % 4 = k at h ⊢
  interval_cases k <;> (revert f; decide +kernel)

/-- `SetMaxTTL` stores the value modulo 4 in the max-hops field and changes nothing else. -/
theorem setMaxTTL_value (f : Flags) (t : Byte) :
    (f.setMaxTTL t).toNat = f.toNat / 4 * 4 + t.toNat % 4 := by
  have h : t.toNat % 4 < 4 := by omega
  have e : f.setMaxTTL t = (f &&& 0xfc#8) ||| BitVec.ofNat 8 (t.toNat % 4) := by
    rw [Flags.setMaxTTL, and3]
  rw [e]
  clear e
  generalize t.toNat % 4 = k at h ⊢
  interval_cases k <;> (revert f; decide +kernel)

/-- The two setters are independent: order does not matter, each reads back, type, length and
ack bits survive. -/
theorem hop_setters_independent (f : Flags) (t m : Byte) :
    (f.setTTL t).setMaxTTL m = (f.setMaxTTL m).setTTL t
      ∧ ((f.setTTL t).setMaxTTL m).ttl.toNat = t.toNat % 4
      ∧ ((f.setTTL t).setMaxTTL m).maxTTL.toNat = m.toNat % 4
      ∧ ((f.setTTL t).setMaxTTL m).toNat / 16 = f.toNat / 16 := by
  have e : ((f.setTTL t).setMaxTTL m).toNat = f.toNat / 16 * 16 + t.toNat % 4 * 4 + m.toNat % 4 := by
    rw [setMaxTTL_value, setTTL_value]; omega
  refine ⟨?_, ?_, ?_, ?_⟩
  · apply BitVec.eq_of_toNat_eq
    rw [e, setTTL_value, setMaxTTL_value]; omega
  · rw [(flag_classification _).2.2.2.2.2.2.1, hopsLeft, e]; omega
  · rw [(flag_classification _).2.2.2.2.2.2.2, maxHops, e]; omega
  · rw [e]; omega

example : (Flags.setTTL 0xff#8 6#8) = 0xfb#8 := by decide

/-! ### C11, C12 wire codec -/

theorem copyPad_fit (n : Nat) (p : Bytes) : copyPad n p = fit n p := by
  induction n generalizing p with
  | zero => simp [copyPad, fit]
  | succ n ih =>
    cases p with
    | nil =>
      have := ih []
      simp only [copyPad, List.take_nil, List.length_nil, Nat.sub_zero, List.nil_append] at this
      simp [copyPad, fit, ← this, List.replicate_succ]
    | cons b p =>
      simp only [copyPad, fit] at *
      rw [← ih p]; simp

theorem fit_length (n : Nat) (p : Bytes) : (fit n p).length = n := by
  rw [← copyPad_fit]; simp [copyPad]; omega

theorem fit_take (n : Nat) (p : Bytes) (h : n ≤ p.length) : fit n p = p.take n := by
  rw [← copyPad_fit]
  simp [copyPad, Nat.sub_eq_zero_of_le h]

theorem fit_self (p : Bytes) : fit p.length p = p := by
  rw [fit_take _ _ (Nat.le_refl _)]; simp

/-- What a message looks like after crossing the wire: 24-bit addresses, the class implied by
the flags, both command bytes, and for extended messages a 14-byte payload. -/
def Spec.overTheWire (m : Message) (oldPayload : List (BitVec 8)) : Message where
  src := BitVec.ofNat 32 (m.src.toNat % 2 ^ 24)
  dst := BitVec.ofNat 32 (m.dst.toNat % 2 ^ 24)
  flags := m.flags
  command := BitVec.ofNat 64 (commandClass m.flags * 65536 + m.command.toNat % 65536)
  payload := if isExtended m.flags then fit 14 m.payload else oldPayload

theorem ofWire_bytes (f : Flags) (c : Command) :
    Command.ofWire f (c.command1.setWidth 8) (c.command2.setWidth 8)
      = BitVec.ofNat 64 (commandClass f * 65536 + c.toNat % 65536) := by
  apply BitVec.eq_of_toNat_eq
  have hcls : commandClass f ≤ 12 := by
    unfold commandClass; split_ifs <;> omega
  rw [ofWire_value, command1_byte, command2_byte, extract_toNat, extract_toNat,
    BitVec.toNat_ofNat]
  omega

theorem extended_iff (f : Flags) : f.extended = true ↔ isExtended f := (flag_classification f).2.2.2.1

/-- Encoding a message and decoding the bytes gives back source, destination, flags, command and
(for extended messages) the payload fitted to 14 bytes, whatever the receiver held before. -/
theorem message_wire_roundtrip (m recv : Message) :
    recv.unmarshalBinary m.marshalBinary = (overTheWire m recv.payload, none) := by
  have hp : ∀ a : Address, Address.put [byte32 (a >>> 16), byte32 (a >>> 8), byte32 a]
      = BitVec.ofNat 32 (a.toNat % 2 ^ 24) := fun a => address_bytes_roundtrip a
  by_cases h : m.flags.extended = true
  · have h' := (extended_iff _).mp h
    have hl : (copyPad 14 m.payload).length = 14 := by rw [copyPad_fit, fit_length]
    simp only [Message.marshalBinary, Address.bytes, h, if_true, List.cons_append, List.nil_append,
      Message.unmarshalBinary, List.length_cons, hl, hp, ofWire_bytes]
    rw [if_neg (by omega)]
    simp only [overTheWire, h', if_true]
    rw [copyPad_fit, copyPad_fit]
    have := fit_self (fit 14 m.payload)
    rw [fit_length] at this
    rw [this]
  · have h' : ¬ isExtended m.flags := fun hx => h ((extended_iff _).mpr hx)
    simp [Message.marshalBinary, Address.bytes, h, Message.unmarshalBinary, hp, ofWire_bytes,
      overTheWire, h']

/-- Messages in wire form survive unchanged. -/
theorem message_wire_roundtrip_exact (m : Message)
    (hs : m.src.toNat < 2 ^ 24) (hd : m.dst.toNat < 2 ^ 24)
    (hc : m.command.toNat / 65536 = commandClass m.flags)
    (hp : if isExtended m.flags then m.payload.length = 14 else m.payload = []) :
    Message.zero.unmarshalBinary m.marshalBinary = (m, none) := by
  rw [message_wire_roundtrip]
  obtain ⟨src, dst, flags, command, payload⟩ := m
  simp only at *
  have e : commandClass flags * 65536 + command.toNat % 65536 = command.toNat := by omega
  simp only [overTheWire, Prod.mk.injEq, and_true, Message.mk.injEq, true_and,
    Nat.mod_eq_of_lt hs, Nat.mod_eq_of_lt hd, e, BitVec.ofNat_toNat, BitVec.setWidth_eq]
  split_ifs with hx
  · rw [if_pos hx] at hp
    rw [← hp, fit_self]
  · rw [if_neg hx] at hp
    simp [Message.zero, hp]

/-- A concrete extended message meets the hypotheses of the exact round trip. -/
example :
    let m : Message := ⟨0x010203#32, 0x0a0b0c#32, 0x1f#8, 0x012e00#64, List.replicate 14 7#8⟩
    m.src.toNat < 2 ^ 24 ∧ m.dst.toNat < 2 ^ 24
      ∧ m.command.toNat / 65536 = commandClass m.flags
      ∧ isExtended m.flags ∧ m.payload.length = 14 := by decide

/-- The encoding is 9 bytes for standard and 23 bytes for extended messages. -/
theorem message_wire_length (m : Message) :
    m.marshalBinary.length = if isExtended m.flags then 23 else 9 := by
  by_cases h : m.flags.extended = true
  · rw [if_pos ((extended_iff _).mp h)]
    simp [Message.marshalBinary, Address.bytes, h, copyPad_fit, fit_length]
  · rw [if_neg (fun hx => h ((extended_iff _).mpr hx))]
    simp [Message.marshalBinary, Address.bytes, h]

/-- Decoding any buffer: too short a buffer is an error; otherwise the decoded message encodes
to the first 9 or 23 bytes of the buffer. -/
theorem wire_message_roundtrip (recv : Message) (data : Bytes) :
    let need := if 9 ≤ data.length ∧ isExtended (data.getD 6 0#8) then 23 else 9
    (data.length < need → ∃ e, (recv.unmarshalBinary data).2 = some e ∧ e.is .bufferTooShort = true)
      ∧ (need ≤ data.length → (recv.unmarshalBinary data).2 = none ∧
          (recv.unmarshalBinary data).1.marshalBinary = data.take need) := by
  match data with
  | s0 :: s1 :: s2 :: d0 :: d1 :: d2 :: f :: c1 :: c2 :: rest =>
    have hf : (s0 :: s1 :: s2 :: d0 :: d1 :: d2 :: f :: c1 :: c2 :: rest).getD 6 0#8 = f := rfl
    have hl : 9 ≤ (s0 :: s1 :: s2 :: d0 :: d1 :: d2 :: f :: c1 :: c2 :: rest).length := by simp
    have hb : ∀ x y z : Byte, (Address.put [x, y, z]).bytes = [x, y, z] := fun x y z =>
      (address_put_bytes x y z []).1
    have hcmd1 : ((Command.ofWire f c1 c2).command1.setWidth 8 : Byte) = c1 := by
      rw [command1_byte, ofWire_cmd1]
    have hcmd2 : ((Command.ofWire f c1 c2).command2.setWidth 8 : Byte) = c2 := by
      rw [command2_byte, ofWire_cmd2]
    by_cases h : Flags.extended f = true
    · have hx := (extended_iff f).mp h
      simp only [hf, hl, hx, and_self, if_true, Message.unmarshalBinary, h]
      constructor
      · intro hlen
        rw [if_pos hlen]
        exact ⟨_, rfl, by decide⟩
      · intro hlen
        rw [if_neg (by omega)]
        refine ⟨rfl, ?_⟩
        simp only [Message.marshalBinary, hb, hcmd1, hcmd2, h, if_true]
        have : 14 ≤ rest.length := by simp at hlen; omega
        rw [copyPad_fit, copyPad_fit]
        have e := fit_self (fit 14 rest)
        rw [fit_length] at e
        rw [e, fit_take _ _ this]
        simp
    · have hx : ¬ isExtended f := fun hx => h ((extended_iff _).mpr hx)
      simp only [hf, hl, hx, and_false, if_false, Message.unmarshalBinary, h]
      constructor
      · intro hlen; simp at hlen
        omega
      · intro _
        refine ⟨rfl, ?_⟩
        simp [Message.marshalBinary, hb, hcmd1, hcmd2, h]
  | [] | [_] | [_, _] | [_, _, _] | [_, _, _, _] | [_, _, _, _, _] | [_, _, _, _, _, _]
  | [_, _, _, _, _, _, _] | [_, _, _, _, _, _, _, _] =>
    simp [Message.unmarshalBinary]; decide

example : (Message.zero.unmarshalBinary [1#8, 2#8, 3#8, 4#8, 5#8, 6#8, 0x1f#8, 8#8, 9#8]).2
    = some (.wrapped .bufferTooShort) := by decide

/-! ### C13 duplicates -/

/-- Exactly when two messages count as duplicates. Missing from the expected property: the
type bits (ack, nak, broadcast) and the extended bit are not compared. -/
theorem duplicate_iff_partial (a b : Message) :
    a.duplicate b = true ↔ a.src = b.src ∧ a.dst = b.dst ∧ a.command = b.command
      ∧ maxHops a.flags = maxHops b.flags ∧ a.payload = b.payload := by
  have h : a.flags.maxTTL = b.flags.maxTTL ↔ maxHops a.flags = maxHops b.flags := by
    rw [← (flag_classification a.flags).2.2.2.2.2.2.2, ← (flag_classification b.flags).2.2.2.2.2.2.2]
    constructor
    · intro h; rw [h]
    · intro h; exact BitVec.eq_of_toNat_eq h
  simp [Message.duplicate, h, and_assoc]

/-- Being duplicates is an equivalence relation. -/
theorem duplicate_equivalence : Equivalence fun a b : Message => a.duplicate b = true := by
  refine ⟨fun a => ?_, fun {a b} h => ?_, fun {a b c} h1 h2 => ?_⟩
  · rw [duplicate_iff_partial]; simp
  · rw [duplicate_iff_partial] at *
    obtain ⟨h1, h2, h3, h4, h5⟩ := h
    exact ⟨h1.symm, h2.symm, h3.symm, h4.symm, h5.symm⟩
  · rw [duplicate_iff_partial] at *
    obtain ⟨a1, a2, a3, a4, a5⟩ := h1
    obtain ⟨b1, b2, b3, b4, b5⟩ := h2
    exact ⟨a1.trans b1, a2.trans b2, a3.trans b3, a4.trans b4, a5.trans b5⟩

/-- A retransmission (same message, other remaining hops) is a duplicate. -/
theorem retransmission_duplicate (m : Message) (hops : Byte) :
    m.duplicate { m with flags := m.flags.setTTL hops } = true := by
  rw [duplicate_iff_partial]
  refine ⟨rfl, rfl, rfl, ?_, rfl⟩
  simp only [maxHops, setTTL_value]
  omega

/-- A different maximum hop count is not a duplicate. -/
theorem duplicate_needs_max_hops (a b : Message) (h : maxHops a.flags ≠ maxHops b.flags) :
    a.duplicate b = false := by
  rw [Bool.eq_false_iff, ne_eq, duplicate_iff_partial]
  exact fun hd => h hd.2.2.2.1

/-- Expected and false: duplicates agree in everything but the remaining hops. Two messages
read from the wire, an ack and a nak of the same command, are duplicates. -/
theorem duplicate_exact_refuted :
    ¬ ∀ a b : Message, a.duplicate b = true →
        a.flags.toNat / 16 = b.flags.toNat / 16 := by
  intro h
  have := h (Message.zero.unmarshalBinary [1#8, 2#8, 3#8, 4#8, 5#8, 6#8, 0x2b#8, 0x11#8, 0xff#8]).1
    (Message.zero.unmarshalBinary [1#8, 2#8, 3#8, 4#8, 5#8, 6#8, 0xab#8, 0x11#8, 0xff#8]).1 (by decide)
  exact absurd this (by decide)

/-! ### C14 equality -/

/-- `Equals` is equality of the five fields. -/
theorem equals_iff (a b : Message) : a.equals b = true ↔ a = b := by
  obtain ⟨a1, a2, a3, a4, a5⟩ := a
  obtain ⟨b1, b2, b3, b4, b5⟩ := b
  simp [Message.equals, and_assoc]

/-- Equal messages have the same encoding and are duplicates. -/
theorem equals_consequences (a b : Message) (h : a.equals b = true) :
    a.marshalBinary = b.marshalBinary ∧ a.duplicate b = true := by
  rw [equals_iff] at h
  subst h
  exact ⟨rfl, duplicate_equivalence.refl a⟩

example : Message.equals ⟨1, 2, 0x0f#8, 3, [4#8]⟩ ⟨1, 2, 0x0f#8, 3, [4#8]⟩ = true := by decide
example : Message.equals ⟨1, 2, 0x0f#8, 3, [4#8]⟩ ⟨1, 2, 0x0f#8, 3, [5#8]⟩ = false := by decide

/-! ### C85 propagation delay -/

/-- Below 255 hops the delay is `l * (ttl + 1)` sixtieths of a second, rounded down to
nanoseconds, hence monotone in both arguments. Missing: the hop value 255. -/
theorem propagationDelay_partial (ttl : Byte) (l : Nat) (h : ttl.toNat < 255) :
    propagationDelay ttl l = 1000000000 * l * (ttl.toNat + 1) / 60 := by
  unfold propagationDelay
  have : (ttl + 1#8).toNat = ttl.toNat + 1 := by
    rw [BitVec.toNat_add]; simp; omega
  rw [this]

theorem propagationDelay_mono_partial (t t' : Byte) (l l' : Nat) (h : t'.toNat < 255)
    (ht : t.toNat ≤ t'.toNat) (hl : l ≤ l') : propagationDelay t l ≤ propagationDelay t' l' := by
  rw [propagationDelay_partial _ _ (by omega), propagationDelay_partial _ _ h]
  apply Nat.div_le_div_right
  apply Nat.mul_le_mul
  · exact Nat.mul_le_mul_left _ hl
  · omega

example : propagationDelay 3#8 23 = 1533333333 := by decide

/-- Expected and false: monotone for every hop count. -/
theorem propagationDelay_mono_refuted :
    ¬ ∀ (t t' : Byte) (l : Nat), t.toNat ≤ t'.toNat → propagationDelay t l ≤ propagationDelay t' l := by
  intro h
  exact absurd (h 3#8 255#8 9 (by decide)) (by decide)

end Insteon
