import Verif.Props.Names
import Verif.Props.ModemCmd

/-
C176: packets and requests as logs show them.
-/

namespace Insteon
open Spec

/-- The characters of bytes in hexadecimal and the spaces between them. -/
def hexy (c : Byte) : Bool := c == ch ' ' || (48 ≤ c.toNat && c.toNat ≤ 57) || (97 ≤ c.toNat && c.toNat ≤ 102)

/-- A text without the hexadecimal digits and spaces it ends with. -/
def strip (s : Bytes) : Bytes := (s.reverse.dropWhile hexy).reverse

theorem strip_append (s t : Bytes) (h : ∀ c ∈ t, hexy c = true) : strip (s ++ t) = strip s := by
  unfold strip
  rw [List.reverse_append, List.dropWhile_append_of_pos (by intro c hc; exact h c (by simpa using hc))]

/-- A modem command from the start of its text. -/
def plmOfStripped (s : Bytes) : Byte :=
  if s.take 8 = lit "Command(" then
    BitVec.ofNat 8 ((s.drop 8).dropLast.foldl (fun n d => 10 * n + (d.toNat - 48)) 0)
  else if s = lit "NAK" then 21#8
  else if s ∈ plmNames1.map strip then BitVec.ofNat 8 (80 + (plmNames1.map strip).idxOf s)
  else BitVec.ofNat 8 (96 + (plmNames2.map strip).idxOf s)

theorem plmOfStripped_string : ∀ i : Byte, plmOfStripped (strip (plmCommandString i)) = i := by decide +kernel

theorem name_tails : ∀ i : Byte, (lit " ACK").isSuffixOf (plmCommandString i) = false ∧ (lit " NAK").isSuffixOf (plmCommandString i) = false := by
  decide +kernel

theorem hex2_hexy : ∀ b : Byte, (hex2 b).all hexy = true := by decide +kernel

theorem payload_hexy (p : Bytes) : ∀ c ∈ payloadString (lit " ") p, hexy c = true := by
  induction p with
  | nil => intro c hc; simp [payloadString, joinWith] at hc
  | cons a p ih =>
    have ha : ∀ c ∈ hex2 a, hexy c = true := fun c hc => List.all_eq_true.mp (hex2_hexy a) c hc
    rcases p with _ | ⟨b, p⟩
    · intro c hc
      simp only [payloadString, List.map, joinWith] at hc
      exact ha c hc
    · intro c hc
      simp only [payloadString, List.map, joinWith, List.append_assoc, List.mem_append] at hc
      rcases hc with hc | hc | hc
      · exact ha c hc
      · have : c = ch ' ' := by simpa [lit] using hc
        rw [this]; decide
      · exact ih c (by simpa [payloadString] using hc)

/-- The payload as shown after the name. -/
def shownPayload (p : Bytes) : Bytes := if 0 < p.length then lit " " ++ payloadString (lit " ") p else []

theorem shownPayload_hexy (p : Bytes) : ∀ c ∈ shownPayload p, hexy c = true := by
  intro c hc
  unfold shownPayload at hc
  split_ifs at hc
  · rcases List.mem_append.mp hc with hc | hc
    · have : c = ch ' ' := by simpa [lit] using hc
      rw [this]; decide
    · exact payload_hexy p c hc
  · simp at hc

theorem shownPayload_inj (p q : Bytes) (h : shownPayload p = shownPayload q) : p = q := by
  have hl := congrArg List.length h
  unfold shownPayload at h hl
  have h1 : (lit " ").length = 1 := by decide
  by_cases hp : 0 < p.length <;> by_cases hq : 0 < q.length <;>
    simp only [hp, hq, if_true, if_false, List.length_append, payloadString_length, h1, List.length_nil] at h hl
  · exact payloadString_inj (by omega) (List.append_cancel_left h)
  · omega
  · omega
  · rw [List.length_eq_zero_iff.mp (by omega : p.length = 0), List.length_eq_zero_iff.mp (by omega : q.length = 0)]

theorem no_tail (i : Byte) (t w : Bytes) (ht : ∀ c ∈ t, hexy c = true) (s : Bytes) (hw : w = lit " ACK" ∨ w = lit " NAK")
    (h : plmCommandString i ++ t = s ++ w) : False := by
  rcases List.eq_nil_or_concat t with rfl | ⟨t', c, rfl⟩
  · rw [List.append_nil] at h
    have hs : w <:+ plmCommandString i := ⟨s, h.symm⟩
    have := name_tails i
    rcases hw with rfl | rfl
    · rw [← List.isSuffixOf_iff_suffix, this.1] at hs; cases hs
    · rw [← List.isSuffixOf_iff_suffix, this.2] at hs; cases hs
  · have hc := ht c (by simp)
    have hk : w.getLast? = some (ch 'K') := by rcases hw with rfl | rfl <;> decide
    have h3 : (s ++ w).getLast? = some (ch 'K') := by rw [List.getLast?_append, hk]; rfl
    have h4 : (plmCommandString i ++ t'.concat c).getLast? = some c := by simp
    rw [h, h3] at h4
    have h2 : c = ch 'K' := (Option.some.inj h4).symm
    rw [h2] at hc
    exact absurd hc (by decide)

/-- What is shown of the answer of the modem. -/
def shownStatus (p : Packet) : Bytes := if p.isACK then lit " ACK" else if p.isNAK then lit " NAK" else []

theorem shownStatus_iff (p q : Packet) (h : shownStatus p = shownStatus q) : (p.isACK = q.isACK) ∧ (p.isNAK = q.isNAK) := by
  have hx : ∀ p : Packet, p.isACK = true → p.isNAK = false := by
    intro p h
    unfold Packet.isACK Packet.isNAK at *
    by_cases h1 : 0x60 ≤ p.command.toNat <;> simp_all
  unfold shownStatus at h
  have e1 : lit " ACK" ≠ lit " NAK" := by decide
  have e2 : lit " ACK" ≠ [] := by decide
  have e3 : lit " NAK" ≠ [] := by decide
  have h1 := hx p
  have h2 := hx q
  rcases hp : p.isACK <;> rcases hq : q.isACK <;> rcases hp' : p.isNAK <;> rcases hq' : q.isNAK <;>
    simp_all

theorem text_parts (i j : Byte) (t u : Bytes) (p q : Packet) (ht : ∀ c ∈ t, hexy c = true) (hu : ∀ c ∈ u, hexy c = true)
    (h : plmCommandString i ++ t ++ shownStatus p = plmCommandString j ++ u ++ shownStatus q) :
    i = j ∧ t = u ∧ shownStatus p = shownStatus q := by
  have hs : shownStatus p = shownStatus q := by
    have hcase : ∀ p : Packet, shownStatus p = lit " ACK" ∨ shownStatus p = lit " NAK" ∨ shownStatus p = [] := by
      intro p; unfold shownStatus; split_ifs <;> simp
    have ht' : ∀ w, w = lit " ACK" ∨ w = lit " NAK" → plmCommandString i ++ t = plmCommandString j ++ u ++ w → False :=
      fun w hw h => no_tail i t w ht _ hw h
    have hu' : ∀ w, w = lit " ACK" ∨ w = lit " NAK" → plmCommandString j ++ u = plmCommandString i ++ t ++ w → False :=
      fun w hw h => no_tail j u w hu _ hw h
    rcases hcase p with hp | hp | hp <;> rcases hcase q with hq | hq | hq <;> rw [hp, hq] at h ⊢
    · obtain ⟨-, h⟩ := List.append_inj' h (by decide)
      exact h
    · rw [List.append_nil] at h; exact (hu' _ (Or.inl rfl) h.symm).elim
    · obtain ⟨-, h⟩ := List.append_inj' h (by decide)
      exact h
    · rw [List.append_nil] at h; exact (hu' _ (Or.inr rfl) h.symm).elim
    · rw [List.append_nil] at h; exact (ht' _ (Or.inl rfl) h).elim
    · rw [List.append_nil] at h; exact (ht' _ (Or.inr rfl) h).elim
  rw [hs] at h
  have h := List.append_cancel_right h
  have hi : i = j := by
    have := congrArg strip h
    rw [strip_append _ _ ht, strip_append _ _ hu] at this
    rw [← plmOfStripped_string i, this, plmOfStripped_string]
  rw [hi] at h
  exact ⟨hi, List.append_cancel_left h, hs⟩

/-- What the text of a packet can tell of its answer: for the commands of the host, whether it was accepted or refused. -/
def Spec.SameStatus (p q : Packet) : Prop := 0x60 ≤ p.command.toNat → (p.ack = 0x06#8 ↔ q.ack = 0x06#8) ∧ (p.ack = 0x15#8 ↔ q.ack = 0x15#8)

theorem sameStatus_of (p q : Packet) (hc : p.command = q.command) (h : shownStatus p = shownStatus q) : SameStatus p q := by
  intro h6
  obtain ⟨h1, h2⟩ := shownStatus_iff p q h
  have h6' : 0x60 ≤ q.command.toNat := hc ▸ h6
  unfold Packet.isACK at h1
  unfold Packet.isNAK at h2
  constructor
  · by_cases ha : p.ack = 0x06#8 <;> by_cases hb : q.ack = 0x06#8 <;> simp_all
  · by_cases ha : p.ack = 0x15#8 <;> by_cases hb : q.ack = 0x15#8 <;> simp_all

/-- C176: a packet as logs show it (`%v`) identifies its command, all bytes of its payload and how the modem answered. -/
theorem packet_text (p q : Packet) (h : p.formatV = q.formatV) : p.command = q.command ∧ p.payload = q.payload ∧ SameStatus p q := by
  obtain ⟨h1, h2, h3⟩ := text_parts p.command q.command (shownPayload p.payload) (shownPayload q.payload) p q
    (shownPayload_hexy _) (shownPayload_hexy _) h
  exact ⟨h1, shownPayload_inj _ _ h2, sameStatus_of p q h1 h3⟩

/-- C176: the short text of a packet (`%s`) identifies its command and how the modem answered. -/
theorem packet_name (p q : Packet) (h : p.string = q.string) : p.command = q.command ∧ SameStatus p q := by
  have h' : plmCommandString p.command ++ [] ++ shownStatus p = plmCommandString q.command ++ [] ++ shownStatus q := by
    rw [List.append_nil, List.append_nil]; exact h
  obtain ⟨h1, -, h3⟩ := text_parts p.command q.command [] [] p q (by simp) (by simp) h'
  exact ⟨h1, sameStatus_of p q h1 h3⟩

example : Packet.formatV ⟨0x6f#8, [0x40, 0xe2, 0x01], 0x06⟩ = ascii "Manage All Link Record 40 e2 01 ACK" ∧
    Packet.formatV ⟨0x50#8, [0xac], 0⟩ = ascii "Std Msg Received ac" ∧ Packet.string ⟨0x60#8, [], 0x15⟩ = ascii "Get Info NAK" := by decide

/-! Requests. -/

theorem link_string_inj (l k : LinkRecord) (hl : l.address.toNat < 2 ^ 24) (hk : k.address.toNat < 2 ^ 24) (h : l.string = k.string) :
    textNormal l = textNormal k := by
  unfold LinkRecord.string at h
  simp only [List.append_assoc] at h
  have hlen : ∀ f : RecordControlFlags, f.string.length = 2 := fun _ => rfl
  obtain ⟨h1, h⟩ := List.append_inj h (by rw [hlen, hlen])
  have h := List.append_cancel_left h
  have h1' : (inUseBit l.flags ↔ inUseBit k.flags) ∧ (controllerBit l.flags ↔ controllerBit k.flags) := by
    have key : ∀ f : RecordControlFlags, f.string = [if inUseBit f then ch 'U' else ch 'A', if controllerBit f then ch 'C' else ch 'R'] := by
      decide +kernel
    rw [key, key] at h1
    by_cases a : inUseBit l.flags <;> by_cases b : inUseBit k.flags <;> by_cases c : controllerBit l.flags <;>
      by_cases d : controllerBit k.flags <;> simp only [a, b, c, d, if_true, if_false] at h1 ⊢ <;>
      first | exact ⟨Iff.rfl, Iff.rfl⟩ | exact absurd h1 (by decide) | tauto
  simp only [List.singleton_append] at h
  obtain ⟨h2, h⟩ := split_first (x := ch ' ') h (decByte_space _) (decByte_space _)
  have hal : ∀ a : Address, a.string.length = 8 := fun _ => rfl
  obtain ⟨h3, h⟩ := List.append_inj h (by rw [hal, hal])
  have h := List.append_cancel_left (List.cons.inj h).2
  obtain ⟨h4, h⟩ := List.append_inj h (by rw [hex2_length, hex2_length])
  have h := List.append_cancel_left (List.cons.inj h).2
  obtain ⟨h5, h⟩ := List.append_inj h (by rw [hex2_length, hex2_length])
  have h := List.append_cancel_left (List.cons.inj h).2
  simp only [textNormal, h1'.1, h1'.2, decByte_inj h2, address_text_inj hl hk h3, hex2_inj h4, hex2_inj h5, hex2_inj h]

/-- C176: a request to change a record, as shown, identifies what is asked for, the group, the address and the data of the record, its role
and whether it is in use; a request to start linking identifies mode and group. -/
theorem request_text (m n : ManageRecord) (hm : m.link.address.toNat < 2 ^ 24) (hn : n.link.address.toNat < 2 ^ 24) (mode mode' : Byte) (g g' : Group) :
    (m.string = n.string → m.cmd = n.cmd ∧ textNormal m.link = textNormal n.link) ∧
    (allLinkReqString mode g = allLinkReqString mode' g' → mode = mode' ∧ g = g') := by
  constructor
  · intro h
    unfold ManageRecord.string at h
    rw [List.append_assoc, List.append_assoc] at h
    obtain ⟨h1, h⟩ := List.append_inj h (by rw [hex2_length, hex2_length])
    exact ⟨hex2_inj h1, link_string_inj _ _ hm hn (List.append_cancel_left h)⟩
  · intro h
    unfold allLinkReqString at h
    rw [List.append_assoc, List.append_assoc] at h
    obtain ⟨h1, h⟩ := List.append_inj h (by rw [hex2_length, hex2_length])
    exact ⟨hex2_inj h1, decByte_inj (List.append_cancel_left h)⟩

example : (⟨0x80#8, ⟨0xe2#8, 1#8, 0x010203#32, 4, 5, 6⟩⟩ : ManageRecord).link.address.toNat < 2 ^ 24 := by decide

end Insteon
