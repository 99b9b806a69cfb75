import Verif.Lemmas.Scan
import Verif.Props.Address
import Verif.Spec.LinkText
import Verif.Model.LinkText

/-
C15-C22, C84: link records (link.go, util/link.go text functions).
-/

namespace Insteon
open Spec

/-! ### C15 flag setters -/

/-- The attributes reported are the bits by position, and complementary. -/
theorem link_flag_attributes (f : RecordControlFlags) :
    (f.inUse = true ↔ inUseBit f) ∧ f.available = !f.inUse
      ∧ (f.controller = true ↔ controllerBit f) ∧ f.responder = !f.controller
      ∧ (f.lastRecord = true ↔ ¬ notLastBit f) := by
  revert f; decide +kernel

/-- The six setters a caller can invoke. -/
inductive FlagOp | inUse | available | controller | responder | lastRecord | notLastRecord
deriving DecidableEq

/-- Effect of a setter in the model. -/
def FlagOp.apply (f : RecordControlFlags) : FlagOp → RecordControlFlags
  | .inUse => f.setInUse
  | .available => f.setAvailable
  | .controller => f.setController
  | .responder => f.setResponder
  | .lastRecord => f.setLastRecord
  | .notLastRecord => f.clearLastRecord

/-- Specification: the three attributes as independent Booleans. -/
structure FlagAttrs where
  inUse : Bool
  controller : Bool
  last : Bool
deriving DecidableEq

def FlagAttrs.apply (a : FlagAttrs) : FlagOp → FlagAttrs
  | .inUse => { a with inUse := true }
  | .available => { a with inUse := false }
  | .controller => { a with controller := true }
  | .responder => { a with controller := false }
  | .lastRecord => { a with last := true }
  | .notLastRecord => { a with last := false }

def flagAttrs (f : RecordControlFlags) : FlagAttrs := ⟨f.inUse, f.controller, f.lastRecord⟩

/-- After any sequence of setter calls the three attributes are what the sequence says, and the
other five bits are untouched. -/
theorem link_flag_setters (ops : List FlagOp) (f : RecordControlFlags) :
    flagAttrs (ops.foldl FlagOp.apply f) = ops.foldl FlagAttrs.apply (flagAttrs f)
      ∧ (ops.foldl FlagOp.apply f) &&& 0x3d#8 = f &&& 0x3d#8 := by
  have step : ∀ (f : RecordControlFlags) (o : FlagOp),
      flagAttrs (o.apply f) = (flagAttrs f).apply o ∧ (o.apply f) &&& 0x3d#8 = f &&& 0x3d#8 := by
    intro f o
    cases o <;> (revert f; decide +kernel)
  induction ops generalizing f with
  | nil => exact ⟨rfl, rfl⟩
  | cons o ops ih =>
    have h1 := ih (o.apply f)
    have h2 := step f o
    simp only [List.foldl_cons]
    rw [← h2.1]
    exact ⟨h1.1, h1.2.trans h2.2⟩

example : flagAttrs ([FlagOp.inUse, .controller, .lastRecord, .responder].foldl FlagOp.apply 0x3f#8)
    = ⟨true, false, true⟩ := by decide

/-! ### C16 flag text -/

/-- The text is 'U' or 'A' followed by 'C' or 'R'. -/
theorem link_flag_text (f : RecordControlFlags) :
    f.string = (if inUseBit f then ascii "U" else ascii "A")
      ++ (if controllerBit f then ascii "C" else ascii "R") := by
  revert f; decide +kernel

/-- Parsing the text of `f` gives its availability and role and keeps the receiver's other bits. -/
theorem link_flag_text_roundtrip (f recv : RecordControlFlags) :
    ((recv.unmarshalText f.string).2 = none)
      ∧ (recv.unmarshalText f.string).1 = (f &&& 0xc0#8) ||| (recv &&& 0x3f#8) := by
  have h : ∀ u c : Bool, ∀ r : RecordControlFlags,
      (r.unmarshalText [if u then ch 'U' else ch 'A', if c then ch 'C' else ch 'R']).2 = none ∧
      (r.unmarshalText [if u then ch 'U' else ch 'A', if c then ch 'C' else ch 'R']).1
        = ((if u then 0x80#8 else 0#8) ||| (if c then 0x40#8 else 0#8)) ||| (r &&& 0x3f#8) := by
    decide +kernel
  have hf : ∀ f : RecordControlFlags,
      ((if f.inUse then 0x80#8 else 0#8) ||| (if f.controller then 0x40#8 else 0#8)) = f &&& 0xc0#8 := by
    decide +kernel
  have := h f.inUse f.controller recv
  rw [hf] at this
  exact this

/-- Exactly the four documented texts are accepted. -/
theorem link_flag_text_accepts (recv : RecordControlFlags) (text : Bytes) :
    (recv.unmarshalText text).2 = none ↔
      text = ascii "AC" ∨ text = ascii "AR" ∨ text = ascii "UC" ∨ text = ascii "UR" := by
  have hall : ∀ r : RecordControlFlags, ∀ x ∈ [ascii "AC", ascii "AR", ascii "UC", ascii "UR"], (r.unmarshalText x).2 = none := by decide +kernel
  constructor
  · unfold RecordControlFlags.unmarshalText
    split
    · rename_i c0 c1 hc
      have hj := charsOf_flatten text.length text (Nat.le_refl _)
      rw [hc] at hj
      have hj : text = c0 ++ c1 := by simpa using hj.symm
      simp only [RecordControlFlags.unmarshalRole, RecordControlFlags.unmarshalAvail]
      intro h
      have e1 : ascii "AC" = [ch 'A'] ++ [ch 'C'] := by decide
      have e2 : ascii "AR" = [ch 'A'] ++ [ch 'R'] := by decide
      have e3 : ascii "UC" = [ch 'U'] ++ [ch 'C'] := by decide
      have e4 : ascii "UR" = [ch 'U'] ++ [ch 'R'] := by decide
      rw [hj, e1, e2, e3, e4]
      by_cases hA : c0 = [ch 'A']
      · by_cases hC : c1 = [ch 'C']
        · simp [hA, hC]
        · by_cases hR : c1 = [ch 'R']
          · simp [hA, hR]
          · simp [hC, hR] at h
      · by_cases hU : c0 = [ch 'U']
        · by_cases hC : c1 = [ch 'C']
          · simp [hU, hC]
          · by_cases hR : c1 = [ch 'R']
            · simp [hU, hR]
            · simp [hC, hR] at h
        · exfalso
          rw [if_neg hA, if_neg hU] at h
          by_cases hC : c1 = [ch 'C']
          · simp [hC] at h
          · by_cases hR : c1 = [ch 'R']
            · rw [if_neg hC, if_pos hR] at h; cases h
            · simp [hC, hR] at h
    · intro h; cases h
  · rintro (rfl | rfl | rfl | rfl) <;> exact hall recv _ (by simp)

/-- Text that is not accepted can only change what is in the two attributes. -/
theorem link_flag_text_rest (recv : RecordControlFlags) (text : Bytes) :
    (recv.unmarshalText text).1.toNat % 64 = recv.toNat % 64 := by
  have key : ∀ r : RecordControlFlags, r.setAvailable.toNat % 64 = r.toNat % 64 ∧ r.setInUse.toNat % 64 = r.toNat % 64 ∧
      r.setController.toNat % 64 = r.toNat % 64 ∧ r.setResponder.toNat % 64 = r.toNat % 64 := by decide +kernel
  unfold RecordControlFlags.unmarshalText
  split
  · simp only [RecordControlFlags.unmarshalRole, RecordControlFlags.unmarshalAvail]
    split_ifs <;> simp [key]
  · rfl

example : RecordControlFlags.unmarshalText 0x3f#8 (ascii "UR") = (0xbf#8, none) := by decide
example : (RecordControlFlags.unmarshalText 0#8 (ascii "XX")).2 ≠ none := by decide

/-! ### C17 wire form -/

/-- A record encodes to 8 bytes that decode to it, up to the address's low 24 bits. -/
theorem link_wire_roundtrip (l recv : LinkRecord) :
    l.marshalBinary.length = 8 ∧
    recv.unmarshalBinary l.marshalBinary
      = ({ l with address := BitVec.ofNat 32 (l.address.toNat % 2 ^ 24) }, none) := by
  refine ⟨by simp [LinkRecord.marshalBinary, Address.bytes], ?_⟩
  have := address_bytes_roundtrip l.address
  simp only [Address.bytes] at this
  simp [LinkRecord.marshalBinary, LinkRecord.unmarshalBinary, Address.bytes, this]

theorem link_wire_roundtrip_valid (l recv : LinkRecord) (h : l.address.toNat < 2 ^ 24) :
    recv.unmarshalBinary l.marshalBinary = (l, none) := by
  rw [(link_wire_roundtrip l recv).2, Nat.mod_eq_of_lt h]
  simp

/-- Decoding any buffer: shorter than 8 bytes is an error and leaves the record alone,
otherwise the decoded record encodes to the first 8 bytes. -/
theorem wire_link_roundtrip (recv : LinkRecord) (buf : Bytes) :
    (buf.length < 8 → recv.unmarshalBinary buf = (recv, some (.wrapped .bufferTooShort)))
      ∧ (8 ≤ buf.length → (recv.unmarshalBinary buf).2 = none ∧
          (recv.unmarshalBinary buf).1.marshalBinary = buf.take 8) := by
  match buf with
  | b0 :: b1 :: b2 :: b3 :: b4 :: b5 :: b6 :: b7 :: rest =>
    constructor
    · intro h; simp at h; omega
    · intro _
      have := (address_put_bytes b2 b3 b4 []).1
      simp [LinkRecord.unmarshalBinary, LinkRecord.marshalBinary, this]
  | [] | [_] | [_, _] | [_, _, _] | [_, _, _, _] | [_, _, _, _, _] | [_, _, _, _, _, _]
  | [_, _, _, _, _, _, _] => simp [LinkRecord.unmarshalBinary]

example : LinkRecord.marshalBinary ⟨0xe2#8, 1#8, 0x010203#32, 4#8, 5#8, 6#8⟩
    = [0xe2#8, 1#8, 1#8, 2#8, 3#8, 4#8, 5#8, 6#8] := by decide

/-! ### C18 identity -/

theorem id_eq_iff (a b : LinkRecord) :
    a.id = b.id ↔ a.flags &&& 0x40#8 = b.flags &&& 0x40#8 ∧ a.group = b.group
      ∧ a.address.toNat % 2 ^ 24 = b.address.toNat % 2 ^ 24 := by
  have hb : ∀ x : Address, [byte32 (x >>> 16), byte32 ((x &&& 0xff00#32) >>> 8),
      byte32 (x &&& 0xff#32)] = x.bytes := by
    intro x
    have e1 : byte32 ((x &&& 0xff00#32) >>> 8) = byte32 (x >>> 8) := by
      ext i hi
      simp only [byte32, BitVec.getElem_setWidth, BitVec.getLsbD_ushiftRight, BitVec.getLsbD_and]
      interval_cases i <;> simp
    have e2 : byte32 (x &&& 0xff#32) = byte32 x := by
      ext i hi
      simp only [byte32, BitVec.getElem_setWidth, BitVec.getLsbD_and]
      interval_cases i <;> simp
    rw [e1, e2]; rfl
  have hid : ∀ x : LinkRecord, x.id = (x.flags &&& 0x40#8) :: x.group :: x.address.bytes := by
    intro x; simp only [LinkRecord.id, hb]
  have hinj : ∀ x y : Address, x.bytes = y.bytes ↔ x.toNat % 2 ^ 24 = y.toNat % 2 ^ 24 := by
    intro x y
    constructor
    · intro h
      have e1 := address_bytes_roundtrip x
      have e2 := address_bytes_roundtrip y
      rw [h, e2] at e1
      have := congrArg BitVec.toNat e1
      simp only [BitVec.toNat_ofNat] at this
      omega
    · intro h
      have e : ∀ z : Address, z.bytes = [BitVec.ofNat 8 (z.toNat % 2 ^ 24 / 65536),
          BitVec.ofNat 8 (z.toNat % 2 ^ 24 / 256), BitVec.ofNat 8 (z.toNat % 2 ^ 24)] := by
        intro z
        simp only [Address.bytes, List.cons.injEq, and_true]
        refine ⟨?_, ?_, ?_⟩ <;> apply BitVec.eq_of_toNat_eq
        · rw [byte32_shr_toNat, BitVec.toNat_ofNat]; omega
        · rw [byte32_shr_toNat, BitVec.toNat_ofNat]; omega
        · rw [byte32_toNat, BitVec.toNat_ofNat]; omega
      rw [e x, e y, h]
  rw [hid, hid, List.cons.injEq, List.cons.injEq, hinj]

/-- Exactly when two records are `Equal`: same role, group and 24-bit address. Missing from the
documented property: availability is not compared. -/
theorem link_equal_iff_partial (a b : LinkRecord) :
    a.equal b = true ↔ (controllerBit a.flags ↔ controllerBit b.flags) ∧ a.group = b.group
      ∧ a.address.toNat % 2 ^ 24 = b.address.toNat % 2 ^ 24 := by
  have hc : ∀ f g : RecordControlFlags, (f &&& 0x40#8 = g &&& 0x40#8) ↔
      (controllerBit f ↔ controllerBit g) := by
    intro f g
    have h1 : ∀ f : RecordControlFlags, f &&& 0x40#8 = if controllerBit f then 0x40#8 else 0#8 := by
      decide +kernel
    rw [h1 f, h1 g]
    by_cases h : controllerBit f <;> by_cases h' : controllerBit g <;> simp [h, h']
  simp only [LinkRecord.equal, beq_iff_eq, id_eq_iff, hc]

/-- Data bytes never matter. -/
theorem link_equal_ignores_data (l : LinkRecord) (x y z : Byte) :
    l.equal { l with d0 := x, d1 := y, d2 := z } = true := by
  rw [link_equal_iff_partial]; simp

/-- `Equal` agrees with the record ID, the key of the maps of links. -/
theorem link_equal_id (a b : LinkRecord) : a.equal b = true ↔ LinkRecord.idPtr (some a) = LinkRecord.idPtr (some b) := by
  unfold LinkRecord.equal LinkRecord.idPtr
  exact beq_iff_eq

theorem link_equal_equivalence : Equivalence fun a b : LinkRecord => a.equal b = true := by
  refine ⟨fun a => ?_, fun {a b} h => ?_, fun {a b c} h1 h2 => ?_⟩
  · rw [link_equal_iff_partial]; simp
  · rw [link_equal_iff_partial] at *; exact ⟨h.1.symm, h.2.1.symm, h.2.2.symm⟩
  · rw [link_equal_iff_partial] at *
    exact ⟨h1.1.trans h2.1, h1.2.1.trans h2.2.1, h1.2.2.trans h2.2.2⟩

/-- Documented and false: equal records have the same availability. A deleted record is
equal to the record that replaced it. -/
theorem link_equal_availability_refuted :
    ¬ ∀ a b : LinkRecord, a.equal b = true → a.flags.available = b.flags.available := by
  intro h
  exact absurd (h ⟨0x82#8, 1, 0x010203#32, 0, 0, 0⟩ ⟨0x02#8, 1, 0x010203#32, 0, 0, 0⟩ (by decide))
    (by decide)

/-- A nil record has the key of a responder record for group 0 and address 00.00.00. -/
theorem link_nil_id (l : LinkRecord) :
    LinkRecord.idPtr (some l) = LinkRecord.idPtr none ↔
      ¬ controllerBit l.flags ∧ l.group = 0 ∧ l.address.toNat % 2 ^ 24 = 0 := by
  have h0 : LinkRecord.idPtr none = LinkRecord.id LinkRecord.zero := by decide
  rw [h0]
  have := link_equal_iff_partial l LinkRecord.zero
  simp only [LinkRecord.equal, beq_iff_eq] at this
  simp only [LinkRecord.idPtr]
  rw [this]
  have hz : ¬ controllerBit LinkRecord.zero.flags := by decide
  simp only [hz, iff_false]
  rfl

/-! ### C22 group text -/

theorem decNumber_iff (s : Bytes) (acc n : Nat) :
    decNumber acc s = some n ↔ (∀ c ∈ s, 48 ≤ c.toNat ∧ c.toNat ≤ 57)
      ∧ n = s.foldl (fun n c => 10 * n + (c.toNat - 48)) acc := by
  induction s generalizing acc with
  | nil => simp [decNumber, eq_comm]
  | cons b s ih =>
    by_cases h : 48 ≤ b.toNat ∧ b.toNat ≤ 57
    · simp [decNumber, h, ih]
    · simp only [decNumber, if_neg h]
      constructor
      · simp
      · rintro ⟨h1, -⟩; exact absurd (h1 b (by simp)) h

/-- The number reader accepts exactly decimal integer texts whose value fits 64 bits. -/
theorem atoi_iff (s : Bytes) (v : Int) :
    atoi s = some v ↔ IntegerText s v ∧ -9223372036854775808 ≤ v ∧ v ≤ 9223372036854775807 := by
  have hp : ascii "+" = [ch '+'] := by decide
  have hm : ascii "-" = [ch '-'] := by decide
  have hin : ∀ i : Int, inInt64 i = some v ↔ i = v ∧ -9223372036854775808 ≤ v ∧ v ≤ 9223372036854775807 := by
    intro i
    unfold inInt64
    split_ifs with h
    · constructor
      · intro e; simp at e; subst e; exact ⟨rfl, h⟩
      · rintro ⟨rfl, -⟩; rfl
    · constructor
      · simp
      · rintro ⟨rfl, h'⟩; exact absurd h' h
  have hpd : ¬ (48 ≤ (ch '+').toNat ∧ (ch '+').toNat ≤ 57) := by decide
  have hmd : ¬ (48 ≤ (ch '-').toNat ∧ (ch '-').toNat ≤ 57) := by decide
  cases s with
  | nil => simp [atoi, IntegerText, Digits, hp, hm]
  | cons b s =>
    simp only [atoi, IntegerText, hp, hm, List.cons_append, List.nil_append, List.cons.injEq]
    have noDig : ∀ c : Byte, ¬ (48 ≤ c.toNat ∧ c.toNat ≤ 57) → ¬ Digits (c :: s) := by
      intro c hc hd
      exact hc (hd.2 c (by simp))
    by_cases h1 : b = ch '+'
    · subst h1
      have hne : ¬ ch '+' = ch '-' := by decide
      simp only [if_true, noDig _ hpd, false_and, hne, exists_eq_left', true_and,
        exists_false, or_false, false_or]
      by_cases hs : s = []
      · subst hs; simp [Digits]
      · simp only [hs, if_false]
        cases hd : decNumber 0 s with
        | none =>
          simp only [Option.bind_none]
          constructor
          · simp
          · rintro ⟨⟨hd', -⟩, -⟩
            rw [(decNumber_iff s 0 _).mpr ⟨hd'.2, rfl⟩] at hd; simp at hd
        | some n =>
          obtain ⟨a, rfl⟩ := (decNumber_iff s 0 n).mp hd
          simp only [Option.bind_some, hin]
          constructor
          · rintro ⟨rfl, h⟩; exact ⟨⟨⟨hs, a⟩, rfl⟩, h⟩
          · rintro ⟨⟨-, rfl⟩, h⟩; exact ⟨rfl, h⟩
    · by_cases h2 : b = ch '-'
      · subst h2
        have hne : ¬ ch '-' = ch '+' := by decide
        simp only [if_true, noDig _ hmd, false_and, hne, exists_eq_left', true_and, if_false,
          exists_false, false_or]
        by_cases hs : s = []
        · subst hs; simp [Digits]
        · simp only [hs, if_false]
          cases hd : decNumber 0 s with
          | none =>
            simp only [Option.bind_none]
            constructor
            · simp
            · rintro ⟨⟨hd', -⟩, -⟩
              rw [(decNumber_iff s 0 _).mpr ⟨hd'.2, rfl⟩] at hd; simp at hd
          | some n =>
            obtain ⟨a, rfl⟩ := (decNumber_iff s 0 n).mp hd
            simp only [Option.bind_some, hin]
            constructor
            · rintro ⟨rfl, h⟩; exact ⟨⟨⟨hs, a⟩, rfl⟩, h⟩
            · rintro ⟨⟨-, rfl⟩, h⟩; exact ⟨rfl, h⟩
      · simp only [h1, h2, if_false, false_and, exists_false, or_false]
        cases hd : decNumber 0 (b :: s) with
        | none =>
          simp only [Option.bind_none]
          constructor
          · simp
          · rintro ⟨⟨hd', -⟩, -⟩
            rw [(decNumber_iff (b :: s) 0 _).mpr ⟨hd'.2, rfl⟩] at hd; simp at hd
        | some n =>
          obtain ⟨a, rfl⟩ := (decNumber_iff (b :: s) 0 n).mp hd
          simp only [Option.bind_some, hin]
          constructor
          · rintro ⟨rfl, h⟩; exact ⟨⟨⟨by simp, a⟩, rfl⟩, h⟩
          · rintro ⟨⟨-, rfl⟩, h⟩; exact ⟨rfl, h⟩

/-- Parsing a group succeeds exactly for decimal integers from 0 to 255 and stores that value. -/
theorem group_text_accepts (g : Group) (text : Bytes) (v : Nat) (hv : v ≤ 255) :
    IntegerText text v → Group.unmarshalText g text = (BitVec.ofNat 8 v, none) := by
  intro h
  have : atoi text = some (v : Int) := (atoi_iff text v).mpr ⟨h, by omega, by omega⟩
  have h0 : (0 : Int) ≤ v ∧ (v : Int) ≤ 255 := by omega
  simp [Group.unmarshalText, this, hv]

theorem group_text_rejects (g : Group) (text : Bytes)
    (h : ¬ ∃ v : Nat, v ≤ 255 ∧ IntegerText text v) :
    (Group.unmarshalText g text).1 = g ∧ (Group.unmarshalText g text).2 ≠ none := by
  unfold Group.unmarshalText
  cases ha : atoi text with
  | none => simp
  | some v =>
    have hi := ((atoi_iff text v).mp ha).1
    have hn : ¬ (0 ≤ v ∧ v ≤ 255) := by
      rintro ⟨h0, h1⟩
      apply h
      refine ⟨v.toNat, by omega, ?_⟩
      have : ((v.toNat : Nat) : Int) = v := by omega
      rw [this]; exact hi
    simp [hn]

/-- Every group prints to text that parses back to it. -/
theorem group_text_roundtrip (g recv : Group) :
    Group.unmarshalText recv (Group.string g) = (g, none) := by
  have h := (decByte_spec g).2.2.2
  have hlt : g.toNat ≤ 255 := by have := g.isLt; omega
  unfold Group.string
  rw [group_text_accepts recv _ g.toNat hlt ((atoi_iff _ _).mp h).1]
  simp

example : IntegerText (ascii "+007") 7 := by
  refine Or.inr (Or.inl ⟨ascii "007", by decide, ⟨by decide, by decide⟩, by decide⟩)
example : Group.unmarshalText 9#8 (ascii "256") = (9#8, some (.other 14)) := by decide

/-! ### C19 record text -/

theorem string_no_space (a : Address) : ∀ x ∈ a.string, solid x = true := by
  intro x hx
  simp only [Address.string, List.mem_append, List.mem_singleton] at hx
  rcases hx with (((hx | rfl) | hx) | rfl) | hx
  · exact hex2_noSpace _ x hx
  · decide
  · exact hex2_noSpace _ x hx
  · decide
  · exact hex2_noSpace _ x hx

theorem flags_string_no_space (f : RecordControlFlags) : ∀ x ∈ f.string, solid x = true := by
  intro x hx
  simp only [RecordControlFlags.string, List.mem_cons, List.not_mem_nil, or_false] at hx
  rcases hx with rfl | rfl
  · split_ifs <;> decide
  · split_ifs <;> decide

/-- The six fields of a printed record. -/
theorem fields_marshalText (l : LinkRecord) :
    fields l.marshalText
      = [l.flags.string, decByte l.group, l.address.string, hex2 l.d0, hex2 l.d1, hex2 l.d2] := by
  have hfl : l.flags.string.length = 2 := by simp [RecordControlFlags.string]
  have hal : l.address.string.length = 8 := address_text_length _
  have e : l.marshalText =
      l.flags.string ++ (List.replicate (4 + (5 - (decByte l.group).length)) (ch ' ') ++
      (decByte l.group ++ (List.replicate 1 (ch ' ') ++ (l.address.string ++ (List.replicate 3 (ch ' ') ++
      (hex2 l.d0 ++ (List.replicate 1 (ch ' ') ++ (hex2 l.d1 ++ (List.replicate 1 (ch ' ') ++ hex2 l.d2))))))))) := by
    rw [← List.replicate_append_replicate]
    simp [LinkRecord.marshalText, padRight, padLeft, hfl, hal, List.replicate]
  rw [e]
  rw [fields_token_spaces _ _ _ (by simp [RecordControlFlags.string]) (flags_string_no_space _) (by omega)]
  rw [fields_token_spaces _ _ _ (decByte_spec _).2.1 (decByte_spec _).1 (by simp)]
  rw [fields_token_spaces _ _ _ (by intro h; rw [h] at hal; simp at hal) (string_no_space _) (by simp)]
  rw [fields_token_spaces _ _ _ (hex2_ne_nil _) (hex2_noSpace _) (by simp)]
  rw [fields_token_spaces _ _ _ (hex2_ne_nil _) (hex2_noSpace _) (by simp)]
  rw [fields_token_end _ (hex2_ne_nil _) (hex2_noSpace _)]

theorem scanData_hex2 (old b : Byte) : LinkRecord.scanData old (hex2 b) = (b, none) := by
  simp [LinkRecord.scanData, scan_hex2_field]

/-- Parsing a printed record into any receiver. -/
theorem link_text_roundtrip_recv (l recv : LinkRecord) :
    recv.unmarshalText l.marshalText =
      ({ flags := ((l.flags &&& 0xc0#8) ||| (recv.flags &&& 0x3f#8)) ||| 0x02#8,
         group := l.group, address := BitVec.ofNat 32 (l.address.toNat % 2 ^ 24),
         d0 := l.d0, d1 := l.d1, d2 := l.d2 }, none) := by
  have hf := link_flag_text_roundtrip l.flags recv.flags
  have hg := group_text_roundtrip l.group recv.group
  have ha := address_text_roundtrip l.address recv.address
  simp only [Group.string] at hg
  unfold LinkRecord.unmarshalText
  rw [fields_marshalText]
  simp only [LinkRecord.unmarshalFields, hf.1, hf.2, hg, ha, scanData_hex2,
    RecordControlFlags.clearLastRecord, RecordControlFlags.setBit]
  simp

/-- The text form of a record parses back to the record with the same availability, role,
group, address and data, never marked as end of database. -/
theorem link_text_roundtrip (l : LinkRecord) :
    LinkRecord.zero.unmarshalText l.marshalText = (textNormal l, none) := by
  rw [link_text_roundtrip_recv]
  have h : ∀ f : RecordControlFlags, ((f &&& 0xc0#8) ||| (LinkRecord.zero.flags &&& 0x3f#8)) ||| 0x02#8
      = BitVec.ofNat 8 ((if inUseBit f then 128 else 0) + (if controllerBit f then 64 else 0) + 2) := by
    decide +kernel
  rw [h]; rfl

/-- Records that carry only availability, role and the end-of-list bit survive exactly. -/
theorem link_text_roundtrip_exact (l : LinkRecord) (ha : l.address.toNat < 2 ^ 24)
    (hf : l.flags &&& 0x3f#8 = 0x02#8) :
    LinkRecord.zero.unmarshalText l.marshalText = (l, none) := by
  rw [link_text_roundtrip]
  have h : ∀ f : RecordControlFlags, f &&& 0x3f#8 = 0x02#8 →
      BitVec.ofNat 8 ((if inUseBit f then 128 else 0) + (if controllerBit f then 64 else 0) + 2) = f := by
    decide +kernel
  obtain ⟨flags, group, address, d0, d1, d2⟩ := l
  simp only [textNormal, h flags hf, Nat.mod_eq_of_lt ha]
  simp

example : (LinkRecord.controllerLink 1#8 0x010203#32).flags &&& 0x3f#8 = 0x02#8
    ∧ LinkRecord.marshalText ⟨0xc2#8, 12#8, 0x8f1c05#32, 0#8, 0x1c#8, 1#8⟩
      = ascii "UC       12 8f.1c.05   00 1c 01" := by decide

/-! ### C20 link list text -/

theorem splitLinesAux_line (l acc s : Bytes) (h : 0x0a#8 ∉ l) :
    splitLinesAux acc (l ++ 0x0a#8 :: s) = (acc.reverse ++ l) :: splitLinesAux [] s := by
  induction l generalizing acc with
  | nil => simp [splitLinesAux]
  | cons b l ih =>
    have hb : b ≠ 0x0a#8 := fun e => h (by simp [e])
    have hl : 0x0a#8 ∉ l := fun e => h (by simp [e])
    simp [splitLinesAux, hb, ih _ hl]

theorem splitLines_unlines (ls : List Bytes) (h : ∀ l ∈ ls, 0x0a#8 ∉ l) :
    splitLines (unlines ls) = ls ++ [[]] := by
  induction ls with
  | nil => simp [splitLines, splitLinesAux, unlines]
  | cons l ls ih =>
    unfold splitLines at *
    have := splitLinesAux_line l [] (unlines ls) (h l (by simp))
    simp only [unlines, List.append_assoc, List.cons_append, List.nil_append] at *
    rw [this, ih (fun x hx => h x (by simp [hx]))]
    simp

/-- Printed records start with 'A' or 'U' and end with a hex digit, without newline. -/
theorem marshalText_shape (l : LinkRecord) :
    ∃ b s c, l.marshalText = b :: s ++ [c] ∧ solid b = true ∧ solid c = true
      ∧ b ≠ ch '#' ∧ 0x0a#8 ∉ l.marshalText := by
  refine ⟨if l.flags.inUse then ch 'U' else ch 'A',
    (padRight 5 l.flags.string).tail ++ [ch ' '] ++ padLeft 5 (decByte l.group) ++ [ch ' ']
    ++ padLeft 8 l.address.string ++ [ch ' ', ch ' ', ch ' ']
    ++ hex2 l.d0 ++ [ch ' '] ++ hex2 l.d1 ++ [ch ' '] ++ [hexDigit (l.d2.toNat / 16)],
    hexDigit (l.d2.toNat % 16), ?_, ?_, solid_hexDigit _ (byte_mod16 _), ?_, ?_⟩
  · simp [LinkRecord.marshalText, padRight, RecordControlFlags.string, hex2]
  · split_ifs <;> decide
  · split_ifs <;> decide
  · have nl : solid 0x0a#8 = false := by decide
    have nsp : ∀ s : Bytes, (∀ x ∈ s, solid x = true) → 0x0a#8 ∉ s := by
      intro s hs hm
      have := hs _ hm
      rw [nl] at this; simp at this
    have nbl : ∀ n, 0x0a#8 ∉ List.replicate n (ch ' ') := by
      intro n hm
      have := (List.mem_replicate.mp hm).2
      exact absurd this (by decide)
    have nb1 : 0x0a#8 ≠ ch ' ' := by decide
    simp only [LinkRecord.marshalText, padRight, padLeft, List.mem_append, not_or,
      List.mem_cons, List.not_mem_nil, not_false_eq_true, and_true, nb1]
    and_intros <;>
    first
    | exact nsp _ (flags_string_no_space _)
    | exact nbl _
    | exact nsp _ (decByte_spec _).1
    | exact nsp _ (string_no_space _)
    | exact nsp _ (hex2_noSpace _)

/-- The text of one line of an edited link file. -/
def lineText : Line → Bytes
  | .blank w => w
  | .comment w s => w ++ ascii "#" ++ s
  | .record l => l.marshalText

theorem blank_no_newline {w : Bytes} (h : Blank w) : 0x0a#8 ∉ w := by
  obtain ⟨cs, hcs, rfl⟩ := h
  have key : ∀ c ∈ whiteSpace, c ≠ 0x0a → 0x0a#8 ∉ utf8 c := by decide
  intro hm
  obtain ⟨c, hc, hm⟩ := List.mem_flatMap.mp hm
  exact key c (hcs c hc).1 (hcs c hc).2 hm

theorem lineText_no_newline (l : Line) (h : l.ok) : 0x0a#8 ∉ lineText l := by
  cases l with
  | blank w => exact blank_no_newline h
  | comment w s =>
    have hs : 0x0a#8 ∉ ascii "#" := by decide
    simp only [lineText, List.mem_append, not_or]
    exact ⟨⟨blank_no_newline h.1, hs⟩, h.2⟩
  | record l => obtain ⟨_, _, _, -, -, -, -, h⟩ := marshalText_shape l; exact h

theorem textToLinksLoop_lines (ls : List Line) (h : ∀ l ∈ ls, l.ok) (acc : List LinkRecord) :
    textToLinksLoop (ls.map lineText ++ [[]]) acc
      = (acc ++ (Line.records ls).map textNormal, none) := by
  induction ls generalizing acc with
  | nil => simp [textToLinksLoop, trimSpace, dropSpace, Line.records]
  | cons l ls ih =>
    have ih := fun acc => ih (fun x hx => h x (by simp [hx])) acc
    have hl := h l (by simp)
    simp only [List.map_cons, List.cons_append, textToLinksLoop]
    cases l with
    | blank w =>
      simp only [lineText, trimSpace_white (blank_white hl), List.length_nil, true_or, if_true, Line.records]
      exact ih acc
    | comment w s =>
      have e : ascii "#" = [ch '#'] := by decide
      have := trimSpace_head (b := ch '#') (blank_white hl.1) (by decide) s
      simp only [lineText, e, List.append_assoc, List.cons_append, List.nil_append, this, or_true,
        if_true, Line.records]
      exact ih acc
    | record r =>
      obtain ⟨b, s, c, hm, hb, hc, hne, -⟩ := marshalText_shape r
      have ht : trimSpace r.marshalText = r.marshalText := by
        rw [hm]; exact trimSpace_self s hb hc
      have hcond : ¬ (r.marshalText.length = 0 ∨ r.marshalText.head? = some (ch '#')) := by
        rw [hm]; simp [hne]
      simp only [lineText, ht, if_neg hcond, link_text_roundtrip, Line.records]
      rw [ih]
      simp

/-- A file made of printed records, blank lines and comment lines in any order parses to
exactly its records, in order. -/
theorem link_file_parse (ls : List Line) (h : ∀ l ∈ ls, l.ok) :
    textToLinks (unlines (ls.map lineText)) = ((Line.records ls).map textNormal, none) := by
  unfold textToLinks
  rw [splitLines_unlines _ (by
    intro l hl
    obtain ⟨x, hx, rfl⟩ := List.mem_map.mp hl
    exact lineText_no_newline x (h x hx))]
  simpa using textToLinksLoop_lines ls h []

theorem unlines_append (a b : List Bytes) : unlines (a ++ b) = unlines a ++ unlines b := by
  induction a with
  | nil => rfl
  | cons l a ih => simp [unlines, ih]

theorem records_map (links : List LinkRecord) : Line.records (links.map Line.record) = links := by
  induction links with
  | nil => rfl
  | cons l ls ih => simp [Line.records, ih]

/-- Printing any list of records, with or without heading, and parsing it back. -/
theorem links_text_roundtrip (links : List LinkRecord) (heading : Bool) :
    textToLinks (linksToText links heading) = (links.map textNormal, none) := by
  cases heading with
  | false =>
    have := link_file_parse (links.map Line.record) (by
      intro l hl; obtain ⟨x, -, rfl⟩ := List.mem_map.mp hl; trivial)
    rw [records_map, List.map_map] at this
    exact this
  | true =>
    let hs : List Line := headingLines.map fun l => Line.comment [] l.tail
    have hh : hs.map lineText = headingLines := by decide +kernel
    have hok : ∀ l ∈ hs, l.ok := by
      intro l hl
      obtain ⟨x, hx, rfl⟩ := List.mem_map.mp hl
      refine ⟨blank_nil, ?_⟩
      have : ∀ x ∈ headingLines, 0x0a#8 ∉ x.tail := by decide +kernel
      exact this x hx
    have hrec : ∀ (ks : List Line), Line.records (hs ++ ks) = Line.records ks := by
      intro ks
      have : ∀ bs : List Bytes, Line.records ((bs.map fun l => Line.comment [] l.tail) ++ ks)
          = Line.records ks := by
        intro bs
        induction bs with
        | nil => rfl
        | cons b bs ih => simpa [Line.records] using ih
      exact this headingLines
    have := link_file_parse (hs ++ links.map Line.record) (by
      intro l hl
      rcases List.mem_append.mp hl with hl | hl
      · exact hok l hl
      · obtain ⟨x, -, rfl⟩ := List.mem_map.mp hl; trivial)
    rw [hrec, records_map, List.map_append, hh, unlines_append, List.map_map] at this
    exact this

/-- Lists of ordinary in-use/available records come back exactly. -/
theorem links_text_roundtrip_exact (links : List LinkRecord) (heading : Bool)
    (h : ∀ l ∈ links, l.address.toNat < 2 ^ 24 ∧ l.flags &&& 0x3f#8 = 0x02#8) :
    textToLinks (linksToText links heading) = (links, none) := by
  rw [links_text_roundtrip]
  have : links.map textNormal = links := by
    conv_rhs => rw [← List.map_id links]
    apply List.map_congr_left
    intro l hl
    have e1 := link_text_roundtrip l
    have e2 := link_text_roundtrip_exact l (h l hl).1 (h l hl).2
    rw [e1] at e2
    exact congrArg Prod.fst e2
  rw [this]

example : ∃ links : List LinkRecord, links.length = 2 ∧
    ∀ l ∈ links, l.address.toNat < 2 ^ 24 ∧ l.flags &&& 0x3f#8 = 0x02#8 :=
  ⟨[LinkRecord.controllerLink 1#8 0x010203#32, LinkRecord.responderLink 2#8 0x040506#32], by decide⟩

/-! ### C21 malformed link text -/

/-- When a line is accepted: exactly six fields, each accepted by its own parser. Data fields
are only required to *start* with a hex byte (see the refutation), which is what is missing
from the expected property. -/
theorem link_text_accepts_partial (recv : LinkRecord) (line : Bytes) :
    (recv.unmarshalText line).2 = none ↔
      ∃ f0 f1 f2 f3 f4 f5, fields line = [f0, f1, f2, f3, f4, f5]
        ∧ (f0 = ascii "AC" ∨ f0 = ascii "AR" ∨ f0 = ascii "UC" ∨ f0 = ascii "UR")
        ∧ (∃ v : Nat, v ≤ 255 ∧ IntegerText f1 v)
        ∧ (∃ v1 v2 v3 rest, AddressForm (withDots f2) v1 v2 v3 rest)
        ∧ (scanHexByte none f3).isSome = true ∧ (scanHexByte none f4).isSome = true
        ∧ (scanHexByte none f5).isSome = true := by
  have hg : ∀ (g : Group) (t : Bytes), (Group.unmarshalText g t).2 = none ↔
      ∃ v : Nat, v ≤ 255 ∧ IntegerText t v := by
    intro g t
    constructor
    · intro h
      by_contra hc
      exact (group_text_rejects g t hc).2 h
    · rintro ⟨v, hv, ht⟩
      rw [group_text_accepts g t v hv ht]
  have hd : ∀ (o : Byte) (t : Bytes), (LinkRecord.scanData o t).2 = none ↔
      (scanHexByte none t).isSome = true := by
    intro o t
    unfold LinkRecord.scanData
    cases scanHexByte none t with
    | none => simp
    | some r => simp
  unfold LinkRecord.unmarshalText
  split
  · rename_i f0 f1 f2 f3 f4 f5 hf
    have key : ((recv.unmarshalFields f0 f1 f2 f3 f4 f5).2 = none) ↔
        (recv.flags.unmarshalText f0).2 = none ∧ (Group.unmarshalText recv.group f1).2 = none
        ∧ (Address.unmarshalText recv.address f2).2 = none ∧ (LinkRecord.scanData recv.d0 f3).2 = none
        ∧ (LinkRecord.scanData recv.d1 f4).2 = none ∧ (LinkRecord.scanData recv.d2 f5).2 = none := by
      have hs : ∀ {e : Option Err}, e.isSome = true ↔ e ≠ none := by intro e; cases e <;> simp
      unfold LinkRecord.unmarshalFields
      simp only [hs]
      by_cases h0 : (recv.flags.unmarshalText f0).2 = none
      · by_cases h1 : (Group.unmarshalText recv.group f1).2 = none
        · by_cases h2 : (Address.unmarshalText recv.address f2).2 = none
          · by_cases h3 : (LinkRecord.scanData recv.d0 f3).2 = none
            · by_cases h4 : (LinkRecord.scanData recv.d1 f4).2 = none
              · simp [h0, h1, h2, h3, h4]
              · simp [h0, h1, h2, h3, h4]
            · simp [h0, h1, h2, h3]
          · simp [h0, h1, h2]
        · simp [h0, h1]
      · simp [h0]
    rw [key, link_flag_text_accepts, hg, address_parse_accepts_partial, hd, hd, hd]
    constructor
    · rintro ⟨h0, h1, h2, h3, h4, h5⟩
      exact ⟨f0, f1, f2, f3, f4, f5, hf, h0, h1, h2, h3, h4, h5⟩
    · rintro ⟨g0, g1, g2, g3, g4, g5, he, h⟩
      rw [hf] at he
      simp only [List.cons.injEq, and_true] at he
      obtain ⟨rfl, rfl, rfl, rfl, rfl, rfl⟩ := he
      exact h
  · rename_i hf
    constructor
    · intro h; simp at h
    · rintro ⟨f0, f1, f2, f3, f4, f5, he, -⟩
      exact absurd he (hf _ _ _ _ _ _)

/-- Expected and false: data that is not a plain hex byte is rejected. The record's own
`String` form writes `0x1c`, which the parser reads as 0. -/
theorem link_text_malformed_refuted :
    ¬ ∀ (recv : LinkRecord) (line f0 f1 f2 f3 f4 f5 : Bytes),
        fields line = [f0, f1, f2, f3, f4, f5] → (recv.unmarshalText line).2 = none →
        ∃ v, HexField f3 v ∧ (recv.unmarshalText line).1.d0.toNat = v := by
  intro h
  obtain ⟨v, hv, -⟩ := h LinkRecord.zero (ascii "UR 1 01.02.03 0x1c 00 00") (ascii "UR") (ascii "1")
    (ascii "01.02.03") (ascii "0x1c") (ascii "00") (ascii "00") (by decide) (by decide)
  have hl : (ascii "0x1c").length = 4 := by decide
  rcases hv with ⟨c, hc, -⟩ | ⟨c, d, x, y, hc, -⟩ <;> rw [hc] at hl <;> simp at hl

/-- The printed (not edited) form of a record therefore loses its data when parsed. -/
theorem link_string_reparse_loses_data :
    LinkRecord.zero.unmarshalText (LinkRecord.string ⟨0xa2#8, 1#8, 0x010203#32, 0xff#8, 0x1c#8, 1#8⟩)
      = (⟨0x82#8, 1#8, 0x010203#32, 0#8, 0#8, 0#8⟩, none) := by decide +kernel

/-! ### C84 sort order -/

theorem hexDigit_lt_iff (m n : Nat) (hm : m < 16) (hn : n < 16) :
    (hexDigit m).toNat < (hexDigit n).toNat ↔ m < n := by
  interval_cases m <;> interval_cases n <;> decide

theorem strLt_cons (a b : Byte) (s t : Bytes) :
    strLt (a :: s) (b :: t) = true ↔ a.toNat < b.toNat ∨ (a = b ∧ strLt s t = true) := by
  by_cases h : a = b
  · simp [strLt, h]
  · simp [strLt, h]

theorem strLt_hex2 (a b : Byte) (s t : Bytes) :
    strLt (hex2 a ++ s) (hex2 b ++ t) = true ↔ a.toNat < b.toNat ∨ (a = b ∧ strLt s t = true) := by
  simp only [hex2, List.cons_append, List.nil_append, strLt_cons]
  rw [hexDigit_lt_iff _ _ (byte_div16 a) (byte_div16 b),
    hexDigit_lt_iff _ _ (byte_mod16 a) (byte_mod16 b)]
  have i1 : hexDigit (a.toNat / 16) = hexDigit (b.toNat / 16) ↔ a.toNat / 16 = b.toNat / 16 :=
    ⟨hexDigit_inj (byte_div16 a) (byte_div16 b), fun h => by rw [h]⟩
  have i2 : hexDigit (a.toNat % 16) = hexDigit (b.toNat % 16) ↔ a.toNat % 16 = b.toNat % 16 :=
    ⟨hexDigit_inj (byte_mod16 a) (byte_mod16 b), fun h => by rw [h]⟩
  have i3 : a = b ↔ a.toNat = b.toNat := ⟨fun h => by rw [h], BitVec.eq_of_toNat_eq⟩
  rw [i1, i2, i3]
  constructor
  · rintro (h | ⟨h1, h2 | ⟨h2, h3⟩⟩)
    · left; omega
    · left; omega
    · right; exact ⟨by omega, h3⟩
  · rintro (h | ⟨h1, h2⟩)
    · by_cases h' : a.toNat / 16 < b.toNat / 16
      · left; exact h'
      · right; exact ⟨by omega, Or.inl (by omega)⟩
    · right; exact ⟨by omega, Or.inr ⟨by omega, h2⟩⟩

/-- Comparing address texts is comparing 24-bit addresses. -/
theorem strLt_address (a b : Address) :
    strLt a.string b.string = true ↔ a.toNat % 2 ^ 24 < b.toNat % 2 ^ 24 := by
  have e : ∀ x : Address, x.string = hex2 (byte32 (x >>> 16)) ++ (ch '.' :: (hex2 (byte32 (x >>> 8))
      ++ (ch '.' :: (hex2 (byte32 x) ++ [])))) := by intro x; simp [Address.string]
  rw [e a, e b, strLt_hex2, strLt_cons, strLt_hex2, strLt_cons, strLt_hex2]
  have nn : strLt [] [] = false := rfl
  have i3 : ∀ x y : Byte, x = y ↔ x.toNat = y.toNat :=
    fun x y => ⟨fun h => by rw [h], BitVec.eq_of_toNat_eq⟩
  rw [i3, i3 (byte32 (a >>> 8)), nn]
  rw [byte32_shr_toNat, byte32_shr_toNat, byte32_shr_toNat, byte32_shr_toNat, byte32_toNat,
    byte32_toNat]
  have := a.isLt; have := b.isLt
  constructor
  · rintro (h | ⟨h1, h | ⟨-, h | ⟨h2, h | ⟨-, h | h⟩⟩⟩⟩)
    · omega
    · omega
    · omega
    · omega
    · omega
    · simp at h
  · intro h
    by_cases h1 : a.toNat / 2 ^ 16 % 256 < b.toNat / 2 ^ 16 % 256
    · left; exact h1
    · right
      refine ⟨by omega, Or.inr ⟨rfl, ?_⟩⟩
      by_cases h2 : a.toNat / 2 ^ 8 % 256 < b.toNat / 2 ^ 8 % 256
      · left; exact h2
      · right
        refine ⟨by omega, Or.inr ⟨rfl, ?_⟩⟩
        left; omega

/-- On valid addresses the sort order is the numeric lexicographic order of address and group. -/
theorem link_sort_order (a b : LinkRecord) (ha : a.address.toNat < 2 ^ 24)
    (hb : b.address.toNat < 2 ^ 24) :
    linkLess a b = true ↔ a.address.toNat < b.address.toNat
      ∨ (a.address.toNat = b.address.toNat ∧ a.group.toNat < b.group.toNat) := by
  unfold linkLess
  by_cases h : a.address = b.address
  · simp [h]
  · have hn : a.address.toNat ≠ b.address.toNat := fun e => h (BitVec.eq_of_toNat_eq e)
    rw [if_neg h, strLt_address, Nat.mod_eq_of_lt ha, Nat.mod_eq_of_lt hb]
    constructor
    · intro h; left; exact h
    · rintro (h' | ⟨h', -⟩)
      · exact h'
      · exact absurd h' hn

/-- It is a strict weak order: irreflexive, transitive, and incomparability (same address and
group) is transitive, so sorting is well defined. -/
theorem link_sort_strict (a b c : LinkRecord) (ha : a.address.toNat < 2 ^ 24)
    (hb : b.address.toNat < 2 ^ 24) (hc : c.address.toNat < 2 ^ 24) :
    linkLess a a = false
      ∧ (linkLess a b = true → linkLess b c = true → linkLess a c = true)
      ∧ (linkLess a b = false ∧ linkLess b a = false ↔ a.address = b.address ∧ a.group = b.group) := by
  have hab := link_sort_order a b ha hb
  have hba := link_sort_order b a hb ha
  have hbc := link_sort_order b c hb hc
  have hac := link_sort_order a c ha hc
  have haa := link_sort_order a a ha ha
  refine ⟨?_, ?_, ?_⟩
  · rw [Bool.eq_false_iff, ne_eq, haa]; omega
  · rw [hab, hbc, hac]; omega
  · rw [Bool.eq_false_iff, Bool.eq_false_iff, ne_eq, ne_eq, hab, hba]
    have i1 : a.address = b.address ↔ a.address.toNat = b.address.toNat :=
      ⟨fun h => by rw [h], BitVec.eq_of_toNat_eq⟩
    have i2 : a.group = b.group ↔ a.group.toNat = b.group.toNat :=
      ⟨fun h => by rw [h], BitVec.eq_of_toNat_eq⟩
    rw [i1, i2]; omega

example : linkLess ⟨0xe2#8, 1#8, 0x010203#32, 0, 0, 0⟩ ⟨0xa2#8, 0#8, 0x01020a#32, 0, 0, 0⟩ = true := by
  decide

/-! ### C178 -/

/-- C178: a link made for a controller or for a responder is in use, has that role, is not marked as the end of the list, names group and
address as given and carries no data; the two differ in the role only, and both are what their bytes say. -/
theorem new_links (g : Group) (a : Address) (ha : a.toNat < 2 ^ 24) :
    (∀ l, l = LinkRecord.controllerLink g a ∨ l = LinkRecord.responderLink g a →
      inUseBit l.flags ∧ notLastBit l.flags ∧ l.group = g ∧ l.address = a ∧ l.d0 = 0 ∧ l.d1 = 0 ∧ l.d2 = 0 ∧
      LinkRecord.zero.unmarshalBinary l.marshalBinary = (l, none) ∧ LinkRecord.zero.unmarshalText l.marshalText = (l, none)) ∧
    controllerBit (LinkRecord.controllerLink g a).flags ∧ ¬ controllerBit (LinkRecord.responderLink g a).flags := by
  have hc : (LinkRecord.controllerLink g a).flags = 0xc2#8 := rfl
  have hr : (LinkRecord.responderLink g a).flags = 0x82#8 := rfl
  refine ⟨?_, by rw [hc]; decide, by rw [hr]; decide⟩
  rintro l (rfl | rfl)
  · exact ⟨by rw [hc]; decide, by rw [hc]; unfold notLastBit; decide, rfl, rfl, rfl, rfl, rfl,
      link_wire_roundtrip_valid _ _ ha, link_text_roundtrip_exact _ ha (by rw [hc]; decide)⟩
  · exact ⟨by rw [hr]; decide, by rw [hr]; unfold notLastBit; decide, rfl, rfl, rfl, rfl, rfl,
      link_wire_roundtrip_valid _ _ ha, link_text_roundtrip_exact _ ha (by rw [hr]; decide)⟩

example : (0x4b9a23#32 : Address).toNat < 2 ^ 24 := by decide

end Insteon
