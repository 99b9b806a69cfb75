import Verif.Props.Device
import Verif.Props.Link
import Verif.Spec.AldbDevice

/-
Properties C53, C54, C87, C88: link requests and reading a device's link database.
-/

namespace Insteon
open Spec

/-! ### C53 -/

theorem marshal_aldb (l : LinkRecord) : l.marshalBinary = raw l := by
  simp only [LinkRecord.marshalBinary, Address.bytes, raw, List.cons_append, List.nil_append, List.cons.injEq, and_true,
    true_and]
  refine ⟨?_, ?_, ?_⟩ <;> apply BitVec.eq_of_toNat_eq <;> simp [byte32, Nat.shiftRight_eq_div_pow]

theorem put_raw (l : LinkRecord) (h : l.address.toNat < 2 ^ 24) (recv : LinkRecord) (tail : Bytes) :
    recv.unmarshalBinary (raw l ++ tail) = (l, none) := by
  rw [← marshal_aldb]
  have := link_wire_roundtrip_valid l recv h
  revert this
  simp only [LinkRecord.marshalBinary, Address.bytes, List.cons_append, List.nil_append, LinkRecord.unmarshalBinary]
  exact id

theorem memAddress_bytes (a : MemAddress) (h : a.toNat < 65536) :
    ((((a >>> 8).setWidth 8 : Byte).setWidth 64 <<< 8) ||| ((a &&& 0xff#64).setWidth 8 : Byte).setWidth 64) = a := by
  apply BitVec.eq_of_getLsbD_eq
  intro i hi
  have hb : ∀ i, 16 ≤ i → a.getLsbD i = false := by
    intro i hi
    rw [BitVec.getLsbD, Nat.testBit_lt_two_pow]
    calc a.toNat < 2 ^ 16 := by norm_num; omega
      _ ≤ 2 ^ i := Nat.pow_le_pow_right (by omega) hi
  by_cases h16 : 16 ≤ i
  · rw [hb i h16]
    simp only [BitVec.getLsbD_or, BitVec.getLsbD_shiftLeft, BitVec.getLsbD_setWidth]
    simp only [show ¬ (i - 8 < 8) by omega, show ¬ (i < 8) by omega, decide_false, Bool.false_and, Bool.and_false, Bool.or_false]
  · have : i < 16 := by omega
    interval_cases i <;> simp

theorem unm_read (x hi lo n : Byte) (rest : Bytes) :
    LinkRequest.zero.unmarshalBinary (x :: 0#8 :: hi :: lo :: n :: rest) =
      (⟨0, (hi.setWidth 64 <<< 8) ||| lo.setWidth 64, n.setWidth 64, none⟩, none) := rfl

theorem unm_resp (x hi lo n : Byte) (rest : Bytes) :
    LinkRequest.zero.unmarshalBinary (x :: 1#8 :: hi :: lo :: n :: rest) =
      (⟨1, (hi.setWidth 64 <<< 8) ||| lo.setWidth 64, 0, some (LinkRecord.zero.unmarshalBinary rest).1⟩,
        (LinkRecord.zero.unmarshalBinary rest).2) := rfl

theorem unm_write (x hi lo n : Byte) (rest : Bytes) :
    LinkRequest.zero.unmarshalBinary (x :: 2#8 :: hi :: lo :: n :: rest) =
      (⟨2, (hi.setWidth 64 <<< 8) ||| lo.setWidth 64, n.setWidth 64, some (LinkRecord.zero.unmarshalBinary rest).1⟩,
        (LinkRecord.zero.unmarshalBinary rest).2) := rfl

/-- C53: a read request is 14 bytes and survives encoding and decoding. -/
theorem read_request_roundtrip (lr : LinkRequest) (ht : lr.type = 0) (ha : lr.memAddress.toNat < 65536)
    (hn : lr.numRecords.toNat < 256) (hl : lr.link = none) :
    ∃ buf, lr.marshalBinary = .ok buf ∧ buf.length = 14 ∧ buf.getLast? = some 0 ∧
      LinkRequest.zero.unmarshalBinary buf = (lr, none) := by
  obtain ⟨t, a, n, l⟩ := lr
  dsimp only at ht ha hn hl
  subst ht hl
  have h2 : (n.setWidth 8 : Byte).setWidth 64 = n := by
    apply BitVec.eq_of_toNat_eq; simp; omega
  refine ⟨_, rfl, rfl, rfl, ?_⟩
  simp only [List.cons_append, List.nil_append]
  rw [show (0 : Byte) = 0#8 from rfl, unm_read, memAddress_bytes a ha, h2]
  rfl

/-- C53: responses and write requests are 14 bytes with a free last byte and survive encoding and decoding;
the count of a write request is always 8. -/
theorem link_request_roundtrip (lr : LinkRequest) (l : LinkRecord) (ht : lr.type = 1 ∨ lr.type = 2)
    (ha : lr.memAddress.toNat < 65536) (hl : lr.link = some l) (hla : l.address.toNat < 2 ^ 24) :
    ∃ buf, lr.marshalBinary = .ok buf ∧ buf.length = 14 ∧ buf.getLast? = some 0 ∧
      LinkRequest.zero.unmarshalBinary buf = ({ lr with numRecords := if lr.type = 2 then 8 else 0 }, none) := by
  obtain ⟨t, a, n, l'⟩ := lr
  dsimp only at ht ha hl
  subst hl
  have h3 := put_raw l hla LinkRecord.zero [0]
  rw [← marshal_aldb] at h3
  have h9 : copyPad 9 l.marshalBinary = l.marshalBinary ++ [0] := by
    rw [marshal_aldb]; rfl
  rcases ht with rfl | rfl
  · refine ⟨_, rfl, by rw [h9, marshal_aldb]; rfl, by rw [h9, marshal_aldb]; rfl, ?_⟩
    rw [h9]
    simp only [List.cons_append, List.nil_append]
    rw [show (1 : Byte) = 1#8 from rfl, unm_resp, memAddress_bytes a ha, h3]
    rfl
  · refine ⟨_, rfl, by rw [h9, marshal_aldb]; rfl, by rw [h9, marshal_aldb]; rfl, ?_⟩
    rw [h9]
    simp only [List.cons_append, List.nil_append]
    rw [show (2 : Byte) = 2#8 from rfl, unm_write, memAddress_bytes a ha, h3]
    rfl

theorem record_short (l : LinkRecord) (buf : Bytes) :
    (l.unmarshalBinary buf).2 = if buf.length < 8 then some (.wrapped .bufferTooShort) else none := by
  rcases buf with _ | ⟨_, _ | ⟨_, _ | ⟨_, _ | ⟨_, _ | ⟨_, _ | ⟨_, _ | ⟨_, _ | ⟨_, _⟩⟩⟩⟩⟩⟩⟩⟩ <;>
    simp [LinkRecord.unmarshalBinary]

/-- C53: exactly which byte strings are accepted as link requests, and the error for the others. -/
theorem link_request_accepts (buf : Bytes) :
    (LinkRequest.zero.unmarshalBinary buf).2 =
      if buf.length < 5 then some (.wrapped .bufferTooShort)
      else if 2 < (buf.getD 1 0).toNat then some .invalidResponse
      else if buf.getD 1 0 ≠ 0 ∧ buf.length < 13 then some (.wrapped .bufferTooShort)
      else none := by
  rcases buf with _ | ⟨b0, _ | ⟨t, _ | ⟨b2, _ | ⟨b3, _ | ⟨b4, rest⟩⟩⟩⟩⟩ <;> try (simp [LinkRequest.unmarshalBinary]; done)
  have hlen : ¬ (b0 :: t :: b2 :: b3 :: b4 :: rest).length < 5 := by simp
  rw [if_neg hlen]
  have hg : (b0 :: t :: b2 :: b3 :: b4 :: rest).getD 1 0 = t := rfl
  rw [hg]
  have hl13 : (b0 :: t :: b2 :: b3 :: b4 :: rest).length < 13 ↔ rest.length < 8 := by simp; omega
  simp only [hl13]
  by_cases h0 : t = 0
  · subst h0; rfl
  by_cases h1 : t = 1
  · subst h1
    rw [show (1 : Byte) = 1#8 from rfl, unm_resp, record_short]
    simp
  by_cases h2 : t = 2
  · subst h2
    rw [show (2 : Byte) = 2#8 from rfl, unm_write, record_short]
    simp
  have : 2 < t.toNat := by
    by_contra hle
    have h3 : t.toNat = 0 ∨ t.toNat = 1 ∨ t.toNat = 2 := by omega
    rcases h3 with h3 | h3 | h3
    · exact h0 (BitVec.eq_of_toNat_eq (by simpa using h3))
    · exact h1 (BitVec.eq_of_toNat_eq (by simpa using h3))
    · exact h2 (BitVec.eq_of_toNat_eq (by simpa using h3))
  simp only [LinkRequest.unmarshalBinary]
  rw [if_neg (show ¬ t = LinkRequest.readLink from h0), if_neg (show ¬ t = LinkRequest.linkResponse from h1),
    if_neg (show ¬ t = LinkRequest.writeLink from h2), if_pos this]

/-- A concrete write request. -/
example : (⟨2, 0x0ff7, 0, some ⟨0xa2, 1, 0x010203, 4, 5, 6⟩⟩ : LinkRequest).marshalBinary =
    .ok [0, 2, 0x0f, 0xf7, 8, 0xa2, 1, 1, 2, 3, 4, 5, 6, 0] := by decide

/-! ### C54 -/

theorem slotTop_lt (i : Nat) : slotTop i < 65536 := by unfold slotTop; omega
theorem slotTop_mod (i : Nat) : slotTop i % 8 = 7 := by unfold slotTop; omega
theorem slotTop_succ (i : Nat) : slotTop (i + 1) ≠ slotTop i := by unfold slotTop; omega

theorem addr_ofNat (n : Nat) (h : n < 65536) :
    (((BitVec.ofNat 8 (n / 256)).setWidth 64 <<< 8) ||| (BitVec.ofNat 8 n).setWidth 64 : MemAddress) = BitVec.ofNat 64 n := by
  have := memAddress_bytes (BitVec.ofNat 64 n) (by simp; omega)
  rw [← this]
  congr 2
  · congr 1
    apply BitVec.eq_of_toNat_eq
    simp [Nat.shiftRight_eq_div_pow]; omega
  · apply BitVec.eq_of_toNat_eq
    simp only [BitVec.toNat_setWidth, BitVec.toNat_and, BitVec.toNat_ofNat]
    have : (n % 2 ^ 64) &&& (255 % 2 ^ 64) = n % 256 := by
      rw [Nat.mod_eq_of_lt (show n < 2 ^ 64 by omega), Nat.mod_eq_of_lt (show 255 < 2 ^ 64 by omega)]
      exact Nat.and_two_pow_sub_one_eq_mod n 8
    rw [this]; omega

theorem lastRecord_raw (l : LinkRecord) : l.flags.lastRecord = true ↔ isEnd (raw l) := by
  have : ∀ f : RecordControlFlags, f.lastRecord = true ↔ f.toNat / 2 % 2 = 0 := by decide +kernel
  exact this l.flags

theorem carries_unmarshal (m : Message) (i : Nat) (r : Bytes) (h : Carries m i r) :
    ∃ l, LinkRequest.zero.unmarshalBinary m.payload = (⟨1, BitVec.ofNat 64 (slotTop i), 0, some l⟩, none) ∧
      (∃ recv tail, LinkRecord.unmarshalBinary recv (r ++ tail) = (l, none)) ∧ l.flags = r.headD 0 := by
  obtain ⟨h1, h2, x, y, tail, h3⟩ := h
  rw [h3]
  rcases r with _ | ⟨r0, _ | ⟨r1, _ | ⟨r2, _ | ⟨r3, _ | ⟨r4, _ | ⟨r5, _ | ⟨r6, _ | ⟨r7, _ | _⟩⟩⟩⟩⟩⟩⟩⟩ <;> simp at h2
  refine ⟨_, ?_, ⟨LinkRecord.zero, tail, rfl⟩, rfl⟩
  have := addr_ofNat (slotTop i) (slotTop_lt i)
  simp [LinkRequest.unmarshalBinary, LinkRequest.zero, this, LinkRecord.unmarshalBinary]

/-- Reading from a finite inbox: the first match, or the end of the stream. -/
theorem devRead_wire (f : Matcher) (info : DeviceInfo) (answer : Message → MRes) (inbox sent : List Message) (k : Nat)
    (h : inbox.length < k) :
    Dev.read (Device.io info (wireIO answer)) f k ⟨inbox, sent⟩ = some (match inbox.dropWhile (fun m => !f m) with
      | [] => (⟨[], sent⟩, .ret none (some .eof))
      | m :: rest => (⟨rest, sent⟩, .ret (some m) none)) := by
  induction inbox generalizing k with
  | nil =>
    obtain ⟨k, rfl⟩ : ∃ j, k = j + 1 := ⟨k - 1, by simp at h; omega⟩
    rfl
  | cons m ms ih =>
    obtain ⟨k, rfl⟩ : ∃ j, k = j + 1 := ⟨k - 1, by simp at h; omega⟩
    rw [Dev.read]
    simp only [Device.io, wireIO]
    cases hf : f m
    · simp only [Bool.false_eq_true, if_false]
      have := ih k (by simp at h; omega)
      simp only [Device.io, wireIO] at this
      rw [this, List.dropWhile_cons]
      simp [hf]
    · simp [hf]

theorem aldb_matcher (m : Message) : Matcher.cmd Cmd.readWriteALDB m = decide (cmd1 m = 0x2f) := by
  rw [Bool.eq_iff_iff, cmdMatcher_iff, decide_eq_true_iff]
  have : Cmd.readWriteALDB.toNat / 256 % 256 = 0x2f := by decide
  rw [this]; exact eq_comm

/-- The index of the cached links after adding some. -/
def indexFrom : Nat → List LinkRecord → List (Bytes × Nat) → List (Bytes × Nat)
  | _, [], idx => idx
  | n, l :: ls, idx => indexFrom (n + 1) ls ((l.id, n) :: idx)

theorem refresh_transmits (info : DeviceInfo) (answer : Message → MRes) (i : Nat) (links : List LinkRecord)
    (ms : List Message) (h : Transmits i links ms) (rest sent : List Message) (fr fuel : Nat) (ldb : Ldb)
    (last : MemAddress) (hl0 : i = 0 → last = 0#64) (hl1 : ∀ j, i = j + 1 → last = BitVec.ofNat 64 (slotTop j))
    (hfr : (ms ++ rest).length < fr) (hfuel : ms.length < fuel) :
    Ldb.refreshLoop (Device.io info (wireIO answer)) fr fuel ⟨ms ++ rest, sent⟩ ldb last =
      some (⟨rest, sent⟩, { ldb with links := ldb.links ++ links, index := indexFrom ldb.links.length links ldb.index },
        .ok none) := by
  have hne : ∀ (last : MemAddress) i, (i = 0 → last = 0#64) → (∀ j, i = j + 1 → last = BitVec.ofNat 64 (slotTop j)) →
      BitVec.ofNat 64 (slotTop i) ≠ last := by
    intro last i h0 h1 he
    have hi := slotTop_lt i
    cases i with
    | zero =>
      rw [h0 rfl] at he
      have := congrArg BitVec.toNat he
      simp [slotTop] at this
    | succ j =>
      rw [h1 j rfl] at he
      have hj := slotTop_lt j
      have := congrArg BitVec.toNat he
      simp only [BitVec.toNat_ofNat] at this
      rw [Nat.mod_eq_of_lt (by omega), Nat.mod_eq_of_lt (by omega)] at this
      exact slotTop_succ j this
  induction h generalizing ldb last fuel with
  | other i links m ms hm ht ih =>
    obtain ⟨fuel, rfl⟩ : ∃ j, fuel = j + 1 := ⟨fuel - 1, by simp at hfuel; omega⟩
    have := ih (fuel + 1) ldb last hl0 hl1 (by simp at hfr ⊢; omega) (by simp at hfuel; omega)
    rw [← this, Ldb.refreshLoop, Ldb.refreshLoop, devRead_wire _ _ _ _ _ _ hfr,
      devRead_wire _ _ _ _ _ _ (by simp at hfr ⊢; omega)]
    rw [List.cons_append, List.dropWhile_cons, aldb_matcher]
    simp [hm]
  | again i r links m ms hc ht ih =>
    obtain ⟨fuel, rfl⟩ : ∃ j, fuel = j + 1 := ⟨fuel - 1, by simp at hfuel; omega⟩
    rw [Ldb.refreshLoop, devRead_wire _ _ _ _ _ _ hfr, List.cons_append, List.dropWhile_cons, aldb_matcher]
    have hcm := hc.1
    obtain ⟨l, hu, -, -⟩ := carries_unmarshal m i r hc
    have hlast := hl1 i rfl
    simp only [hcm, decide_true, Bool.not_true, Bool.false_eq_true, if_false, hu]
    rw [if_neg (by simp [hlast])]
    exact ih fuel ldb last hl0 hl1 (by simp at hfr ⊢; omega) (by simp at hfuel; omega)
  | next i l links m ms hc hend ha ht ih =>
    obtain ⟨fuel, rfl⟩ : ∃ j, fuel = j + 1 := ⟨fuel - 1, by simp at hfuel; omega⟩
    rw [Ldb.refreshLoop, devRead_wire _ _ _ _ _ _ hfr, List.cons_append, List.dropWhile_cons, aldb_matcher]
    have hcm := hc.1
    obtain ⟨l', hu, ⟨recv, tail, hr⟩, -⟩ := carries_unmarshal m i _ hc
    rw [put_raw l ha] at hr
    obtain rfl : l = l' := (Prod.mk.injEq _ _ _ _ ▸ hr).1
    have h1 := hne last i hl0 hl1
    have h2 : ¬ (l.flags.lastRecord = true) := by rw [lastRecord_raw]; exact hend
    simp only [hcm, decide_true, Bool.not_true, Bool.false_eq_true, if_false, hu, ne_eq, h1, not_false_eq_true, if_true, h2]
    rw [ih fuel _ _ (by omega) (by intro j hj; rw [show i = j by omega]) (by simp at hfr ⊢; omega)
      (by simp at hfuel; omega)]
    simp [indexFrom]
  | last i r m hc hend =>
    obtain ⟨fuel, rfl⟩ : ∃ j, fuel = j + 1 := ⟨fuel - 1, by simp at hfuel; omega⟩
    rw [Ldb.refreshLoop, devRead_wire _ _ _ _ _ _ hfr, List.cons_append, List.dropWhile_cons, aldb_matcher]
    have hcm := hc.1
    obtain ⟨l', hu, -, hf⟩ := carries_unmarshal m i _ hc
    have h1 := hne last i hl0 hl1
    have h2 : l'.flags.lastRecord = true := by
      rw [lastRecord_raw]
      simpa [isEnd, raw, hf] using hend
    simp only [hcm, decide_true, Bool.not_true, Bool.false_eq_true, if_false, hu, ne_eq, h1, not_false_eq_true, if_true, h2]
    simp [indexFrom]

/-- C54: if the device transmits its records in order, each any number of times, then the end record, with
unrelated messages in between, a download returns exactly these records, each once, in order. One request is
sent; the messages after the end record are not touched. -/
theorem device_links_complete (info : DeviceInfo) (answer : Message → MRes) (links : List LinkRecord)
    (ms rest sent : List Message) (h : Transmits 0 links ms) (ldb : Ldb) (now done : Int)
    (hold : ldb.age + 3600 < now) (a : Option Message)
    (hans : answer (Device.prepare info ⟨0, 0, 0, 0x012f00, List.replicate 14 0⟩) = .ret a none)
    (fuel : Nat) (hfuel : (ms ++ rest).length < fuel) :
    ∃ ldb', Ldb.getLinks (Device.io info (wireIO answer)) fuel now done ⟨ms ++ rest, sent⟩ ldb =
        some (⟨rest, sent ++ [Device.prepare info ⟨0, 0, 0, 0x012f00, List.replicate 14 0⟩]⟩, ldb', .ok (links, none)) ∧
      ldb'.links = links ∧ ldb'.age = done ∧ ldb'.index = indexFrom 0 links [] := by
  refine ⟨⟨done, links, indexFrom 0 links []⟩, ?_, rfl, rfl, rfl⟩
  unfold Ldb.getLinks Ldb.refresh
  have ho : ldb.old now = true := by simpa [Ldb.old] using hold
  have hw : (Device.io info (wireIO answer)).write ⟨ms ++ rest, sent⟩ Ldb.readRequest =
      (⟨ms ++ rest, sent ++ [Device.prepare info ⟨0, 0, 0, 0x012f00, List.replicate 14 0⟩]⟩, .ret a none) := by
    rw [← hans]; rfl
  rw [ho, hw]
  simp only [Bool.not_true, Bool.false_eq_true, if_false]
  rw [refresh_transmits info answer 0 links ms h rest _ fuel fuel _ 0#64 (fun _ => rfl) (by simp) hfuel
    (by simp at hfuel; omega)]
  simp

/-- C54: a list younger than an hour is returned without any traffic. -/
theorem device_links_cached {σ : Type} (io : MsgIO σ) (s : σ) (ldb : Ldb) (now done : Int) (fuel : Nat)
    (h : now ≤ ldb.age + 3600) :
    Ldb.getLinks io fuel now done s ldb = some (s, ldb, .ok (ldb.links, none)) := by
  have ho : ldb.old now = false := by simpa [Ldb.old] using h
  simp [Ldb.getLinks, Ldb.refresh, ho]

/-- A device's message with a record. -/
def recMsg (src : Address) (i : Nat) (r : Bytes) : Message :=
  ⟨src, 1, 0x1a, 0x012f00, [0, 1, BitVec.ofNat 8 (slotTop i / 256), BitVec.ofNat 8 (slotTop i), 0] ++ r ++ [0]⟩

theorem recMsg_carries (src : Address) (i : Nat) (r : Bytes) (h : r.length = 8) : Carries (recMsg src i r) i r :=
  ⟨by simp [cmd1, recMsg], h, 0, 0, [0], rfl⟩

/-- Two records with retransmissions and a stray message in between. -/
example : Transmits 0 [⟨0xa2, 1, 0x010203, 4, 5, 6⟩, ⟨0xe2, 2, 0x010204, 4, 5, 6⟩]
    [recMsg 5 0 [0xa2, 1, 1, 2, 3, 4, 5, 6], recMsg 5 0 [0xa2, 1, 1, 2, 3, 4, 5, 6], ⟨6, 1, 0xcb, 0x0c1100, []⟩,
     recMsg 5 1 [0xe2, 2, 1, 2, 4, 4, 5, 6], recMsg 5 2 [0, 0, 0, 0, 0, 0, 0, 0]] := by
  refine .next 0 _ _ _ _ (recMsg_carries 5 0 _ rfl) (by decide) (by decide) ?_
  refine .again 0 [0xa2, 1, 1, 2, 3, 4, 5, 6] _ _ _ (recMsg_carries 5 0 _ rfl) ?_
  refine .other _ _ _ _ (by decide) ?_
  refine .next 1 _ _ _ _ (recMsg_carries 5 1 _ rfl) (by decide) (by decide) ?_
  exact .last 2 [0, 0, 0, 0, 0, 0, 0, 0] _ (recMsg_carries 5 2 _ rfl) (by decide)

/-! ### C87 -/

/-- Device 5, version 1. -/
def dev5 : DeviceInfo := ⟨5, (1, 2), 0x41, 1⟩

/-- C87 is false of the code: a record sent by another device (7) is taken for a record of device 5. -/
theorem device_links_source_refuted :
    ¬ ∀ (info : DeviceInfo) (inbox : List Message) (fuel : Nat) (s' : Wire) (ldb' : Ldb) (links : List LinkRecord),
      Ldb.getLinks (Device.io info (wireIO acks)) fuel 10000 10000 ⟨inbox, []⟩ ⟨0, [], []⟩ =
        some (s', ldb', .ok (links, none)) →
      ∀ l ∈ links, ∃ m ∈ inbox, m.src = info.address ∧ ∃ i, Carries m i (raw l) := by
  intro h
  have := h dev5 [recMsg 7 0 [0xa2, 1, 1, 2, 3, 4, 5, 6], recMsg 5 1 [0, 0, 0, 0, 0, 0, 0, 0]] 5 _ _ _ (by rfl)
    ⟨0xa2, 1, 0x010203, 4, 5, 6⟩ (by decide)
  obtain ⟨m, hm, hs, i, -, -, x, y, t, hp⟩ := this
  simp only [List.mem_cons, List.not_mem_nil, or_false] at hm
  rcases hm with rfl | rfl
  · exact absurd hs (by decide)
  · simp [recMsg, raw] at hp

/-- The messages of an inbox that could have been read. -/
theorem refreshLoop_sound (info : DeviceInfo) (answer : Message → MRes) (fr fuel : Nat) (inbox sent : List Message)
    (ldb : Ldb) (last : MemAddress) (w : Wire) (ldb' : Ldb) (e : Option Err)
    (hfr : inbox.length < fr)
    (h : Ldb.refreshLoop (Device.io info (wireIO answer)) fr fuel ⟨inbox, sent⟩ ldb last = some (w, ldb', .ok e)) :
    ∃ links, ldb'.links = ldb.links ++ links ∧
      ∀ l ∈ links, ∃ m ∈ inbox, cmd1 m = 0x2f ∧ ∃ lr, LinkRequest.zero.unmarshalBinary m.payload = (lr, none) ∧ lr.link = some l := by
  induction fuel generalizing inbox ldb last with
  | zero => simp [Ldb.refreshLoop] at h
  | succ fuel ih =>
    rw [Ldb.refreshLoop, devRead_wire _ _ _ _ _ _ hfr] at h
    rcases hd : inbox.dropWhile (fun m => !Matcher.cmd Cmd.readWriteALDB m) with _ | ⟨m, rest⟩
    · rw [hd] at h
      simp only [Option.some.injEq, Prod.mk.injEq] at h
      exact ⟨[], by rw [← h.2.1]; simp, by simp⟩
    · rw [hd] at h
      dsimp only at h
      have hsuf : (m :: rest) <:+ inbox := by rw [← hd]; exact List.dropWhile_suffix _
      have hm : m ∈ inbox := hsuf.subset (by simp)
      have hsub : ∀ x ∈ rest, x ∈ inbox := fun x hx => hsuf.subset (by simp [hx])
      have hlen : rest.length < fr := by have := hsuf.length_le; simp at this; omega
      have hc : cmd1 m = 0x2f := by
        have := List.head?_dropWhile_not (fun m => !Matcher.cmd Cmd.readWriteALDB m) inbox
        rw [hd] at this
        simp only [List.head?_cons, aldb_matcher, Bool.not_eq_false', decide_eq_true_eq] at this
        simpa using this
      rcases hu : LinkRequest.zero.unmarshalBinary m.payload with ⟨lr, _ | e1⟩ <;> rw [hu] at h <;> dsimp only at h
      · split_ifs at h with hne
        · rcases hl : lr.link with _ | l <;> rw [hl] at h <;> dsimp only at h
          · simp at h
          · split_ifs at h with hlast
            · simp only [Option.some.injEq, Prod.mk.injEq] at h
              exact ⟨[], by rw [← h.2.1]; simp, by simp⟩
            · obtain ⟨links, h1, h2⟩ := ih rest _ _ hlen h
              refine ⟨l :: links, by rw [h1]; simp, ?_⟩
              intro x hx
              rcases List.mem_cons.mp hx with rfl | hx
              · exact ⟨m, hm, hc, lr, hu, hl⟩
              · obtain ⟨m', hm', r⟩ := h2 x hx
                exact ⟨m', hsub m' hm', r⟩
        · obtain ⟨links, h1, h2⟩ := ih rest _ _ hlen h
          refine ⟨links, h1, fun x hx => ?_⟩
          obtain ⟨m', hm', r⟩ := h2 x hx
          exact ⟨m', hsub m' hm', r⟩
      · simp only [Option.some.injEq, Prod.mk.injEq] at h
        exact ⟨[], by rw [← h.2.1]; simp, by simp⟩

/-- C87, what is proved: every record returned by a download was carried by a received database message; so
if only this device sends such messages, all records are its own. -/
theorem device_links_source_partial (info : DeviceInfo) (answer : Message → MRes) (inbox sent : List Message)
    (ldb ldb' : Ldb) (now done : Int) (fuel : Nat) (w : Wire) (links : List LinkRecord)
    (hfuel : inbox.length < fuel) (hold : ldb.age + 3600 < now)
    (honly : ∀ m ∈ inbox, cmd1 m = 0x2f → m.src = info.address)
    (h : Ldb.getLinks (Device.io info (wireIO answer)) fuel now done ⟨inbox, sent⟩ ldb = some (w, ldb', .ok (links, none))) :
    ∀ l ∈ links, ∃ m ∈ inbox, m.src = info.address ∧ cmd1 m = 0x2f ∧
      ∃ lr, LinkRequest.zero.unmarshalBinary m.payload = (lr, none) ∧ lr.link = some l := by
  have ho : ldb.old now = true := by simpa [Ldb.old] using hold
  unfold Ldb.getLinks Ldb.refresh at h
  rw [ho] at h
  simp only [Bool.not_true, Bool.false_eq_true, if_false] at h
  have hw : ∃ r, (Device.io info (wireIO answer)).write ⟨inbox, sent⟩ Ldb.readRequest =
      (⟨inbox, sent ++ [Device.prepare info Ldb.readRequest]⟩, r) := ⟨_, rfl⟩
  obtain ⟨r, hw⟩ := hw
  rw [hw] at h
  rcases r with ⟨a, _ | e⟩ | _ <;> dsimp only at h
  · rcases hr : Ldb.refreshLoop (Device.io info (wireIO answer)) fuel fuel
        ⟨inbox, sent ++ [Device.prepare info Ldb.readRequest]⟩ { ldb with index := [], links := [] } 0#64 with
      _ | ⟨w1, l1, (_ | e) | e | _⟩ <;> rw [hr] at h <;> dsimp only at h <;> simp at h
    obtain ⟨ls, h1, h2⟩ := refreshLoop_sound info answer fuel fuel _ _ _ _ _ _ _ hfuel hr
    obtain ⟨-, -, rfl⟩ := h
    intro l hl
    rw [h1] at hl
    simp only [List.nil_append] at hl
    obtain ⟨m, hm, hc, x⟩ := h2 l hl
    exact ⟨m, hm, honly m hm hc, hc, x⟩
  · simp at h
  · simp at h

/-! ### C88 -/

/-- C88 is false of the code: a copy of the end record left over from the first download ends the second one
at once, and it reports an empty database. -/
theorem device_links_again_refuted :
    ¬ ∀ (links : List LinkRecord) (first : List Message), Transmits 0 links first →
      ∀ copies : List Message, (∀ m ∈ copies, ∃ r, Carries m links.length r ∧ isEnd r) →
      ∀ second, Transmits 0 links second →
      ∀ (w w' : Wire) (l1 l2 : Ldb) (r1 r2 : List LinkRecord) (fuel : Nat),
        Ldb.getLinks (Device.io dev5 (wireIO acks)) fuel 10000 10000 ⟨first ++ copies ++ second, []⟩ ⟨0, [], []⟩ =
          some (w, l1, .ok (r1, none)) →
        Ldb.getLinks (Device.io dev5 (wireIO acks)) fuel 20000 20000 w l1 = some (w', l2, .ok (r2, none)) → r2 = r1 := by
  intro h
  have t : Transmits 0 [⟨0xa2, 1, 0x010203, 4, 5, 6⟩]
      [recMsg 5 0 [0xa2, 1, 1, 2, 3, 4, 5, 6], recMsg 5 1 [0, 0, 0, 0, 0, 0, 0, 0]] :=
    .next 0 _ _ _ _ (recMsg_carries 5 0 _ rfl) (by decide) (by decide)
      (.last 1 [0, 0, 0, 0, 0, 0, 0, 0] _ (recMsg_carries 5 1 _ rfl) (by decide))
  have := h _ _ t [recMsg 5 1 [0, 0, 0, 0, 0, 0, 0, 0]]
    (by simp only [List.mem_singleton, forall_eq]
        exact ⟨[0, 0, 0, 0, 0, 0, 0, 0], recMsg_carries 5 1 _ rfl, by decide⟩) _ t _ _ _ _ _ _ 10 (by rfl) (by rfl)
  exact absurd this (by decide)

/-- C88, what is proved: without left-over copies the second download returns the same records. -/
theorem device_links_again_partial (info : DeviceInfo) (answer : Message → MRes) (links : List LinkRecord)
    (first second sent : List Message) (h1 : Transmits 0 links first) (h2 : Transmits 0 links second)
    (ldb : Ldb) (now now' : Int) (hold : ldb.age + 3600 < now) (hold' : now + 3600 < now') (a : Option Message)
    (hans : answer (Device.prepare info ⟨0, 0, 0, 0x012f00, List.replicate 14 0⟩) = .ret a none)
    (fuel : Nat) (hfuel : (first ++ second).length < fuel) :
    ∃ w l1 w' l2,
      Ldb.getLinks (Device.io info (wireIO answer)) fuel now now ⟨first ++ second, sent⟩ ldb = some (w, l1, .ok (links, none)) ∧
      Ldb.getLinks (Device.io info (wireIO answer)) fuel now' now' w l1 = some (w', l2, .ok (links, none)) := by
  obtain ⟨l1, e1, e2, e3, -⟩ := device_links_complete info answer links first second sent h1 ldb now now hold a hans fuel hfuel
  obtain ⟨l2, e4, -⟩ := device_links_complete info answer links second [] _ h2 l1 now' now' (by rw [e3]; exact hold') a hans fuel
    (by simp at hfuel ⊢; omega)
  rw [List.append_nil] at e4
  exact ⟨_, _, _, _, e1, e4⟩

end Insteon
