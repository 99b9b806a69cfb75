import Verif.Props.DeviceLinks

/-
Lemmas about memory slots and about link writes against a device with memory.
-/

namespace Insteon
open Spec

/-! ### Slots -/

theorem slot_length (mem : Nat → Byte) (i : Nat) : (slot mem i).length = 8 := by simp [slot]

theorem raw_length (l : LinkRecord) : (raw l).length = 8 := rfl

theorem slotTop_inj (i j : Nat) (hi : i < 8192) (hj : j < 8192) (h : slotTop i = slotTop j) : i = j := by
  unfold slotTop at h; omega

theorem slot_store_same (mem : Nat → Byte) (i : Nat) (r : Bytes) (h : r.length = 8) :
    slot (store mem (slotTop i) r) i = r := by
  have hlt := slotTop_lt i
  apply List.ext_getElem
  · rw [slot_length, h]
  · intro k h1 h2
    rw [slot_length] at h1
    have e : ((slotTop i + k + 65529) % 65536 + 65536 + 7 - slotTop i) % 65536 = k := by omega
    simp only [slot, List.getElem_map, List.getElem_range, store, e, h1, if_true]
    rw [List.getD_eq_getElem?_getD, List.getElem?_eq_getElem h2]
    rfl

theorem slot_store_other (mem : Nat → Byte) (i j : Nat) (r : Bytes) (h : slotTop i ≠ slotTop j) :
    slot (store mem (slotTop i) r) j = slot mem j := by
  have hi := slotTop_lt i
  have hj := slotTop_lt j
  have mi := slotTop_mod i
  have mj := slotTop_mod j
  apply List.map_congr_left
  intro k hk
  rw [List.mem_range] at hk
  have e : ¬ (((slotTop j + k + 65529) % 65536 + 65536 + 7 - slotTop i) % 65536 < 8) := by omega
  simp only [store, e, if_false]

/-- The records from slot `i` on. -/
theorem recordsFrom_iff (mem : Nat → Byte) (n i : Nat) (rs : List Bytes) :
    recordsFrom mem n i = rs ↔ rs.length ≤ n ∧ (∀ j, (h : j < rs.length) → slot mem (i + j) = rs[j] ∧ ¬ isEnd rs[j]) ∧
      (rs.length < n → isEnd (slot mem (i + rs.length))) := by
  induction n generalizing i rs with
  | zero =>
    simp only [recordsFrom]
    constructor
    · rintro rfl; simp
    · rintro ⟨h, -⟩
      exact (List.length_eq_zero_iff.mp (by omega)).symm
  | succ n ih =>
    rw [recordsFrom]
    split_ifs with he
    · constructor
      · rintro rfl; simpa using he
      · rintro ⟨-, h2, -⟩
        cases rs with
        | nil => rfl
        | cons r rs =>
          have := h2 0 (by simp)
          simp only [Nat.add_zero, List.getElem_cons_zero] at this
          rw [this.1] at he
          exact absurd he this.2
    · cases rs with
      | nil => simp [he]
      | cons r rs =>
        rw [List.cons.injEq, ih]
        constructor
        · rintro ⟨rfl, h1, h2, h3⟩
          refine ⟨by simpa using h1, ?_, ?_⟩
          · intro j hj
            cases j with
            | zero => exact ⟨rfl, he⟩
            | succ j =>
              have := h2 j (by simpa using hj)
              rw [show i + 1 + j = i + (j + 1) by omega] at this
              simpa using this
          · intro hlt
            have := h3 (by simpa using hlt)
            rw [show i + 1 + rs.length = i + (rs.length + 1) by omega] at this
            simpa using this
        · rintro ⟨h1, h2, h3⟩
          refine ⟨(h2 0 (by simp)).1, by simpa using h1, ?_, ?_⟩
          · intro j hj
            have := h2 (j + 1) (by simpa using hj)
            rw [show i + 1 + j = i + (j + 1) by omega]
            simpa using this
          · intro hlt
            have := h3 (by simpa using hlt)
            rw [show i + 1 + rs.length = i + (rs.length + 1) by omega]
            simpa using this

theorem database_iff (mem : Nat → Byte) (rs : List Bytes) :
    database mem = rs ↔ rs.length ≤ 512 ∧ (∀ j, (h : j < rs.length) → slot mem j = rs[j] ∧ ¬ isEnd rs[j]) ∧
      (rs.length < 512 → isEnd (slot mem rs.length)) := by
  unfold database
  rw [recordsFrom_iff]
  simp

/-! ### One write -/

theorem memAddressOf_toNat (i : Nat) : (Ldb.memAddressOf i).toNat % 65536 = slotTop i := by
  unfold Ldb.memAddressOf slotTop
  rw [show BitVec.ofInt 64 (i : Int) = BitVec.ofNat 64 i by simp]
  rw [BitVec.toNat_sub, BitVec.toNat_mul]
  simp only [BitVec.toNat_ofNat]
  omega

theorem hi_lo (a : MemAddress) :
    ((a >>> 8).setWidth 8 : Byte).toNat * 256 + ((a &&& 0xff#64).setWidth 8 : Byte).toNat = a.toNat % 65536 := by
  have h1 : ((a &&& 0xff#64).setWidth 8 : Byte).toNat = a.toNat % 256 := by
    simp only [BitVec.toNat_setWidth, BitVec.toNat_and, BitVec.toNat_ofNat]
    rw [Nat.mod_eq_of_lt (show 255 < 2 ^ 64 by omega), Nat.and_two_pow_sub_one_eq_mod a.toNat 8]
    omega
  have h2 : ((a >>> 8).setWidth 8 : Byte).toNat = a.toNat / 256 % 256 := by
    simp [Nat.shiftRight_eq_div_pow]
  rw [h1, h2]; omega

/-- The payload of the write request for slot `i`. -/
def writePayload (i : Int) (l : LinkRecord) : Bytes :=
  [0#8, 2#8, ((Ldb.memAddressOf i) >>> 8).setWidth 8, ((Ldb.memAddressOf i) &&& 0xff#64).setWidth 8, 8] ++ raw l ++ [0]

theorem write_request (i : Int) (l : LinkRecord) :
    (⟨LinkRequest.writeLink, Ldb.memAddressOf i, 0, some l⟩ : LinkRequest).marshalBinary = .ok (writePayload i l) := by
  have h9 : copyPad 9 l.marshalBinary = raw l ++ [0] := by rw [marshal_aldb]; rfl
  have : (⟨LinkRequest.writeLink, Ldb.memAddressOf i, 0, some l⟩ : LinkRequest).marshalBinary =
    .ok ([0#8, 2#8, ((Ldb.memAddressOf i) >>> 8).setWidth 8, ((Ldb.memAddressOf i) &&& 0xff#64).setWidth 8] ++ [8]
      ++ copyPad 9 l.marshalBinary) := rfl
  rw [this, h9]; rfl

/-- What the device makes of the write request, whatever its engine version. -/
theorem obey_write (info : DeviceInfo) (mem : Nat → Byte) (i : Nat) (l : LinkRecord) :
    obey mem (Device.prepare info ⟨0, 0, 0, Cmd.readWriteALDB, writePayload i l⟩) = store mem (slotTop i) (raw l) := by
  have hp : ∃ z, Device.prepare info ⟨0, 0, 0, Cmd.readWriteALDB, writePayload i l⟩ =
      ⟨0, info.address, 0x1a, Cmd.readWriteALDB,
        [0#8, 2#8, ((Ldb.memAddressOf i) >>> 8).setWidth 8, ((Ldb.memAddressOf i) &&& 0xff#64).setWidth 8, 8] ++ raw l ++ [z]⟩ := by
    by_cases hv : info.engineVersion = 2#64
    · rw [prepare_i2cs info _ (by simp [writePayload]) hv]
      refine ⟨_, rfl⟩
    · rw [prepare_extended info _ (by simp [writePayload]) hv]
      exact ⟨0, rfl⟩
  obtain ⟨z, hp⟩ := hp
  rw [hp]
  have ht : ((raw l) ++ [z]).take 8 = raw l := rfl
  simp only [obey, List.cons_append, List.nil_append, ht, hi_lo, memAddressOf_toNat]
  rw [if_pos (by simp [cmd1])]

/-- The cache after a successful write at index `i`. -/
def cacheWrite (ldb : Ldb) (i : Nat) (l : LinkRecord) : Ldb :=
  if isEnd (raw l) then { ldb with links := ldb.links.take i }
  else { ldb with links := ldb.links.take i ++ l :: ldb.links.drop (i + 1) }

/-- A link write against the device, by the fate of the command. -/
theorem writeLink_dev (info : DeviceInfo) (mem : Nat → Byte) (fates : List Fate) (inbox : List Message) (ldb : Ldb)
    (i : Nat) (l : LinkRecord) (hi : i ≤ ldb.links.length) :
    Ldb.writeLink (Device.io info aldbIO) ⟨mem, fates, inbox⟩ ldb i l = match fates with
      | .lost e :: fs => (⟨mem, fs, inbox⟩, ldb, .ok (some e))
      | .unconfirmed e :: fs => (⟨store mem (slotTop i) (raw l), fs, inbox⟩, ldb, .ok (some e))
      | _ => (⟨store mem (slotTop i) (raw l), fates.tail, inbox⟩, cacheWrite ldb i l, .ok none) := by
  have hok : (if l.flags.lastRecord = true then
          if (i : Int) < ldb.links.length then
            if (i : Int) < 0 then (ldb, Out.panic) else ({ ldb with links := ldb.links.take (i : Int).toNat }, Out.ok none)
          else (ldb, .ok none)
        else if (i : Int) = ldb.links.length then ({ ldb with links := ldb.links ++ [l] }, .ok none)
        else if (i : Int) < 0 then (ldb, .panic)
        else ({ ldb with links := ldb.links.set (i : Int).toNat l }, .ok none)) = (cacheWrite ldb i l, Out.ok (none : Option Err)) := by
    unfold cacheWrite
    have hneg : ¬ ((i : Int) < 0) := by omega
    simp only [lastRecord_raw, hneg, if_false, Int.toNat_natCast]
    split_ifs with h1 h2 h2
    · rfl
    · rw [List.take_of_length_le (by omega)]
    · have : i = ldb.links.length := by omega
      subst this
      simp
    · rw [List.set_eq_take_append_cons_drop, if_pos (by omega)]
  unfold Ldb.writeLink
  rw [if_neg (by omega), write_request]
  dsimp only
  have hob := obey_write info mem i l
  rcases fates with _ | ⟨_ | e | e, fs⟩
  all_goals simp only [Device.io, Device.write, aldbIO, hob, acks, List.tail_cons, List.tail_nil]
  all_goals
    revert hok
    split_ifs <;> intro hok <;> simp only [Prod.mk.injEq, reduceCtorEq, and_false, and_true] at hok
    all_goals rw [← hok]

/-! ### Several writes -/

/-- Memory after storing records in consecutive slots from `i` on. -/
def storeAll (mem : Nat → Byte) : Nat → List LinkRecord → Nat → Byte
  | _, [] => mem
  | i, l :: ls => storeAll (store mem (slotTop i) (raw l)) (i + 1) ls

theorem slot_storeAll (mem : Nat → Byte) (i : Nat) (ls : List LinkRecord) (h : i + ls.length ≤ 8192) (j : Nat) (hj : j < 8192) :
    slot (storeAll mem i ls) j = if h : i ≤ j ∧ j < i + ls.length then raw (ls[j - i]'(by omega)) else slot mem j := by
  induction ls generalizing i mem with
  | nil => simp only [storeAll, List.length_nil]; rw [dif_neg (by omega)]
  | cons l ls ih =>
    rw [storeAll, ih _ _ (by simp at h; omega)]
    by_cases h1 : i + 1 ≤ j ∧ j < i + 1 + ls.length
    · rw [dif_pos h1, dif_pos (by simp; omega)]
      congr 1
      simp only [List.getElem_cons, show ¬ (j - i = 0) by omega, dite_false]
      congr 1
    · rw [dif_neg h1]
      by_cases h2 : j = i
      · subst h2
        rw [slot_store_same _ _ _ (raw_length l), dif_pos (by simp)]
        simp
      · rw [slot_store_other _ _ _ _ (fun he => h2 (slotTop_inj _ _ (by simp at h; omega) hj he).symm),
          dif_neg (by simp; omega)]

theorem storeAll_append (mem : Nat → Byte) (i : Nat) (a b : List LinkRecord) :
    storeAll mem i (a ++ b) = storeAll (storeAll mem i a) (i + a.length) b := by
  induction a generalizing mem i with
  | nil => rfl
  | cons x a ih =>
    rw [List.cons_append, storeAll, ih, storeAll, List.length_cons, show i + 1 + a.length = i + (a.length + 1) by omega]

/-- A record that is not an end record. -/
theorem notLast_raw (l : LinkRecord) : ¬ isEnd (raw (Ldb.notLast l)) := by
  have : ∀ f : RecordControlFlags, ¬ (f.clearLastRecord.toNat / 2 % 2 = 0) := by decide +kernel
  exact this l.flags

theorem endRecord_raw : raw Ldb.endRecord = List.replicate 8 0#8 := by decide

theorem endRecord_isEnd : isEnd (raw Ldb.endRecord) := by decide

/-- The command that would be number `k` from now is carried out and confirmed. -/
def Spec.fateDone (fates : List Fate) (k : Nat) : Prop := fates[k]? = none ∨ fates[k]? = some .done

theorem cacheWrite_notLast (ldb : Ldb) (i : Nat) (l : LinkRecord) :
    cacheWrite ldb i (Ldb.notLast l) = { ldb with links := ldb.links.take i ++ Ldb.notLast l :: ldb.links.drop (i + 1) } := by
  unfold cacheWrite; rw [if_neg (notLast_raw l)]

theorem cacheWrite_end (ldb : Ldb) (i : Nat) :
    cacheWrite ldb i Ldb.endRecord = { ldb with links := ldb.links.take i } := by
  unfold cacheWrite; rw [if_pos endRecord_isEnd]

theorem overlay_step (links : List LinkRecord) (i : Nat) (l : LinkRecord) (ls : List LinkRecord) (hi : i ≤ links.length) :
    (links.take i ++ l :: links.drop (i + 1)).take (i + 1) ++ ls ++
      (links.take i ++ l :: links.drop (i + 1)).drop (i + 1 + ls.length) =
    links.take i ++ (l :: ls) ++ links.drop (i + (l :: ls).length) := by
  have hlen : (links.take i ++ [l]).length = i + 1 := by simp [hi]
  have e : links.take i ++ l :: links.drop (i + 1) = (links.take i ++ [l]) ++ links.drop (i + 1) := by simp
  rw [e, List.take_left' hlen, ← List.drop_drop, List.drop_left' hlen, List.drop_drop]
  simp [show i + 1 + ls.length = i + (ls.length + 1) by omega]

/-- Writing consecutive records: how many were written, and what is in memory and in the cache. -/
theorem writeLinksLoop_dev (info : DeviceInfo) (ls : List LinkRecord) (i : Nat) (mem : Nat → Byte) (fates : List Fate)
    (inbox : List Message) (ldb : Ldb) (hi : i ≤ ldb.links.length) :
    ∃ k ≤ ls.length, (∀ j < k, fateDone fates j) ∧
      ((k = ls.length ∧ Ldb.writeLinksLoop (Device.io info aldbIO) i ls ⟨mem, fates, inbox⟩ ldb =
          (⟨storeAll mem i (ls.map Ldb.notLast), fates.drop k, inbox⟩,
            { ldb with links := ldb.links.take i ++ ls.map Ldb.notLast ++ ldb.links.drop (i + k) }, .ok none)) ∨
       (k < ls.length ∧ ∃ e m, Ldb.writeLinksLoop (Device.io info aldbIO) i ls ⟨mem, fates, inbox⟩ ldb =
          (⟨m, fates.drop (k + 1), inbox⟩,
            { ldb with links := ldb.links.take i ++ (ls.take k).map Ldb.notLast ++ ldb.links.drop (i + k) }, .ok (some e)) ∧
          ((fates[k]? = some (.lost e) ∧ m = storeAll mem i ((ls.take k).map Ldb.notLast)) ∨
           (fates[k]? = some (.unconfirmed e) ∧ m = storeAll mem i ((ls.take (k + 1)).map Ldb.notLast))))) := by
  induction ls generalizing i mem fates ldb with
  | nil =>
    refine ⟨0, le_refl _, by simp, Or.inl ⟨rfl, ?_⟩⟩
    simp [Ldb.writeLinksLoop, storeAll]
  | cons l ls ih =>
    rw [Ldb.writeLinksLoop, writeLink_dev _ _ _ _ _ _ _ hi]
    have hdone : ∀ fates : List Fate, fateDone fates 0 →
        (match fates with
          | .lost e :: fs => ((⟨mem, fs, inbox⟩ : AldbDev), ldb, Out.ok (some e))
          | .unconfirmed e :: fs => (⟨store mem (slotTop i) (raw (Ldb.notLast l)), fs, inbox⟩, ldb, .ok (some e))
          | _ => (⟨store mem (slotTop i) (raw (Ldb.notLast l)), fates.tail, inbox⟩, cacheWrite ldb i (Ldb.notLast l), .ok none)) =
        (⟨store mem (slotTop i) (raw (Ldb.notLast l)), fates.tail, inbox⟩, cacheWrite ldb i (Ldb.notLast l), .ok none) := by
      intro fates hf
      rcases fates with _ | ⟨_ | e | e, fs⟩
      · rfl
      · rfl
      · simp [fateDone] at hf
      · simp [fateDone] at hf
    by_cases hf : fateDone fates 0
    · rw [hdone fates hf]
      dsimp only
      have hlen : i + 1 ≤ (cacheWrite ldb i (Ldb.notLast l)).links.length := by
        rw [cacheWrite_notLast]; simp; omega
      obtain ⟨k, hk, h1, h2⟩ := ih (i + 1) (store mem (slotTop i) (raw (Ldb.notLast l))) fates.tail
        (cacheWrite ldb i (Ldb.notLast l)) hlen
      have htail : ∀ j, fates.tail[j]? = fates[j + 1]? := by intro j; cases fates <;> simp
      refine ⟨k + 1, by simp; omega, ?_, ?_⟩
      · intro j hj
        cases j with
        | zero => exact hf
        | succ j =>
          have := h1 j (by omega)
          unfold fateDone at this ⊢
          rwa [htail] at this
      · have ov := overlay_step ldb.links i (Ldb.notLast l)
        rcases h2 with ⟨hk2, h2⟩ | ⟨hk2, e, m, h2, h3⟩
        · left
          refine ⟨by simp [hk2], ?_⟩
          rw [h2]
          have := ov (ls.map Ldb.notLast) hi
          simp only [cacheWrite_notLast, hk2, List.length_cons, List.length_map] at this ⊢
          rw [this]
          simp [storeAll, List.drop_tail]
        · right
          refine ⟨by simp; omega, e, m, ?_, ?_⟩
          · rw [h2]
            have := ov ((ls.take k).map Ldb.notLast) hi
            have hmin : min k ls.length = k := by omega
            simp only [cacheWrite_notLast, List.length_cons, List.length_map, List.length_take, hmin] at this ⊢
            rw [this]
            simp [List.drop_tail]
          · rw [htail] at h3
            simpa [storeAll] using h3
    · refine ⟨0, by simp, by simp, Or.inr ⟨by simp, ?_⟩⟩
      rcases fates with _ | ⟨_ | e | e, fs⟩
      · simp [fateDone] at hf
      · simp [fateDone] at hf
      · refine ⟨e, mem, ?_, Or.inl ⟨rfl, by simp [storeAll]⟩⟩
        simp
      · refine ⟨e, store mem (slotTop i) (raw (Ldb.notLast l)), ?_, Or.inr ⟨rfl, by simp [storeAll]⟩⟩
        simp

end Insteon
