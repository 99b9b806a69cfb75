import Verif.Lemmas.Aldb

/-
Properties C55 - C60: writing a device's link database.
-/

namespace Insteon
open Spec

/-! ### C55 -/

/-- C55: an index past the end sends nothing and is reported, whatever the device. -/
theorem write_link_range {σ : Type} (io : MsgIO σ) (s : σ) (ldb : Ldb) (index : Int) (link : LinkRecord)
    (h : ldb.links.length < index) :
    Ldb.writeLink io s ldb index link = (s, ldb, .ok (some .linkIndexOutOfRange)) := by
  unfold Ldb.writeLink; rw [if_pos h]

/-- C55, within 8192 slots: a confirmed write at index `i` stores the record in slot `i` and leaves all other
slots alone; a lost one leaves the memory alone. -/
theorem write_link_slot_partial (info : DeviceInfo) (mem : Nat → Byte) (fates : List Fate) (inbox : List Message) (ldb : Ldb)
    (i : Nat) (link : LinkRecord) (hi : i ≤ ldb.links.length) (h : i < 8192) :
    ∃ mem' ldb' e, Ldb.writeLink (Device.io info aldbIO) ⟨mem, fates, inbox⟩ ldb i link =
        (⟨mem', fates.tail, inbox⟩, ldb', .ok e) ∧
      (e = none ↔ fateDone fates 0) ∧
      (e = none → slot mem' i = raw link) ∧
      (slot mem' i = raw link ∨ slot mem' i = slot mem i) ∧
      (∀ j < 8192, j ≠ i → slot mem' j = slot mem j) := by
  rw [writeLink_dev _ _ _ _ _ _ _ hi]
  have h1 := slot_store_same mem i (raw link) (raw_length link)
  have h2 : ∀ j < 8192, j ≠ i → slot (store mem (slotTop i) (raw link)) j = slot mem j := fun j hj hne =>
    slot_store_other _ _ _ _ fun he => hne (slotTop_inj _ _ h hj he).symm
  rcases fates with _ | ⟨_ | e | e, fs⟩
  · exact ⟨_, _, _, rfl, by simp [fateDone], fun _ => h1, Or.inl h1, h2⟩
  · exact ⟨_, _, _, rfl, by simp [fateDone], fun _ => h1, Or.inl h1, h2⟩
  · exact ⟨_, _, _, rfl, by simp [fateDone], by simp, Or.inr rfl, fun _ _ _ => rfl⟩
  · exact ⟨_, _, _, rfl, by simp [fateDone], by simp, Or.inl h1, h2⟩

/-- C55: the slots of different indexes have no byte in common; the first 512 lie below 0x1000. -/
theorem slots_disjoint (i j : Nat) (hi : i < 8192) (hj : j < 8192) (hne : i ≠ j) (k l : Nat) (hk : k < 8) (hl : l < 8) :
    (slotTop i + k + 65529) % 65536 ≠ (slotTop j + l + 65529) % 65536 := by
  have h : slotTop i ≠ slotTop j := fun he => hne (slotTop_inj i j hi hj he)
  have mi := slotTop_mod i
  have mj := slotTop_mod j
  have li := slotTop_lt i
  have lj := slotTop_lt j
  omega

theorem slots_in_memory (i k : Nat) (hk : k < 8) (h : i < 512) : (slotTop i + k + 65529) % 65536 < 4096 := by
  unfold slotTop; omega

/-- C55 in full is false of the code: with index 8192 slot 0 is overwritten. -/
theorem write_link_slot_refuted :
    ¬ ∀ (info : DeviceInfo) (mem : Nat → Byte) (ldb : Ldb) (i j : Nat) (link : LinkRecord), i ≤ ldb.links.length → j < i →
      slot (Ldb.writeLink (Device.io info aldbIO) ⟨mem, [], []⟩ ldb i link).1.mem j = slot mem j := by
  intro h
  have := h dev5 (fun _ => 0) ⟨0, List.replicate 8192 ⟨0xa2, 1, 5, 0, 0, 0⟩, []⟩ 8192 0 ⟨0xa2, 1, 5, 0, 0, 0⟩
    (by rw [List.length_replicate]) (by decide)
  rw [writeLink_dev _ _ _ _ _ _ _ (by dsimp only; rw [List.length_replicate])] at this
  dsimp only at this
  rw [show slotTop 8192 = slotTop 0 from by decide, slot_store_same _ _ _ (raw_length _)] at this
  exact absurd this (by decide)

/-- C55: a negative index is not rejected: something is written, then the program panics. -/
theorem write_link_negative : (Ldb.writeLink (Device.io dev5 (wireIO acks)) ⟨[], []⟩ ⟨0, [], []⟩ (-1) ⟨0xa2, 1, 5, 0, 0, 0⟩).2.2 =
    .panic ∧ (Ldb.writeLink (Device.io dev5 (wireIO acks)) ⟨[], []⟩ ⟨0, [], []⟩ (-1) ⟨0xa2, 1, 5, 0, 0, 0⟩).1.sent.length = 1 :=
  ⟨rfl, rfl⟩

/-! ### C56 -/

/-- The cached list is what the device holds. -/
def Agrees (ldb : Ldb) (mem : Nat → Byte) : Prop := database mem = ldb.links.map raw

theorem agrees_iff (ldb : Ldb) (mem : Nat → Byte) :
    Agrees ldb mem ↔ ldb.links.length ≤ 512 ∧
      (∀ j, (h : j < ldb.links.length) → slot mem j = raw ldb.links[j] ∧ ¬ isEnd (raw ldb.links[j])) ∧
      (ldb.links.length < 512 → isEnd (slot mem ldb.links.length)) := by
  unfold Agrees
  rw [database_iff]
  simp only [List.length_map, List.getElem_map]

/-- C56, one write: a successful write keeps the agreement, if it replaces a record, writes an end record, or
appends a record that is followed by an end record in the memory. -/
theorem cache_coherence_partial (info : DeviceInfo) (mem : Nat → Byte) (fates : List Fate) (inbox : List Message) (ldb : Ldb)
    (i : Nat) (link : LinkRecord) (hi : i ≤ ldb.links.length) (h512 : i < 512) (hag : Agrees ldb mem)
    (hcase : i < ldb.links.length ∨ isEnd (raw link) ∨ i + 1 = 512 ∨ isEnd (slot mem (i + 1)))
    (d' : AldbDev) (ldb' : Ldb)
    (h : Ldb.writeLink (Device.io info aldbIO) ⟨mem, fates, inbox⟩ ldb i link = (d', ldb', .ok none)) :
    Agrees ldb' d'.mem := by
  rw [writeLink_dev _ _ _ _ _ _ _ hi] at h
  have hd : d'.mem = store mem (slotTop i) (raw link) ∧ ldb' = cacheWrite ldb i link := by
    rcases fates with _ | ⟨_ | e | e, fs⟩ <;> simp only [Prod.mk.injEq, Out.ok.injEq, reduceCtorEq, and_false, and_true] at h
    · obtain ⟨rfl, rfl⟩ := h; exact ⟨rfl, rfl⟩
    · obtain ⟨rfl, rfl⟩ := h; exact ⟨rfl, rfl⟩
  rw [hd.1, hd.2]
  rw [agrees_iff] at hag
  obtain ⟨a1, a2, a3⟩ := hag
  have hsame := slot_store_same mem i (raw link) (raw_length link)
  have hother : ∀ j < 8192, j ≠ i → slot (store mem (slotTop i) (raw link)) j = slot mem j := fun j hj hne =>
    slot_store_other _ _ _ _ fun he => hne (slotTop_inj _ _ (by omega) hj he).symm
  rw [agrees_iff]
  unfold cacheWrite
  split_ifs with hend
  · have hlen : (ldb.links.take i).length = i := by simp [hi]
    dsimp only
    refine ⟨by omega, ?_, ?_⟩
    · intro j hj
      rw [hlen] at hj
      rw [hother j (by omega) (by omega), List.getElem_take]
      exact a2 j (by omega)
    · intro _
      rw [hlen, hsame]; exact hend
  · dsimp only
    have hlt : (ldb.links.take i).length = i := by simp [hi]
    have hlen : (ldb.links.take i ++ link :: ldb.links.drop (i + 1)).length = max (i + 1) ldb.links.length := by
      simp; omega
    refine ⟨by omega, ?_, ?_⟩
    · intro j hj
      rw [hlen] at hj
      rcases Nat.lt_trichotomy j i with hji | hji | hji
      · rw [hother j (by omega) (by omega), List.getElem_append_left (by omega), List.getElem_take]
        exact a2 j (by omega)
      · subst hji
        rw [hsame, List.getElem_append_right (by omega)]
        simp only [hlt, Nat.sub_self, List.getElem_cons_zero]
        exact ⟨trivial, hend⟩
      · rw [hother j (by omega) (by omega), List.getElem_append_right (by omega)]
        simp only [hlt, List.getElem_cons, show ¬ (j - i = 0) by omega, dite_false, List.getElem_drop,
          show i + 1 + (j - i - 1) = j by omega]
        exact a2 j (by omega)
    · intro hlt2
      rw [hlen] at hlt2 ⊢
      rw [hother _ (by omega) (by omega)]
      rcases Nat.lt_or_ge i ldb.links.length with hil | hil
      · rw [show max (i + 1) ldb.links.length = ldb.links.length by omega]
        exact a3 (by omega)
      · have : i = ldb.links.length := by omega
        rw [show max (i + 1) ldb.links.length = i + 1 by omega]
        rcases hcase with hc | hc | hc | hc
        · omega
        · exact absurd hc hend
        · omega
        · exact hc

/-- A sequence of link writes, ignoring the results. -/
def writeSeq (io : MsgIO AldbDev) : List (Nat × LinkRecord) → AldbDev × Ldb → AldbDev × Ldb
  | [], s => s
  | (i, l) :: ops, s => let r := Ldb.writeLink io s.1 s.2 i l; writeSeq io ops (r.1, r.2.1)

/-- No unconfirmed commands: each one is carried out and confirmed, or lost. -/
def Confirmed (fates : List Fate) : Prop := ∀ f ∈ fates, ∀ e, f ≠ .unconfirmed e

/-- From slot `n` on all slots hold end records. -/
def CleanFrom (mem : Nat → Byte) (n : Nat) : Prop := ∀ j, n ≤ j → j < 512 → isEnd (slot mem j)

/-- C56, any sequence of writes of records below index 512, at any index, some of them lost: if the memory holds no
old records behind the end, cache and device agree at the end. -/
theorem cache_coherence_seq_partial (info : DeviceInfo) (ops : List (Nat × LinkRecord))
    (hops : ∀ op ∈ ops, op.1 < 512 ∧ ¬ isEnd (raw op.2)) (mem : Nat → Byte) (fates : List Fate) (inbox : List Message)
    (ldb : Ldb) (hag : Agrees ldb mem) (hclean : CleanFrom mem ldb.links.length) (hconf : Confirmed fates) :
    Agrees (writeSeq (Device.io info aldbIO) ops (⟨mem, fates, inbox⟩, ldb)).2
      (writeSeq (Device.io info aldbIO) ops (⟨mem, fates, inbox⟩, ldb)).1.mem := by
  induction ops generalizing mem fates ldb with
  | nil => exact hag
  | cons op ops ih =>
    obtain ⟨i, l⟩ := op
    obtain ⟨h512, hend⟩ := hops (i, l) (by simp)
    have hops' : ∀ op ∈ ops, op.1 < 512 ∧ ¬ isEnd (raw op.2) := fun op ho => hops op (by simp [ho])
    dsimp only at h512 hend
    rw [writeSeq]
    dsimp only
    by_cases hi : i ≤ ldb.links.length
    · have hw := writeLink_dev info mem fates inbox ldb i l hi
      have hgood : ∀ fs, Confirmed fs → Ldb.writeLink (Device.io info aldbIO) ⟨mem, fates, inbox⟩ ldb i l =
          (⟨store mem (slotTop i) (raw l), fs, inbox⟩, cacheWrite ldb i l, .ok none) →
          Agrees (writeSeq (Device.io info aldbIO) ops (⟨store mem (slotTop i) (raw l), fs, inbox⟩, cacheWrite ldb i l)).2
            (writeSeq (Device.io info aldbIO) ops (⟨store mem (slotTop i) (raw l), fs, inbox⟩, cacheWrite ldb i l)).1.mem := by
        intro fs hfs hr
        have hag' := cache_coherence_partial info mem fates inbox ldb i l hi h512 hag ?_ _ _ hr
        · refine ih hops' _ fs _ hag' ?_ hfs
          intro j hj hj2
          have hlen : (cacheWrite ldb i l).links.length = max (i + 1) ldb.links.length := by
            unfold cacheWrite; rw [if_neg hend]; simp; omega
          rw [hlen] at hj
          rw [slot_store_other _ _ _ _ fun he => by
            have := slotTop_inj _ _ (by omega) (by omega) he; omega]
          exact hclean j (by omega) hj2
        · by_cases h1 : i + 1 = 512
          · exact Or.inr (Or.inr (Or.inl h1))
          · by_cases h2 : i < ldb.links.length
            · exact Or.inl h2
            · exact Or.inr (Or.inr (Or.inr (hclean (i + 1) (by omega) (by omega))))
      rcases fates with _ | ⟨_ | e | e, fs⟩
      · dsimp only at hw; rw [hw]; exact hgood _ (by simp [Confirmed]) hw
      · dsimp only at hw; rw [hw]; exact hgood _ (fun f hf => hconf f (by simp at hf ⊢; exact Or.inr hf)) hw
      · dsimp only at hw; rw [hw]
        exact ih hops' mem fs ldb hag hclean (fun f hf => hconf f (by simp [hf]))
      · exact absurd rfl (hconf _ (by simp) e)
    · rw [write_link_range _ _ _ _ _ (by omega)]
      exact ih hops' mem fates ldb hag hclean hconf

/-- A device with two records. -/
def twoRecords : Nat → Byte :=
  store (store (fun _ => 0) (slotTop 0) (raw ⟨0xa2, 1, 5, 0, 0, 0⟩)) (slotTop 1) (raw ⟨0xe2, 2, 6, 0, 0, 0⟩)

theorem twoRecords_clean : CleanFrom twoRecords 2 := by
  intro j h1 h2
  unfold twoRecords
  rw [slot_store_other _ _ _ _ fun he => by have := slotTop_inj _ _ (by omega) (by omega) he; omega,
    slot_store_other _ _ _ _ fun he => by have := slotTop_inj _ _ (by omega) (by omega) he; omega]
  exact (by decide : isEnd (List.replicate 8 0#8))

example : Agrees ⟨0, [⟨0xa2, 1, 5, 0, 0, 0⟩, ⟨0xe2, 2, 6, 0, 0, 0⟩], []⟩ twoRecords ∧ CleanFrom twoRecords 2 :=
  ⟨by unfold Agrees; decide +kernel, twoRecords_clean⟩

/-- C56 in full is false of the code: shorten the list by writing an end record, then append a record; the old record
behind it is in the device's database again, but not in the cache. -/
theorem cache_coherence_refuted :
    ¬ ∀ (info : DeviceInfo) (mem : Nat → Byte) (ldb : Ldb) (ops : List (Nat × LinkRecord)),
      (∀ op ∈ ops, op.1 < 512) → Agrees ldb mem →
      Agrees (writeSeq (Device.io info aldbIO) ops (⟨mem, [], []⟩, ldb)).2
        (writeSeq (Device.io info aldbIO) ops (⟨mem, [], []⟩, ldb)).1.mem := by
  intro h
  have hag : Agrees ⟨0, [⟨0xa2, 1, 5, 0, 0, 0⟩, ⟨0xe2, 2, 6, 0, 0, 0⟩], []⟩ twoRecords := by
    unfold Agrees; decide +kernel
  have := h dev5 twoRecords _ [(0, ⟨0, 0, 0, 0, 0, 0⟩), (0, ⟨0xa2, 3, 7, 0, 0, 0⟩)] (by decide) hag
  revert this
  unfold Agrees
  decide +kernel

/-! ### C57, C58 -/

/-- Everything about one `WriteLinks`: it fails at the first command that is not carried out and confirmed, and
memory and cache are then as after the commands before. -/
theorem writeLinks_dev (info : DeviceInfo) (mem : Nat → Byte) (fates : List Fate) (inbox : List Message) (ldb : Ldb)
    (done : Int) (links : List LinkRecord) :
    ∃ k ≤ links.length + 1, (∀ j < k, fateDone fates j) ∧
      ((k = links.length + 1 ∧ Ldb.writeLinks (Device.io info aldbIO) done ⟨mem, fates, inbox⟩ ldb links =
          (⟨store (storeAll mem 0 (links.map Ldb.notLast)) (slotTop (max links.length ldb.links.length)) (raw Ldb.endRecord),
            fates.drop k, inbox⟩,
            { ldb with links := links.map Ldb.notLast ++ ldb.links.drop links.length, age := done }, .ok none)) ∨
       (k ≤ links.length ∧ ∃ e m, Ldb.writeLinks (Device.io info aldbIO) done ⟨mem, fates, inbox⟩ ldb links =
          (⟨m, fates.drop (k + 1), inbox⟩,
            { ldb with links := (links.take k).map Ldb.notLast ++ ldb.links.drop k }, .ok (some e)) ∧
          ((fates[k]? = some (.lost e) ∧ m = storeAll mem 0 ((links.take k).map Ldb.notLast)) ∨
           (fates[k]? = some (.unconfirmed e) ∧ k < links.length ∧ m = storeAll mem 0 ((links.take (k + 1)).map Ldb.notLast)) ∨
           (fates[k]? = some (.unconfirmed e) ∧ k = links.length ∧
              m = store (storeAll mem 0 (links.map Ldb.notLast)) (slotTop (max links.length ldb.links.length)) (raw Ldb.endRecord))))) := by
  obtain ⟨k, hk, h1, h2⟩ := writeLinksLoop_dev info links 0 mem fates inbox ldb (by omega)
  simp only [List.take_zero, List.nil_append, Nat.zero_add] at h2
  unfold Ldb.writeLinks
  rcases h2 with ⟨hk2, h2⟩ | ⟨hk2, e, m, h2, h3⟩
  · subst hk2
    rw [h2]
    dsimp only
    have hlen : (links.map Ldb.notLast ++ ldb.links.drop links.length).length = max links.length ldb.links.length := by
      simp; omega
    have hw := writeLink_dev info (storeAll mem 0 (links.map Ldb.notLast)) (fates.drop links.length) inbox
      { ldb with links := links.map Ldb.notLast ++ ldb.links.drop links.length } _ Ldb.endRecord (le_refl _)
    dsimp only at hw
    rw [hlen] at hw
    rw [hlen, hw]
    have hdrop : ∀ f fs, fates.drop links.length = f :: fs → fates[links.length]? = some f ∧ fates.drop (links.length + 1) = fs := by
      intro f fs hf
      constructor
      · have := congrArg List.head? hf
        rwa [List.head?_drop, List.head?_cons] at this
      · rw [← List.drop_drop, hf]; rfl
    have hcw : cacheWrite { ldb with links := links.map Ldb.notLast ++ ldb.links.drop links.length } (max links.length ldb.links.length) Ldb.endRecord =
        { ldb with links := links.map Ldb.notLast ++ ldb.links.drop links.length } := by
      rw [cacheWrite_end]
      dsimp only
      rw [List.take_of_length_le (by omega)]
    rcases hfd : fates.drop links.length with _ | ⟨_ | e | e, fs⟩
    · refine ⟨links.length + 1, by omega, ?_, Or.inl ⟨by omega, ?_⟩⟩
      · intro j hj
        rcases Nat.lt_succ_iff_lt_or_eq.mp hj with h | rfl
        · exact h1 j h
        · left; rw [List.getElem?_eq_none_iff]; simpa [List.drop_eq_nil_iff] using hfd
      · have : fates.drop (links.length + 1) = [] := by rw [← List.drop_drop, hfd]; rfl
        simp [hcw, this]
    · obtain ⟨e1, e2⟩ := hdrop _ _ hfd
      refine ⟨links.length + 1, by omega, ?_, Or.inl ⟨by omega, ?_⟩⟩
      · intro j hj
        rcases Nat.lt_succ_iff_lt_or_eq.mp hj with h | rfl
        · exact h1 j h
        · right; exact e1
      · simp [hcw, e2]
    · obtain ⟨e1, e2⟩ := hdrop _ _ hfd
      refine ⟨links.length, by omega, h1, Or.inr ⟨by omega, e, _, ?_, Or.inl ⟨e1, rfl⟩⟩⟩
      simp [e2, List.take_length]
    · obtain ⟨e1, e2⟩ := hdrop _ _ hfd
      refine ⟨links.length, by omega, h1, Or.inr ⟨by omega, e, _, ?_, Or.inr (Or.inr ⟨e1, rfl, rfl⟩)⟩⟩
      simp [e2, List.take_length]
  · rw [h2]
    refine ⟨k, by omega, h1, Or.inr ⟨by omega, e, m, rfl, ?_⟩⟩
    rcases h3 with ⟨h3, h4⟩ | ⟨h3, h4⟩
    · exact Or.inl ⟨h3, h4⟩
    · exact Or.inr (Or.inl ⟨h3, hk2, h4⟩)

/-- The link as it is written: the end marker is cleared. -/
theorem notLast_eq (l : LinkRecord) (h : ¬ isEnd (raw l)) : Ldb.notLast l = l := by
  have : ∀ f : RecordControlFlags, ¬ (f.toNat / 2 % 2 = 0) → f.clearLastRecord = f := by decide +kernel
  unfold Ldb.notLast
  rw [this l.flags h]

/-- C57, whatever was cached before: after a success the device's first slots hold the new links, and the end
record is written behind the longer of the new and the cached list. So if the cached list is not longer than the
new one, the device's database is exactly the new list. -/
theorem write_links_partial (info : DeviceInfo) (mem : Nat → Byte) (fates : List Fate) (inbox : List Message) (ldb ldb' : Ldb)
    (done : Int) (links : List LinkRecord) (d' : AldbDev)
    (hmax : max links.length ldb.links.length < 512) (hend : ∀ l ∈ links, ¬ isEnd (raw l))
    (h : Ldb.writeLinks (Device.io info aldbIO) done ⟨mem, fates, inbox⟩ ldb links = (d', ldb', .ok none)) :
    (∀ j, (h : j < links.length) → slot d'.mem j = raw links[j]) ∧
    (∀ j, links.length ≤ j → j < 512 → j ≠ max links.length ldb.links.length → slot d'.mem j = slot mem j) ∧
    isEnd (slot d'.mem (max links.length ldb.links.length)) ∧
    ldb'.links = links ++ ldb.links.drop links.length ∧
    (ldb.links.length ≤ links.length → database d'.mem = links.map raw) := by
  have hmap : links.map Ldb.notLast = links := by
    conv_rhs => rw [← List.map_id links]
    exact List.map_congr_left fun l hl => notLast_eq l (hend l hl)
  obtain ⟨k, -, -, ⟨-, h2⟩ | ⟨-, e, m, h2, -⟩⟩ := writeLinks_dev info mem fates inbox ldb done links
  · rw [h2, hmap] at h
    simp only [Prod.mk.injEq, and_true] at h
    obtain ⟨hd, hl⟩ := h
    have hs : ∀ j < 8192, slot d'.mem j = if j = max links.length ldb.links.length then raw Ldb.endRecord
        else if h : j < links.length then raw links[j] else slot mem j := by
      intro j hj
      rw [← hd]
      dsimp only
      split_ifs with h1 h2
      · rw [← h1, slot_store_same _ _ _ (raw_length _)]
      · rw [slot_store_other _ _ _ _ fun he => h1 (slotTop_inj _ _ (by omega) hj he).symm,
          slot_storeAll _ _ _ (by omega) _ hj, dif_pos (by omega)]
        rfl
      · rw [slot_store_other _ _ _ _ fun he => h1 (slotTop_inj _ _ (by omega) hj he).symm,
          slot_storeAll _ _ _ (by omega) _ hj, dif_neg (by omega)]
    refine ⟨?_, ?_, ?_, by rw [← hl], ?_⟩
    · intro j hj
      rw [hs j (by omega), if_neg (by omega), dif_pos hj]
    · intro j h1 h2 h3
      rw [hs j (by omega), if_neg h3, dif_neg (by omega)]
    · rw [hs _ (by omega), if_pos rfl]; exact endRecord_isEnd
    · intro hle
      rw [database_iff]
      simp only [List.length_map, List.getElem_map]
      refine ⟨by omega, ?_, ?_⟩
      · intro j hj
        rw [hs j (by omega), if_neg (by omega), dif_pos hj]
        exact ⟨rfl, hend _ (List.getElem_mem _)⟩
      · intro _
        rw [hs _ (by omega), if_pos (by omega)]; exact endRecord_isEnd
  · rw [h2] at h
    simp at h

/-- C57 in full is false of the code: a shorter list leaves the old records behind it in the database. -/
theorem write_links_refuted :
    ¬ ∀ (info : DeviceInfo) (mem : Nat → Byte) (ldb ldb' : Ldb) (done : Int) (links : List LinkRecord) (d' : AldbDev),
      Agrees ldb mem → (∀ l ∈ links, ¬ isEnd (raw l)) → links.length < 512 →
      Ldb.writeLinks (Device.io info aldbIO) done ⟨mem, [], []⟩ ldb links = (d', ldb', .ok none) →
      database d'.mem = links.map raw := by
  intro h
  have hag : Agrees ⟨0, [⟨0xa2, 1, 5, 0, 0, 0⟩, ⟨0xe2, 2, 6, 0, 0, 0⟩], []⟩ twoRecords := by
    unfold Agrees; decide +kernel
  have := h dev5 twoRecords _ _ 0 [⟨0xa2, 3, 7, 0, 0, 0⟩] _ hag (by decide) (by decide) (by rfl)
  revert this
  decide +kernel

/-- C58: if a rewrite fails, then at the first command that is not confirmed, number `k`; the first `k` slots hold
the new links, and all others are untouched, except that a slot written without confirmation may be the new one. -/
theorem interrupted_rewrite (info : DeviceInfo) (mem : Nat → Byte) (fates : List Fate) (inbox : List Message) (ldb ldb' : Ldb)
    (done : Int) (links : List LinkRecord) (d' : AldbDev) (e : Err)
    (hmax : max links.length ldb.links.length < 512) (hend : ∀ l ∈ links, ¬ isEnd (raw l))
    (h : Ldb.writeLinks (Device.io info aldbIO) done ⟨mem, fates, inbox⟩ ldb links = (d', ldb', .ok (some e))) :
    ∃ k ≤ links.length, (∀ j < k, fateDone fates j) ∧
      (fates[k]? = some (.lost e) ∨ fates[k]? = some (.unconfirmed e)) ∧
      (∀ j, (hj : j < links.length) → j < k → slot d'.mem j = raw links[j]) ∧
      (∀ j, k ≤ j → j < 512 → slot d'.mem j = slot mem j ∨
        (fates[k]? = some (.unconfirmed e) ∧
          ((j = k ∧ ∃ hj : j < links.length, slot d'.mem j = raw links[j]) ∨
           (k = links.length ∧ j = max links.length ldb.links.length ∧ slot d'.mem j = List.replicate 8 0)))) ∧
      ldb'.links = links.take k ++ ldb.links.drop k := by
  have hmap : ∀ n, (links.take n).map Ldb.notLast = links.take n := by
    intro n
    conv_rhs => rw [← List.map_id (links.take n)]
    exact List.map_congr_left fun l hl => notLast_eq l (hend l (List.mem_of_mem_take hl))
  have hmap' : links.map Ldb.notLast = links := by
    have := hmap links.length
    rwa [List.take_length] at this
  have hslin : ∀ n ≤ links.length, ∀ j, (hj : j < links.length) → j < n → slot (storeAll mem 0 (links.take n)) j = raw links[j] := by
    intro n hn j hj hjn
    have hlen : (links.take n).length = n := by simp [hn]
    rw [slot_storeAll _ _ _ (by omega) _ (by omega), dif_pos (by omega)]
    simp
  have hslout : ∀ n ≤ links.length, ∀ j, j < 8192 → n ≤ j → slot (storeAll mem 0 (links.take n)) j = slot mem j := by
    intro n hn j hj hjn
    have hlen : (links.take n).length = n := by simp [hn]
    rw [slot_storeAll _ _ _ (by omega) _ (by omega), dif_neg (by omega)]
  obtain ⟨k, hk, h1, ⟨-, h2⟩ | ⟨hk2, e', m, h2, h3⟩⟩ := writeLinks_dev info mem fates inbox ldb done links
  · rw [h2] at h
    simp at h
  · rw [h2] at h
    simp only [Prod.mk.injEq, Out.ok.injEq, Option.some.injEq] at h
    obtain ⟨hd, hl, rfl⟩ := h
    rw [hmap] at hl
    refine ⟨k, hk2, h1, ?_, ?_, ?_, by rw [← hl]⟩
    · rcases h3 with ⟨h3, -⟩ | ⟨h3, -⟩ | ⟨h3, -⟩
      · exact Or.inl h3
      · exact Or.inr h3
      · exact Or.inr h3
    · intro j hj hjk
      rw [← hd]
      rcases h3 with ⟨h3, h4⟩ | ⟨h3, h5, h4⟩ | ⟨h3, h5, h4⟩
      · rw [h4, hmap]; exact hslin k hk2 j hj hjk
      · rw [h4, hmap]; exact hslin (k + 1) (by omega) j hj (by omega)
      · rw [h4, hmap']
        dsimp only
        rw [slot_store_other _ _ _ _ fun he => by have := slotTop_inj _ _ (by omega) (by omega) he; omega]
        have := hslin links.length (le_refl _) j hj hj
        rwa [List.take_length] at this
    · intro j hkj hj
      rw [← hd]
      rcases h3 with ⟨h3, h4⟩ | ⟨h3, h5, h4⟩ | ⟨h3, h5, h4⟩
      · left; rw [h4, hmap]; exact hslout k hk2 j (by omega) hkj
      · by_cases hje : j = k
        · right
          refine ⟨h3, Or.inl ⟨hje, by omega, ?_⟩⟩
          rw [h4, hmap]; exact hslin (k + 1) (by omega) j (by omega) (by omega)
        · left; rw [h4, hmap]; exact hslout (k + 1) (by omega) j (by omega) (by omega)
      · by_cases hje : j = max links.length ldb.links.length
        · right
          refine ⟨h3, Or.inr ⟨h5, hje, ?_⟩⟩
          rw [h4]
          dsimp only
          rw [← hje, slot_store_same _ _ _ (raw_length _), endRecord_raw]
          rfl
        · left
          rw [h4, hmap']
          dsimp only
          rw [slot_store_other _ _ _ _ fun he => hje (slotTop_inj _ _ (by omega) (by omega) he).symm]
          have := hslout links.length (le_refl _) j (by omega) (by omega)
          rwa [List.take_length] at this

end Insteon
