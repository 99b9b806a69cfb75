import Verif.Props.DeviceWrite

/-
Properties C59, C60 and the link between a device's memory and a download.
-/

namespace Insteon
open Spec

/-! ### Downloads and memory -/

/-- What the device sends when asked for its database of `n` records: slots 0 to n. -/
def Spec.dump (src : Address) (mem : Nat → Byte) (n : Nat) : List Message :=
  (List.range (n + 1)).map fun i => recMsg src i (slot mem i)

theorem dump_from (src : Address) (mem : Nat → Byte) (i : Nat) (links : List LinkRecord)
    (h1 : ∀ j, (h : j < links.length) → slot mem (i + j) = raw links[j] ∧ ¬ isEnd (raw links[j]) ∧ links[j].address.toNat < 2 ^ 24)
    (h2 : isEnd (slot mem (i + links.length))) :
    Transmits i links ((List.range' i (links.length + 1)).map fun i => recMsg src i (slot mem i)) := by
  induction links generalizing i with
  | nil => exact .last i _ _ (recMsg_carries src i _ (slot_length _ _)) h2
  | cons l ls ih =>
    rw [List.length_cons, List.range'_succ, List.map_cons]
    obtain ⟨e1, e2, e3⟩ := h1 0 (by simp)
    simp only [Nat.add_zero, List.getElem_cons_zero] at e1 e2 e3
    refine .next i l ls _ _ ?_ e2 e3 (ih (i + 1) ?_ ?_)
    · rw [← e1]; exact recMsg_carries src i _ (slot_length _ _)
    · intro j hj
      have := h1 (j + 1) (by simpa using hj)
      rw [show i + 1 + j = i + (j + 1) by omega]
      simpa using this
    · rw [show i + 1 + ls.length = i + (ls.length + 1) by omega]; exact h2

/-- A fresh download of a device with this database returns its records: so agreement of cache and memory (C56) means
agreement with what a fresh read would return. -/
theorem fresh_read (src : Address) (mem : Nat → Byte) (links : List LinkRecord) (h : database mem = links.map raw)
    (hlen : links.length < 512) (ha : ∀ l ∈ links, l.address.toNat < 2 ^ 24) :
    Transmits 0 links (dump src mem links.length) := by
  rw [database_iff] at h
  simp only [List.length_map, List.getElem_map] at h
  obtain ⟨-, h2, h3⟩ := h
  have := dump_from src mem 0 links (fun j hj => by
    rw [Nat.zero_add]; exact ⟨(h2 j hj).1, (h2 j hj).2, ha _ (List.getElem_mem _)⟩) (by rw [Nat.zero_add]; exact h3 hlen)
  rwa [dump, List.range_eq_range']

/-! ### C60 -/

theorem writeLink_ok (info : DeviceInfo) (d d' : AldbDev) (ldb ldb' : Ldb) (i : Nat) (l : LinkRecord)
    (hi : i ≤ ldb.links.length) (h : Ldb.writeLink (Device.io info aldbIO) d ldb i l = (d', ldb', .ok none)) :
    d'.mem = store d.mem (slotTop i) (raw l) ∧ ldb' = cacheWrite ldb i l := by
  obtain ⟨mem, fates, inbox⟩ := d
  rw [writeLink_dev _ _ _ _ _ _ _ hi] at h
  rcases fates with _ | ⟨_ | e | e, fs⟩ <;> simp only [Prod.mk.injEq, Out.ok.injEq, reduceCtorEq, and_false, and_true] at h
  · obtain ⟨rfl, rfl⟩ := h; exact ⟨rfl, rfl⟩
  · obtain ⟨rfl, rfl⟩ := h; exact ⟨rfl, rfl⟩

theorem addLoop_dev (info : DeviceInfo) (orig : List LinkRecord) (i : Nat) (rest adds : List LinkRecord) (d d' : AldbDev)
    (ldb ldb' : Ldb) (left : List LinkRecord) (hrest : rest = orig.drop i) (hlen : ldb.links.length = orig.length) (h512 : orig.length ≤ 512)
    (hmem : ∀ j, (h : j < orig.length) → slot d.mem j = raw orig[j] ∧ ¬ isEnd (raw orig[j]))
    (h : Ldb.addLoop (Device.io info aldbIO) i rest adds d ldb = (d', ldb', .ok (left, none))) :
    left = adds.drop rest.length ∧ ldb'.links.length = orig.length ∧ ∀ j < 8192, slot d'.mem j = slot d.mem j := by
  induction rest generalizing i adds d ldb with
  | nil =>
    simp only [Ldb.addLoop, Prod.mk.injEq, Out.ok.injEq, and_true] at h
    obtain ⟨rfl, rfl, rfl⟩ := h
    exact ⟨by simp, hlen, fun _ _ => rfl⟩
  | cons link rest ih =>
    have hi : i < orig.length := by
      by_contra hge
      rw [List.drop_of_length_le (by omega)] at hrest
      simp at hrest
    rw [List.drop_eq_getElem_cons hi, List.cons.injEq] at hrest
    obtain ⟨hlink, hrest⟩ := hrest
    rcases adds with _ | ⟨a, as⟩ <;> rw [Ldb.addLoop] at h
    · simp only [Prod.mk.injEq, Out.ok.injEq, and_true] at h
      obtain ⟨rfl, rfl, rfl⟩ := h
      exact ⟨by simp, hlen, fun _ _ => rfl⟩
    · split_ifs at h with hav
      · rcases hw : Ldb.writeLink (Device.io info aldbIO) d ldb i link with ⟨d1, l1, (_ | e) | e | _⟩ <;> rw [hw] at h <;> dsimp only at h
        · obtain ⟨w1, w2⟩ := writeLink_ok info d d1 ldb l1 i link (by omega) hw
          obtain ⟨m1, m2⟩ := hmem i hi
          have hsl : ∀ j < 8192, slot d1.mem j = slot d.mem j := by
            intro j hj
            rw [w1]
            by_cases hji : j = i
            · subst hji
              rw [slot_store_same _ _ _ (raw_length _), m1, hlink]
            · rw [slot_store_other _ _ _ _ fun he => hji (slotTop_inj _ _ (by omega) hj he).symm]
          have hl1 : l1.links.length = orig.length := by
            rw [w2, cacheWrite, if_neg (by rw [hlink]; exact m2)]
            simp; omega
          obtain ⟨r1, r2, r3⟩ := ih (i + 1) as d1 _ hrest (by simpa using hl1) (fun j hj => by
            rw [hsl j (by omega)]; exact hmem j hj) h
          exact ⟨by rw [r1]; simp, r2, fun j hj => by rw [r3 j hj, hsl j hj]⟩
        · simp at h
        · simp at h
        · simp at h
      · obtain ⟨r1, r2, r3⟩ := ih (i + 1) as d ldb hrest hlen hmem h
        exact ⟨by rw [r1]; simp, r2, r3⟩

theorem addAppend_dev (info : DeviceInfo) (adds : List LinkRecord) (d d' : AldbDev) (ldb ldb' : Ldb)
    (h : Ldb.addAppend (Device.io info aldbIO) adds d ldb = (d', ldb', .ok none)) :
    d'.mem = storeAll d.mem ldb.links.length (adds.map Ldb.notLast) ∧ ldb'.links = ldb.links ++ adds.map Ldb.notLast := by
  induction adds generalizing d ldb with
  | nil =>
    simp only [Ldb.addAppend, Prod.mk.injEq, and_true] at h
    obtain ⟨rfl, rfl⟩ := h
    simp [storeAll]
  | cons a as ih =>
    rw [Ldb.addAppend] at h
    rcases hw : Ldb.writeLink (Device.io info aldbIO) d ldb ldb.links.length (Ldb.notLast a) with ⟨d1, l1, (_ | e) | e | _⟩ <;>
      rw [hw] at h <;> dsimp only at h
    · obtain ⟨w1, w2⟩ := writeLink_ok info d d1 ldb l1 _ _ (le_refl _) hw
      obtain ⟨r1, r2⟩ := ih d1 l1 h
      rw [cacheWrite_notLast] at w2
      have hl : l1.links = ldb.links ++ [Ldb.notLast a] := by rw [w2]; simp
      rw [r1, r2, w1, hl]
      simp [storeAll]
    · simp at h
    · simp at h
    · simp at h

/-- C60, what is proved: exactly what reaches the device. With `n` records cached, the first `n` links to add are not
written at all, the others are appended; no slot of an existing record changes. -/
theorem add_links_partial (info : DeviceInfo) (d d' : AldbDev) (ldb ldb' : Ldb) (now done : Int) (fuel : Nat)
    (adds : List LinkRecord) (hfresh : now ≤ ldb.age + 3600) (hag : Agrees ldb d.mem) (hlen : adds.length ≤ 512)
    (h : Ldb.addLinks (Device.io info aldbIO) fuel now done d ldb adds = some (d', ldb', .ok none)) :
    ∀ j < 512, slot d'.mem j = if h : ldb.links.length ≤ j ∧ j < adds.length then raw (Ldb.notLast (adds[j]'h.2)) else slot d.mem j := by
  have ho : ldb.old now = false := by simpa [Ldb.old] using hfresh
  rw [agrees_iff] at hag
  obtain ⟨a1, a2, a3⟩ := hag
  unfold Ldb.addLinks at h
  split_ifs at h with h0
  · simp only [Option.some.injEq, Prod.mk.injEq, and_true] at h
    obtain ⟨rfl, rfl⟩ := h
    intro j hj
    rw [dif_neg (by omega)]
  · simp only [Ldb.refresh, ho, Bool.not_false, if_true] at h
    rcases hl : Ldb.addLoop (Device.io info aldbIO) 0 ldb.links adds d ldb with ⟨d1, l1, ⟨left, _ | e⟩ | e | _⟩ <;>
      rw [hl] at h <;> dsimp only at h
    · obtain ⟨r1, r2, r3⟩ := addLoop_dev info ldb.links 0 ldb.links adds d d1 ldb l1 left rfl rfl a1 a2 hl
      simp only [Option.some.injEq] at h
      obtain ⟨s1, s2⟩ := addAppend_dev info left d1 d' l1 ldb' h
      intro j hj
      rw [s1, r2, slot_storeAll _ _ _ (by rw [r1]; simp; omega) _ (by omega)]
      simp only [r1, List.length_map, List.length_drop, List.getElem_map, List.getElem_drop]
      split_ifs with h1 h2 h2
      · congr 2
        congr 1
        omega
      · omega
      · omega
      · exact r3 j (by omega)
    · simp at h
    · simp at h
    · simp at h

/-- The cache of `twoRecords`. -/
def twoCache : Ldb :=
  ⟨0, [⟨0xa2, 1, 5, 0, 0, 0⟩, ⟨0xe2, 2, 6, 0, 0, 0⟩], [([0x40, 2, 0, 0, 6], 1), ([0, 1, 0, 0, 5], 0)]⟩

/-- C60 in full is false of the code: adding a link to a database with one record does nothing and reports
success. -/
theorem add_links_refuted :
    ¬ ∀ (info : DeviceInfo) (d d' : AldbDev) (ldb ldb' : Ldb) (now done : Int) (fuel : Nat) (adds : List LinkRecord),
      now ≤ ldb.age + 3600 → Agrees ldb d.mem →
      Ldb.addLinks (Device.io info aldbIO) fuel now done d ldb adds = some (d', ldb', .ok none) →
      ∀ l ∈ adds, raw l ∈ database d'.mem := by
  intro h
  have hag : Agrees twoCache (AldbDev.mk twoRecords [] []).mem := by
    unfold Agrees; decide +kernel
  have := h dev5 ⟨twoRecords, [], []⟩ ⟨twoRecords, [], []⟩ twoCache twoCache 0 0 0 [⟨0xa2, 3, 7, 0, 0, 0⟩] (by simp [twoCache]) hag
    (by simp [Ldb.addLinks, Ldb.refresh, Ldb.old, Ldb.addLoop, Ldb.addAppend, RecordControlFlags.available, twoCache])
    ⟨0xa2, 3, 7, 0, 0, 0⟩ (by simp)
  revert this
  decide +kernel

/-! ### C59 -/

/-- The index knows every cached link, at a place where a link with this identity is. -/
def IndexOk (ldb : Ldb) : Prop :=
  ∀ id, match Ldb.lookup ldb.index id with
    | some j => ∃ l, ldb.links[j]? = some l ∧ l.id = id
    | none => ∀ l ∈ ldb.links, l.id ≠ id

/-- Filling available records with new links, in order; the links that are left. -/
def Spec.fillIn : List LinkRecord → List LinkRecord → List LinkRecord × List LinkRecord
  | [], adds => ([], adds)
  | rs, [] => (rs, [])
  | r :: rs, a :: as =>
    if r.flags.toNat < 128 then let x := fillIn rs as; (a :: x.1, x.2)
    else let x := fillIn rs (a :: as); (r :: x.1, x.2)

/-- Filling available records with new links and appending the rest. -/
def Spec.fill (rs adds : List LinkRecord) : List LinkRecord := (fillIn rs adds).1 ++ (fillIn rs adds).2

theorem fillIn_length (rs adds : List LinkRecord) : (fillIn rs adds).1.length = rs.length := by
  induction rs generalizing adds with
  | nil => simp [fillIn]
  | cons r rs ih =>
    cases adds with
    | nil => simp [fillIn]
    | cons a as => rw [fillIn]; split_ifs <;> simp [ih]

/-- In-use records stay where they are. -/
theorem fill_in_use (rs adds : List LinkRecord) (j : Nat) (r : LinkRecord) (h : rs[j]? = some r) (hu : 128 ≤ r.flags.toNat) :
    (fill rs adds)[j]? = some r := by
  have : (fillIn rs adds).1[j]? = some r := by
    induction rs generalizing adds j with
    | nil => simp at h
    | cons x rs ih =>
      cases adds with
      | nil => simpa [fillIn] using h
      | cons a as =>
        rw [fillIn]
        cases j with
        | zero =>
          simp only [List.getElem?_cons_zero, Option.some.injEq] at h
          subst h
          rw [if_neg (by omega)]; rfl
        | succ j =>
          simp only [List.getElem?_cons_succ] at h
          split_ifs
          · simpa using ih as j h
          · simpa using ih (a :: as) j h
  unfold fill
  rw [List.getElem?_append_left (by
    by_contra hge
    rw [List.getElem?_eq_none (by omega)] at this
    simp at this)]
  exact this

/-- All new links are there. -/
theorem fill_adds (rs adds : List LinkRecord) : ∀ a ∈ adds, a ∈ fill rs adds := by
  unfold fill
  induction rs generalizing adds with
  | nil => simp [fillIn]
  | cons r rs ih =>
    cases adds with
    | nil => simp
    | cons a as =>
      rw [fillIn]
      split_ifs
      · intro x hx
        rcases List.mem_cons.mp hx with rfl | hx
        · simp
        · have := ih as x hx; simp only [List.mem_append] at this; simp; tauto
      · intro x hx
        have := ih (a :: as) x hx; simp only [List.mem_append] at this; simp; tauto

theorem available_iff (f : RecordControlFlags) : f.available = true ↔ f.toNat < 128 := by
  revert f; decide +kernel

/-- The first loop, when no flags change: nothing is written, the unknown links are left. -/
theorem updateFound_same {σ : Type} (io : MsgIO σ) (kept links : List LinkRecord) (s : σ) (ldb : Ldb) (hidx : IndexOk ldb)
    (hsame : ∀ l ∈ links, ∀ r ∈ ldb.links, r.id = l.id → r.flags = l.flags) :
    Ldb.updateFound io kept links s ldb =
      (s, ldb, .ok (kept ++ links.filter (fun l => !ldb.links.any fun r => r.id == l.id), none)) := by
  induction links generalizing kept with
  | nil => simp [Ldb.updateFound]
  | cons l ls ih =>
    rw [Ldb.updateFound]
    have hi := hidx l.id
    rcases hl : Ldb.lookup ldb.index l.id with _ | j <;> rw [hl] at hi <;> dsimp only at hi ⊢
    · rw [ih _ (fun l hl => hsame l (by simp [hl]))]
      have : (ldb.links.any fun r => r.id == l.id) = false := by
        rw [List.any_eq_false]
        intro r hr
        simpa using hi r hr
      simp [this]
    · obtain ⟨r, hr, hid⟩ := hi
      have hmem : r ∈ ldb.links := List.mem_of_getElem? hr
      rw [hr]
      dsimp only
      rw [if_neg (by simpa using hsame l (by simp) r hmem hid)]
      rw [ih _ (fun l hl => hsame l (by simp [hl]))]
      have : (ldb.links.any fun r => r.id == l.id) = true := by
        rw [List.any_eq_true]; exact ⟨r, hmem, by simpa using hid⟩
      simp [this]

theorem updateAvailable_dev (info : DeviceInfo) (pre rest adds left : List LinkRecord) (d d' : AldbDev) (ldb ldb' : Ldb)
    (hl : ldb.links = pre ++ rest) (hag : Agrees ldb d.mem)
    (h : Ldb.updateAvailable (Device.io info aldbIO) rest.length pre.length adds d ldb = (d', ldb', .ok (left, none))) :
    ldb'.links = pre ++ (fillIn rest (adds.map Ldb.notLast)).1 ∧ left.map Ldb.notLast = (fillIn rest (adds.map Ldb.notLast)).2 ∧
      Agrees ldb' d'.mem ∧ ldb'.index = ldb.index := by
  induction rest generalizing pre adds d ldb with
  | nil =>
    simp only [Ldb.updateAvailable, List.length_nil, Prod.mk.injEq, Out.ok.injEq, and_true] at h
    obtain ⟨rfl, rfl, rfl⟩ := h
    exact ⟨by simp [hl, fillIn], by simp [fillIn], hag, rfl⟩
  | cons r rest ih =>
    have hget : ldb.links[pre.length]? = some r := by rw [hl]; simp
    have hpre : ∀ x : LinkRecord, (pre ++ [x]).length = pre.length + 1 := by simp
    cases adds with
    | nil =>
      rw [List.length_cons] at h; unfold Ldb.updateAvailable at h; rw [hget] at h
      dsimp only at h
      rw [← hpre r] at h
      obtain ⟨r1, r2, r3, r4⟩ := ih (pre ++ [r]) [] d ldb (by rw [hl]; simp) hag h
      refine ⟨by rw [r1]; cases rest <;> simp [fillIn], by rw [r2]; cases rest <;> simp [fillIn], r3, r4⟩
    | cons a as =>
      rw [List.length_cons] at h; unfold Ldb.updateAvailable at h; rw [hget] at h
      dsimp only at h
      rw [List.map_cons, fillIn]
      split_ifs at h with hav
      · have hav2 := (available_iff _).mp hav
        rw [if_pos hav2]
        have hlt : pre.length < ldb.links.length := by rw [hl]; simp
        rcases hw : Ldb.writeLink (Device.io info aldbIO) d ldb pre.length (Ldb.notLast a) with ⟨d1, l1, (_ | e) | e | _⟩ <;>
          rw [hw] at h <;> dsimp only at h
        · obtain ⟨w1, w2⟩ := writeLink_ok info d d1 ldb l1 _ _ (by omega) hw
          have h512 := ((agrees_iff _ _).mp hag).1
          have hag1 : Agrees l1 d1.mem := by
            obtain ⟨mem, fates, inbox⟩ := d
            exact cache_coherence_partial info mem fates inbox ldb _ _ (by omega) (by omega) hag (Or.inl hlt) _ _ hw
          rw [cacheWrite_notLast] at w2
          have hl1 : l1.links = (pre ++ [Ldb.notLast a]) ++ rest := by rw [w2, hl]; simp
          rw [← hpre (Ldb.notLast a)] at h
          obtain ⟨r1, r2, r3, r4⟩ := ih _ as d1 l1 hl1 hag1 h
          exact ⟨by rw [r1]; simp, r2, r3, by rw [r4, w2]⟩
        · simp at h
        · simp at h
        · simp at h
      · have hav2 : ¬ r.flags.toNat < 128 := fun hx => hav ((available_iff _).mpr hx)
        rw [if_neg hav2]
        rw [← hpre r] at h
        obtain ⟨r1, r2, r3, r4⟩ := ih (pre ++ [r]) (a :: as) d ldb (by rw [hl]; simp) hag h
        exact ⟨by rw [r1]; simp, r2, r3, r4⟩

theorem updateAppend_range {σ : Type} (io : MsgIO σ) (i : Nat) (l : LinkRecord) (ls : List LinkRecord) (e : Option Err) (s : σ) (ldb : Ldb)
    (hi : ldb.links.length < i) :
    Ldb.updateAppend io i (l :: ls) e s ldb = (s, ldb, .ok (some .linkIndexOutOfRange)) := by
  induction ls generalizing i l e with
  | nil => rw [Ldb.updateAppend, write_link_range _ _ _ _ _ (by omega)]; rfl
  | cons x xs ih =>
    rw [Ldb.updateAppend, write_link_range _ _ _ _ _ (by omega)]
    exact ih (i + 1) x _ (by omega)

theorem updateAppend_dev (info : DeviceInfo) (adds : List LinkRecord) (d d' : AldbDev) (ldb ldb' : Ldb)
    (h : Ldb.updateAppend (Device.io info aldbIO) ldb.links.length adds none d ldb = (d', ldb', .ok none)) :
    d'.mem = storeAll d.mem ldb.links.length (adds.map Ldb.notLast) ∧ ldb'.links = ldb.links ++ adds.map Ldb.notLast ∧
      ldb'.index = ldb.index := by
  induction adds generalizing d ldb with
  | nil =>
    simp only [Ldb.updateAppend, Prod.mk.injEq, and_true] at h
    obtain ⟨rfl, rfl⟩ := h
    simp [storeAll]
  | cons a as ih =>
    rw [Ldb.updateAppend] at h
    rcases hw : Ldb.writeLink (Device.io info aldbIO) d ldb ldb.links.length (Ldb.notLast a) with ⟨d1, l1, (_ | e) | e | _⟩ <;>
      rw [hw] at h <;> dsimp only at h
    · obtain ⟨w1, w2⟩ := writeLink_ok info d d1 ldb l1 _ _ (le_refl _) hw
      rw [cacheWrite_notLast] at w2
      have hl : l1.links = ldb.links ++ [Ldb.notLast a] := by rw [w2]; simp
      have hlen : l1.links.length = ldb.links.length + 1 := by rw [hl]; simp
      rw [← hlen] at h
      obtain ⟨r1, r2, r3⟩ := ih d1 l1 h
      rw [r1, r2, w1, hl, r3, w2]
      simp [storeAll]
    · have hl1 : l1.links.length = ldb.links.length := by
        obtain ⟨mem, fates, inbox⟩ := d
        rw [writeLink_dev _ _ _ _ _ _ _ (le_refl _)] at hw
        rcases fates with _ | ⟨_ | e | e, fs⟩ <;> simp only [Prod.mk.injEq, Out.ok.injEq, reduceCtorEq, and_false] at hw
        · rw [← hw.2.1]
        · rw [← hw.2.1]
      cases as with
      | nil => simp [Ldb.updateAppend] at h
      | cons x xs =>
        rw [updateAppend_range _ _ _ _ _ _ _ (by omega)] at h
        simp at h
    · simp at h
    · simp at h

/-- C59, what is proved: if no known link's flags are to change, a successful update fills available records with
the unknown links, appends the rest and marks the end; in-use records stay as they are (`fill_in_use`), all
unknown links are stored (`fill_adds`), and cache and device agree. -/
theorem update_links_partial (info : DeviceInfo) (d d' : AldbDev) (ldb ldb' : Ldb) (now done : Int) (fuel : Nat)
    (links : List LinkRecord) (hfresh : now ≤ ldb.age + 3600) (hag : Agrees ldb d.mem) (hidx : IndexOk ldb)
    (hlen : ldb.links.length + links.length < 512)
    (hsame : ∀ l ∈ links, ∀ r ∈ ldb.links, r.id = l.id → r.flags = l.flags)
    (h : Ldb.updateLinks (Device.io info aldbIO) fuel now done d ldb links = some (d', ldb', .ok none)) :
    ldb'.links = fill ldb.links ((links.filter fun l => !ldb.links.any fun r => r.id == l.id).map Ldb.notLast) ∧
      Agrees ldb' d'.mem := by
  have ho : ldb.old now = false := by simpa [Ldb.old] using hfresh
  unfold Ldb.updateLinks at h
  simp only [Ldb.refresh, ho, Bool.not_false, if_true] at h
  rw [updateFound_same _ _ _ _ _ hidx hsame, List.nil_append] at h
  dsimp only at h
  set new := links.filter fun l => !ldb.links.any fun r => r.id == l.id with hnew
  have hnl : new.length ≤ links.length := List.length_filter_le _ _
  rcases hu : Ldb.updateAvailable (Device.io info aldbIO) ldb.links.length 0 new d ldb with ⟨d1, l1, ⟨left, _ | e⟩ | e | _⟩ <;>
    rw [hu] at h
  · obtain ⟨u1, u2, u3, u4⟩ := updateAvailable_dev info [] ldb.links new left d d1 ldb l1 (by simp) hag hu
    rw [List.nil_append] at u1
    rcases left with _ | ⟨a, as⟩ <;> dsimp only at h
    · simp only [Option.some.injEq, Prod.mk.injEq, and_true] at h
      obtain ⟨rfl, rfl⟩ := h
      refine ⟨?_, u3⟩
      rw [u1, fill, ← u2]; simp
    · rcases hp : Ldb.updateAppend (Device.io info aldbIO) l1.links.length (a :: as) none d1 l1 with ⟨d2, l2, (_ | e) | e | _⟩ <;>
        rw [hp] at h <;> dsimp only at h
      · obtain ⟨p1, p2, p3⟩ := updateAppend_dev info (a :: as) d1 d2 l1 l2 hp
        have hl2 : l2.links.length = l1.links.length + (a :: as).length := by rw [p2]; simp
        rw [← hl2] at h
        simp only [Option.some.injEq] at h
        obtain ⟨w1, w2⟩ := writeLink_ok info d2 d' l2 ldb' _ _ (le_refl _) h
        rw [cacheWrite_end, List.take_length] at w2
        have hlinks : ldb'.links = fill ldb.links (new.map Ldb.notLast) := by
          rw [w2]
          show l2.links = _
          rw [p2, u2, u1, fill]
        refine ⟨hlinks, ?_⟩
        have h1len : l1.links.length = ldb.links.length := by rw [u1, fillIn_length]
        have hbound : l2.links.length < 512 := by
          have hleft : (a :: as).length ≤ new.length := by
            have := congrArg List.length u2
            rw [List.length_map] at this
            rw [this]
            have : ∀ rs adds, (fillIn rs adds).2.length ≤ adds.length := by
              intro rs
              induction rs with
              | nil => simp [fillIn]
              | cons r rs ih =>
                intro adds
                cases adds with
                | nil => simp [fillIn]
                | cons a as =>
                  rw [fillIn]
                  split_ifs
                  · have := ih as; simp; omega
                  · have := ih (a :: as); simpa using this
            simpa using this ldb.links (new.map Ldb.notLast)
          omega
        rw [agrees_iff] at u3
        obtain ⟨a1, a2, a3⟩ := u3
        rw [agrees_iff]
        have hl' : ldb'.links = l1.links ++ (a :: as).map Ldb.notLast := by rw [w2]; exact p2
        have hlen' : ldb'.links.length = l2.links.length := by rw [hl', ← p2]
        refine ⟨by omega, ?_, ?_⟩
        · intro j hj
          have e1 : slot d'.mem j = slot d2.mem j := by
            rw [w1, slot_store_other _ _ _ _ fun he => by have := slotTop_inj _ _ (by omega) (by omega) he; omega]
          rw [e1, p1, slot_storeAll _ _ _ (by simp only [List.length_map]; omega) _ (by omega)]
          simp only [hl']
          by_cases hj1 : j < l1.links.length
          · rw [dif_neg (by omega), List.getElem_append_left hj1]
            exact a2 j hj1
          · rw [dif_pos ⟨by omega, by simp only [List.length_map]; omega⟩, List.getElem_append_right (by omega)]
            refine ⟨rfl, ?_⟩
            rw [List.getElem_map]
            exact notLast_raw _
        · intro _
          rw [hlen', w1, slot_store_same _ _ _ (raw_length _)]
          exact endRecord_isEnd
      · simp at h
      · simp at h
      · simp at h
  · simp at h
  · simp at h
  · simp at h

/-- C59, what happens when the flags of one known link are to change: slot 0 is overwritten, whichever slot the link
is in. -/
theorem update_flags_slot_zero (info : DeviceInfo) (d : AldbDev) (ldb : Ldb) (now done : Int) (fuel : Nat) (l r : LinkRecord) (j : Nat)
    (hfresh : now ≤ ldb.age + 3600) (hf : d.fates = []) (hidx : Ldb.lookup ldb.index l.id = some j) (hr : ldb.links[j]? = some r)
    (hne : r.flags ≠ l.flags) :
    ∃ d' ldb', Ldb.updateLinks (Device.io info aldbIO) fuel now done d ldb [l] = some (d', ldb', .ok none) ∧
      d'.mem = store d.mem (slotTop 0) (raw l) := by
  have ho : ldb.old now = false := by simpa [Ldb.old] using hfresh
  obtain ⟨mem, fates, inbox⟩ := d
  dsimp only at hf
  subst hf
  have hw := writeLink_dev info mem [] inbox ldb 0 l (by omega)
  dsimp only at hw
  unfold Ldb.updateLinks
  simp only [Ldb.refresh, ho, Bool.not_false, if_true, Ldb.updateFound, hidx, hr, ne_eq, hne, not_false_eq_true, List.length_nil]
  have hnone : ∀ (n i : Nat) (d : AldbDev) (ldb : Ldb), Ldb.updateAvailable (Device.io info aldbIO) n i [] d ldb = (d, ldb, .ok ([], none)) := by
    intro n
    induction n with
    | zero => intros; rfl
    | succ n ih =>
      intro i d ldb
      unfold Ldb.updateAvailable
      rcases ldb.links[i]? with _ | x
      · rfl
      · exact ih _ _ _
  rw [hw]
  dsimp only
  rw [hnone]
  exact ⟨⟨store mem (slotTop 0) (raw l), _, _⟩, _, rfl, by dsimp only⟩

theorem twoCache_index : IndexOk twoCache := by
  intro id
  have e : Ldb.lookup twoCache.index id =
      if [0x40, 2, 0, 0, 6] = id then some 1 else if [0, 1, 0, 0, 5] = id then some 0 else none := by
    unfold Ldb.lookup twoCache
    split_ifs with h1 h2
    · subst h1; decide
    · subst h2; decide
    · have n1 : ([0x40, 2, 0, 0, 6] == id) = false := by simpa using h1
      have n2 : ([0, 1, 0, 0, 5] == id) = false := by simpa using h2
      rw [List.find?_cons_of_neg (by simpa using h1), List.find?_cons_of_neg (by simpa using h2)]
      rfl
  rw [e]
  split_ifs with h1 h2
  · exact ⟨⟨0xe2, 2, 6, 0, 0, 0⟩, rfl, by rw [← h1]; decide⟩
  · exact ⟨⟨0xa2, 1, 5, 0, 0, 0⟩, rfl, by rw [← h2]; decide⟩
  · intro l hl
    simp only [twoCache, List.mem_cons, List.not_mem_nil, or_false] at hl
    rcases hl with rfl | rfl
    · exact fun he => h2 (by rw [← he]; decide)
    · exact fun he => h1 (by rw [← he]; decide)

/-- C59 in full is false of the code: changing the flags of the second record destroys the first one. -/
theorem update_links_refuted :
    ¬ ∀ (info : DeviceInfo) (d d' : AldbDev) (ldb ldb' : Ldb) (now done : Int) (fuel : Nat) (links : List LinkRecord),
      now ≤ ldb.age + 3600 → Agrees ldb d.mem → IndexOk ldb →
      Ldb.updateLinks (Device.io info aldbIO) fuel now done d ldb links = some (d', ldb', .ok none) →
      ∀ r ∈ ldb.links, 128 ≤ r.flags.toNat → (∀ l ∈ links, l.id ≠ r.id) → raw r ∈ database d'.mem := by
  intro h
  have hag : Agrees twoCache (AldbDev.mk twoRecords [] []).mem := by unfold Agrees; decide +kernel
  obtain ⟨d', ldb', e1, e2⟩ := update_flags_slot_zero dev5 ⟨twoRecords, [], []⟩ twoCache 0 0 0 ⟨0x62, 2, 6, 0, 0, 0⟩ ⟨0xe2, 2, 6, 0, 0, 0⟩ 1
    (by simp [twoCache]) rfl (by decide) rfl (by decide)
  have := h dev5 _ _ twoCache _ 0 0 0 _ (by simp [twoCache]) hag twoCache_index e1 ⟨0xa2, 1, 5, 0, 0, 0⟩ (by simp [twoCache]) (by decide) (by decide)
  rw [e2] at this
  revert this
  decide +kernel

theorem updateAvailable_none {σ : Type} (io : MsgIO σ) (n i : Nat) (links : List LinkRecord) (s : σ) (ldb : Ldb)
    (h : ∀ r ∈ ldb.links, 128 ≤ r.flags.toNat) : Ldb.updateAvailable io n i links s ldb = (s, ldb, .ok (links, none)) := by
  induction n generalizing i with
  | zero => rfl
  | succ n ih =>
    unfold Ldb.updateAvailable
    rcases hx : ldb.links[i]? with _ | x
    · rfl
    · cases links with
      | nil => exact ih _
      | cons l ls =>
        dsimp only
        rw [if_neg]
        · exact ih _
        · intro ha
          have := (available_iff _).mp ha
          have := h x (List.mem_of_getElem? hx)
          omega

/-- Updating with one link the index does not know, on a device without available records that carries out all
commands: it is appended and followed by an end record; the index is not touched. -/
theorem update_append_one (info : DeviceInfo) (mem : Nat → Byte) (inbox : List Message) (ldb : Ldb) (now done : Int) (fuel : Nat)
    (l : LinkRecord) (hfresh : now ≤ ldb.age + 3600) (hidx : Ldb.lookup ldb.index l.id = none)
    (huse : ∀ r ∈ ldb.links, 128 ≤ r.flags.toNat) :
    Ldb.updateLinks (Device.io info aldbIO) fuel now done ⟨mem, [], inbox⟩ ldb [l] =
      some (⟨store (store mem (slotTop ldb.links.length) (raw (Ldb.notLast l))) (slotTop (ldb.links.length + 1)) (raw Ldb.endRecord),
        [], inbox⟩, { ldb with links := ldb.links ++ [Ldb.notLast l] }, .ok none) := by
  have ho : ldb.old now = false := by simpa [Ldb.old] using hfresh
  have hc : cacheWrite ldb ldb.links.length (Ldb.notLast l) = { ldb with links := ldb.links ++ [Ldb.notLast l] } := by
    rw [cacheWrite_notLast]; simp
  have h1 := writeLink_dev info mem [] inbox ldb ldb.links.length (Ldb.notLast l) (le_refl _)
  have h2 := writeLink_dev info (store mem (slotTop ldb.links.length) (raw (Ldb.notLast l))) [] inbox
    { ldb with links := ldb.links ++ [Ldb.notLast l] } (ldb.links.length + 1) Ldb.endRecord (by simp)
  dsimp only at h1 h2
  rw [hc] at h1
  rw [cacheWrite_end] at h2
  unfold Ldb.updateLinks
  simp only [Ldb.refresh, ho, Bool.not_false, if_true, Ldb.updateFound, hidx, List.nil_append]
  rw [updateAvailable_none _ _ _ _ _ _ huse]
  dsimp only
  rw [Ldb.updateAppend, h1]
  dsimp only [Ldb.updateAppend, List.tail_nil]
  rw [show [l].length = 1 from rfl, h2]
  simp [List.take_of_length_le]

/-- The hypotheses of `update_links_partial` are met: adding one link to the two records of `twoRecords`. -/
example : ∃ d' ldb', Agrees twoCache (AldbDev.mk twoRecords [] []).mem ∧ IndexOk twoCache ∧
    Ldb.updateLinks (Device.io dev5 aldbIO) 0 0 0 ⟨twoRecords, [], []⟩ twoCache [⟨0xa2, 3, 7, 0, 0, 0⟩] = some (d', ldb', .ok none) :=
  ⟨_, _, by unfold Agrees; decide +kernel, twoCache_index,
    update_append_one dev5 twoRecords [] twoCache 0 0 0 _ (by simp [twoCache]) (by decide) (by decide)⟩

/-! ### C89: updating twice -/

/-- C89, what is proved: updating with links that are all there already, with the same flags, sends nothing and changes
nothing, whatever the device. -/
theorem update_links_again_partial {σ : Type} (io : MsgIO σ) (fuel : Nat) (now done : Int) (s : σ) (ldb : Ldb) (links : List LinkRecord)
    (hfresh : now ≤ ldb.age + 3600) (hidx : IndexOk ldb)
    (hall : ∀ l ∈ links, (∃ r ∈ ldb.links, r.id = l.id) ∧ ∀ r ∈ ldb.links, r.id = l.id → r.flags = l.flags) :
    Ldb.updateLinks io fuel now done s ldb links = some (s, ldb, .ok none) := by
  have ho : ldb.old now = false := by simpa [Ldb.old] using hfresh
  have hf : (links.filter fun l => !ldb.links.any fun r => r.id == l.id) = [] := by
    rw [List.filter_eq_nil_iff]
    intro l hl
    obtain ⟨r, hr, he⟩ := (hall l hl).1
    simp only [Bool.not_eq_true, Bool.not_eq_false', List.any_eq_true, beq_iff_eq]
    exact ⟨r, hr, he⟩
  have hnone : ∀ (n i : Nat), Ldb.updateAvailable io n i [] s ldb = (s, ldb, .ok ([], none)) := by
    intro n
    induction n with
    | zero => intros; rfl
    | succ n ih =>
      intro i
      unfold Ldb.updateAvailable
      rcases ldb.links[i]? with _ | x
      · rfl
      · exact ih _
  unfold Ldb.updateLinks
  simp only [Ldb.refresh, ho, Bool.not_false, if_true]
  rw [updateFound_same _ _ _ _ _ hidx fun l hl => (hall l hl).2, hf, List.append_nil]
  dsimp only
  rw [hnone]

example : ∀ l ∈ [(⟨0xe2, 2, 6, 0, 0, 0⟩ : LinkRecord)], (∃ r ∈ twoCache.links, r.id = l.id) ∧
    ∀ r ∈ twoCache.links, r.id = l.id → r.flags = l.flags := by decide

/-- C89 in full is false of the code: the index misses links that were added, so adding the same link twice stores it
twice. -/
theorem update_links_again_refuted :
    ¬ ∀ (info : DeviceInfo) (d d' d'' : AldbDev) (ldb ldb' ldb'' : Ldb) (now done : Int) (fuel : Nat) (links : List LinkRecord),
      now ≤ ldb.age + 3600 → Agrees ldb d.mem → IndexOk ldb →
      Ldb.updateLinks (Device.io info aldbIO) fuel now done d ldb links = some (d', ldb', .ok none) →
      Ldb.updateLinks (Device.io info aldbIO) fuel now done d' ldb' links = some (d'', ldb'', .ok none) →
      database d''.mem = database d'.mem := by
  intro h
  have hag : Agrees twoCache (AldbDev.mk twoRecords [] []).mem := by unfold Agrees; decide +kernel
  have e1 := update_append_one dev5 twoRecords [] twoCache 0 0 0 ⟨0xa2, 3, 7, 0, 0, 0⟩ (by simp [twoCache]) (by decide) (by decide)
  have e2 := update_append_one dev5 (store (store twoRecords (slotTop 2) (raw ⟨0xa2, 3, 7, 0, 0, 0⟩)) (slotTop 3) (raw Ldb.endRecord))
    [] { twoCache with links := twoCache.links ++ [⟨0xa2, 3, 7, 0, 0, 0⟩] } 0 0 0 ⟨0xa2, 3, 7, 0, 0, 0⟩ (by simp [twoCache])
    (by decide) (by decide)
  rw [show Ldb.notLast ⟨0xa2, 3, 7, 0, 0, 0⟩ = ⟨0xa2, 3, 7, 0, 0, 0⟩ from by decide] at e1 e2
  have := h dev5 _ _ _ twoCache _ _ 0 0 0 _ (by simp [twoCache]) hag twoCache_index e1 e2
  revert this
  decide +kernel

end Insteon
