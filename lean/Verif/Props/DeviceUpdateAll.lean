import Verif.Props.DeviceUpdate

/-
Property C59 for all lists of links: which records an update leaves alone when flags of known links are to change.
-/

namespace Insteon
open Spec

theorem cacheWrite_get (ldb : Ldb) (k j : Nat) (l r : LinkRecord) (hl : ¬ isEnd (raw l)) (hk : k ≤ ldb.links.length) (hkj : k ≠ j)
    (h : ldb.links[j]? = some r) : (cacheWrite ldb k l).links[j]? = some r := by
  unfold cacheWrite
  rw [if_neg hl]
  have hj : j < ldb.links.length := (List.getElem?_eq_some_iff.mp h).1
  dsimp only
  rcases Nat.lt_or_gt_of_ne hkj with h1 | h1
  · rw [List.getElem?_append_right (by simp; omega), List.length_take, Nat.min_eq_left hk]
    rw [show j - k = (j - k - 1) + 1 by omega, List.getElem?_cons_succ, List.getElem?_drop, show k + 1 + (j - k - 1) = j by omega, h]
  · rw [List.getElem?_append_left (by simp; omega), List.getElem?_take_of_lt h1, h]

theorem cacheWrite_length (ldb : Ldb) (k : Nat) (l : LinkRecord) (hl : ¬ isEnd (raw l)) (hk : k ≤ ldb.links.length) :
    (cacheWrite ldb k l).links.length = max ldb.links.length (k + 1) := by
  unfold cacheWrite
  rw [if_neg hl]
  simp only [List.length_append, List.length_take, List.length_cons, List.length_drop]
  omega

theorem cacheWrite_index (ldb : Ldb) (k : Nat) (l : LinkRecord) : (cacheWrite ldb k l).index = ldb.index := by
  unfold cacheWrite
  split_ifs <;> rfl

/-- Links that the database does not know, by its index. -/
def unknownTo (index : List (Bytes × Nat)) (l : LinkRecord) : Bool := (Ldb.lookup index l.id).isNone

theorem updateFound_keeps (info : DeviceInfo) (j : Nat) (r : LinkRecord) (links kept left : List LinkRecord) (d d' : AldbDev) (ldb ldb' : Ldb)
    (hend : ∀ l ∈ links, ¬ isEnd (raw l)) (hlen : ldb.links.length + kept.length + links.length < 512)
    (hr : ldb.links[j]? = some r) (hs : slot d.mem j = raw r)
    (hfree : ∀ pre l post, links = pre ++ l :: post → unknownTo ldb.index l = false →
      kept.length + (pre.filter (unknownTo ldb.index)).length ≠ j)
    (h : Ldb.updateFound (Device.io info aldbIO) kept links d ldb = (d', ldb', .ok (left, none))) :
    ldb'.links[j]? = some r ∧ slot d'.mem j = raw r ∧ ldb'.links.length + left.length ≤ ldb.links.length + kept.length + links.length := by
  induction links generalizing kept d ldb with
  | nil =>
    simp only [Ldb.updateFound, Prod.mk.injEq, Out.ok.injEq, and_true] at h
    obtain ⟨rfl, rfl, rfl⟩ := h
    exact ⟨hr, hs, by simp⟩
  | cons l ls ih =>
    rw [Ldb.updateFound] at h
    have hend' : ∀ l ∈ ls, ¬ isEnd (raw l) := fun x hx => hend x (List.mem_cons_of_mem _ hx)
    rw [List.length_cons] at hlen
    rcases hl : Ldb.lookup ldb.index l.id with _ | i <;> rw [hl] at h <;> dsimp only at h
    · have hu : unknownTo ldb.index l = true := by unfold unknownTo; rw [hl]; rfl
      obtain ⟨h1, h2, h3⟩ := ih (kept ++ [l]) d ldb hend' (by simp; omega) hr hs (by
        intro pre x post he hx
        have := hfree (l :: pre) x post (by rw [he]; rfl) hx
        rw [List.filter_cons, if_pos hu] at this
        simp only [List.length_append, List.length_cons, List.length_nil] at this ⊢
        omega) h
      refine ⟨h1, h2, ?_⟩
      simp only [List.length_append, List.length_cons, List.length_nil] at h3 ⊢
      omega
    · have hu : unknownTo ldb.index l = false := by unfold unknownTo; rw [hl]; rfl
      have hk : kept.length ≠ j := by
        have := hfree [] l ls rfl hu
        simpa using this
      have hrest : ∀ idx, idx = ldb.index → ∀ pre x post, ls = pre ++ x :: post → unknownTo idx x = false →
          kept.length + (pre.filter (unknownTo idx)).length ≠ j := by
        rintro idx rfl pre x post he hx
        have := hfree (l :: pre) x post (by rw [he]; rfl) hx
        rw [List.filter_cons, if_neg (by rw [hu]; simp)] at this
        exact this
      rcases ho : ldb.links[i]? with _ | old <;> rw [ho] at h <;> dsimp only at h
      · simp at h
      · split_ifs at h with hne
        · by_cases hkl : kept.length ≤ ldb.links.length
          · rcases hw : Ldb.writeLink (Device.io info aldbIO) d ldb kept.length l with ⟨d1, l1, (_ | e) | e | _⟩ <;> rw [hw] at h <;> dsimp only at h
            · obtain ⟨w1, w2⟩ := writeLink_ok info d d1 ldb l1 _ _ hkl hw
              have hl0 := hend l List.mem_cons_self
              have hj : j < ldb.links.length := (List.getElem?_eq_some_iff.mp hr).1
              obtain ⟨h1, h2, h3⟩ := ih kept d1 l1 hend' (by rw [w2, cacheWrite_length _ _ _ hl0 hkl]; omega)
                (by rw [w2]; exact cacheWrite_get _ _ _ _ _ hl0 hkl hk hr)
                (by rw [w1, slot_store_other _ _ _ _ fun he => hk (slotTop_inj _ _ (by omega) (by omega) he)]; exact hs)
                (hrest _ (by rw [w2, cacheWrite_index])) h
              refine ⟨h1, h2, ?_⟩
              rw [w2, cacheWrite_length _ _ _ hl0 hkl] at h3
              rw [List.length_cons]
              omega
            · simp at h
            · simp at h
            · simp at h
          · rw [write_link_range _ _ _ _ _ (by omega)] at h
            simp at h
        · obtain ⟨h1, h2, h3⟩ := ih kept d ldb hend' (by omega) hr hs (hrest _ rfl) h
          exact ⟨h1, h2, by rw [List.length_cons]; omega⟩

theorem updateAvailable_keeps (info : DeviceInfo) (j : Nat) (r : LinkRecord) (hu : 128 ≤ r.flags.toNat) (n i : Nat)
    (adds left : List LinkRecord) (d d' : AldbDev) (ldb ldb' : Ldb) (hlen : ldb.links.length < 512) (hr : ldb.links[j]? = some r)
    (hs : slot d.mem j = raw r) (h : Ldb.updateAvailable (Device.io info aldbIO) n i adds d ldb = (d', ldb', .ok (left, none))) :
    ldb'.links[j]? = some r ∧ slot d'.mem j = raw r ∧ ldb'.links.length = ldb.links.length ∧ left.length ≤ adds.length := by
  induction n generalizing i adds d ldb with
  | zero =>
    simp only [Ldb.updateAvailable, Prod.mk.injEq, Out.ok.injEq, and_true] at h
    obtain ⟨rfl, rfl, rfl⟩ := h
    exact ⟨hr, hs, rfl, le_refl _⟩
  | succ n ih =>
    unfold Ldb.updateAvailable at h
    rcases hi : ldb.links[i]? with _ | x <;> rw [hi] at h
    · simp only [Prod.mk.injEq, Out.ok.injEq, and_true] at h
      obtain ⟨rfl, rfl, rfl⟩ := h
      exact ⟨hr, hs, rfl, le_refl _⟩
    · cases adds with
      | nil => exact ih _ _ _ _ hlen hr hs h
      | cons a as =>
        dsimp only at h
        have hil : i < ldb.links.length := (List.getElem?_eq_some_iff.mp hi).1
        have hj : j < ldb.links.length := (List.getElem?_eq_some_iff.mp hr).1
        split_ifs at h with hav
        · have hij : i ≠ j := by
            rintro rfl
            rw [hi, Option.some.injEq] at hr
            rw [hr, available_iff] at hav
            omega
          rcases hw : Ldb.writeLink (Device.io info aldbIO) d ldb i (Ldb.notLast a) with ⟨d1, l1, (_ | e) | e | _⟩ <;> rw [hw] at h <;> dsimp only at h
          · obtain ⟨w1, w2⟩ := writeLink_ok info d d1 ldb l1 _ _ (by omega) hw
            have hlen1 : l1.links.length = ldb.links.length := by
              rw [w2, cacheWrite_length _ _ _ (notLast_raw a) (by omega)]
              omega
            obtain ⟨h1, h2, h3, h4⟩ := ih (i + 1) as d1 l1 (by omega)
              (by rw [w2]; exact cacheWrite_get _ _ _ _ _ (notLast_raw a) (by omega) hij hr)
              (by rw [w1, slot_store_other _ _ _ _ fun he => hij (slotTop_inj _ _ (by omega) (by omega) he)]; exact hs) h
            exact ⟨h1, h2, by omega, by rw [List.length_cons]; omega⟩
          · simp at h
          · simp at h
          · simp at h
        · exact ih _ _ _ _ hlen hr hs h

/-- C59 for all lists of links, also with changed flags: a successful update leaves an in-use record in slot `j` where it is, unless some known link
of the list has exactly `j` unknown ones before it. In particular every in-use record behind the slot whose number is the number of unknown links
is safe. -/
theorem update_links_all_partial (info : DeviceInfo) (d d' : AldbDev) (ldb ldb' : Ldb) (now done : Int) (fuel : Nat)
    (links : List LinkRecord) (hfresh : now ≤ ldb.age + 3600) (hag : Agrees ldb d.mem) (hidx : IndexOk ldb)
    (hlen : ldb.links.length + links.length < 512) (hend : ∀ l ∈ links, ¬ isEnd (raw l))
    (h : Ldb.updateLinks (Device.io info aldbIO) fuel now done d ldb links = some (d', ldb', .ok none))
    (j : Nat) (r : LinkRecord) (hr : ldb.links[j]? = some r) (hu : 128 ≤ r.flags.toNat)
    (hfree : ∀ pre l post, links = pre ++ l :: post → (∃ r' ∈ ldb.links, r'.id = l.id) →
      (pre.filter fun p => !ldb.links.any fun r' => r'.id == p.id).length ≠ j) :
    slot d'.mem j = raw r := by
  have hun : ∀ l : LinkRecord, unknownTo ldb.index l = !ldb.links.any fun r' => r'.id == l.id := by
    intro l
    have hi := hidx l.id
    unfold unknownTo
    rcases hl : Ldb.lookup ldb.index l.id with _ | i <;> rw [hl] at hi <;> dsimp only at hi
    · have : (ldb.links.any fun r => r.id == l.id) = false := by
        rw [List.any_eq_false]
        intro r hr
        simpa using hi r hr
      rw [this]; rfl
    · obtain ⟨r, hr, hid⟩ := hi
      have : (ldb.links.any fun r => r.id == l.id) = true := by
        rw [List.any_eq_true]; exact ⟨r, List.mem_of_getElem? hr, by simpa using hid⟩
      rw [this]; rfl
  have ho : ldb.old now = false := by simpa [Ldb.old] using hfresh
  have hs : slot d.mem j = raw r := by
    obtain ⟨hj, he⟩ := List.getElem?_eq_some_iff.mp hr
    rw [← he]
    exact (((agrees_iff _ _).mp hag).2.1 j hj).1
  unfold Ldb.updateLinks at h
  simp only [Ldb.refresh, ho, Bool.not_false, if_true] at h
  rcases hf : Ldb.updateFound (Device.io info aldbIO) [] links d ldb with ⟨d0, l0, ⟨new, _ | e⟩ | e | _⟩ <;> rw [hf] at h <;> dsimp only at h
  · obtain ⟨f1, f2, f3⟩ := updateFound_keeps info j r links [] new d d0 ldb l0 hend (by simpa using hlen) hr hs (by
      intro pre l post he hl
      rw [hun, Bool.not_eq_false', List.any_eq_true] at hl
      obtain ⟨r', h1, h2⟩ := hl
      have := hfree pre l post he ⟨r', h1, by simpa using h2⟩
      rw [show unknownTo ldb.index = fun p => !ldb.links.any fun r' => r'.id == p.id from funext hun]
      simpa using this) hf
    simp only [List.length_nil, Nat.add_zero] at f3
    rcases hu' : Ldb.updateAvailable (Device.io info aldbIO) l0.links.length 0 new d0 l0 with ⟨d1, l1, ⟨left, _ | e⟩ | e | _⟩ <;>
      rw [hu'] at h
    · obtain ⟨u1, u2, u3, u4⟩ := updateAvailable_keeps info j r hu _ 0 new left d0 d1 l0 l1 (by omega) f1 f2 hu'
      have hj : j < l1.links.length := (List.getElem?_eq_some_iff.mp u1).1
      rcases left with _ | ⟨a, as⟩ <;> dsimp only at h
      · simp only [Option.some.injEq, Prod.mk.injEq, and_true] at h
        rw [← h.1]
        exact u2
      · rcases hp : Ldb.updateAppend (Device.io info aldbIO) l1.links.length (a :: as) none d1 l1 with ⟨d2, l2, (_ | e) | e | _⟩ <;>
          rw [hp] at h <;> dsimp only at h
        · obtain ⟨p1, p2, p3⟩ := updateAppend_dev info (a :: as) d1 d2 l1 l2 hp
          have hl2 : l2.links.length = l1.links.length + (a :: as).length := by rw [p2]; simp
          rw [← hl2] at h
          simp only [Option.some.injEq] at h
          obtain ⟨w1, w2⟩ := writeLink_ok info d2 d' l2 ldb' _ _ (le_refl _) h
          rw [w1, slot_store_other _ _ _ _ fun he => by have := slotTop_inj _ _ (by omega) (by omega) he; omega,
            p1, slot_storeAll _ _ _ (by simp only [List.length_map]; omega) _ (by omega), dif_neg (by omega)]
          exact u2
        · simp at h
        · simp at h
        · simp at h
    · simp at h
    · simp at h
    · simp at h
  · simp at h
  · simp at h
  · simp at h

/-- The hypotheses are met where flags change: the second record of `twoRecords` is left as it is by the update that was to change it, while the
first is overwritten. -/
example : ∃ d' ldb', Agrees twoCache (AldbDev.mk twoRecords [] []).mem ∧ IndexOk twoCache ∧
    Ldb.updateLinks (Device.io dev5 aldbIO) 0 0 0 ⟨twoRecords, [], []⟩ twoCache [⟨0xc2, 2, 6, 0, 0, 0⟩] = some (d', ldb', .ok none) ∧
    slot d'.mem 1 = raw ⟨0xe2, 2, 6, 0, 0, 0⟩ ∧ slot d'.mem 0 = raw ⟨0xc2, 2, 6, 0, 0, 0⟩ := by
  have hag : Agrees twoCache (AldbDev.mk twoRecords [] []).mem := by unfold Agrees; decide +kernel
  obtain ⟨d', ldb', e1, e2⟩ := update_flags_slot_zero dev5 ⟨twoRecords, [], []⟩ twoCache 0 0 0 ⟨0xc2, 2, 6, 0, 0, 0⟩ ⟨0xe2, 2, 6, 0, 0, 0⟩ 1
    (by simp [twoCache]) rfl (by decide) rfl (by decide)
  refine ⟨d', ldb', hag, twoCache_index, e1, ?_, ?_⟩
  · refine update_links_all_partial dev5 _ d' twoCache ldb' 0 0 0 _ (by simp [twoCache]) hag twoCache_index (by simp [twoCache])
      (by simp; decide) e1 1 _ rfl (by decide) ?_
    intro pre l post he _
    cases pre with
    | nil => simp
    | cons p ps => simp at he
  · rw [e2]
    decide +kernel

end Insteon
