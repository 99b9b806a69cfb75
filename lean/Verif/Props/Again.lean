import Verif.Props.DeviceWrite

/-
C170: rewriting the links of a device after rewrites that failed.
-/

namespace Insteon

open Spec

/-- Rewrites of a device's links with the given lists, one after the other, whatever they return. -/
def Spec.rewrites (io : MsgIO AldbDev) (done : Int) : List (List LinkRecord) → AldbDev × Ldb → AldbDev × Ldb
  | [], s => s
  | links :: more, s =>
    Spec.rewrites io done more ((Ldb.writeLinks io done s.1 s.2 links).1, (Ldb.writeLinks io done s.1 s.2 links).2.1)

/-- The longest of the lists, and of `n`. -/
def Spec.longest (n : Nat) (lists : List (List LinkRecord)) : Nat := lists.foldl (fun n l => max n l.length) n

theorem longest_le (lists : List (List LinkRecord)) (n b : Nat) :
    longest n lists ≤ b ↔ n ≤ b ∧ ∀ l ∈ lists, l.length ≤ b := by
  unfold longest
  induction lists generalizing n with
  | nil => simp
  | cons l ls ih => rw [List.foldl_cons, ih]; simp only [List.mem_cons, forall_eq_or_imp, max_le_iff, and_assoc]

theorem longest_base (lists : List (List LinkRecord)) (n : Nat) : n ≤ longest n lists :=
  ((longest_le lists n _).mp (le_refl _)).1

/-- One rewrite, whatever its fate: the slots behind the longer of the new and the cached list are untouched, the cache
does not grow beyond it. -/
theorem rewrite_beyond (info : DeviceInfo) (d : AldbDev) (ldb : Ldb) (done : Int) (links : List LinkRecord)
    (hmax : max links.length ldb.links.length < 512) :
    (Ldb.writeLinks (Device.io info aldbIO) done d ldb links).2.1.links.length ≤ max links.length ldb.links.length ∧
    ldb.links.length ≤ (Ldb.writeLinks (Device.io info aldbIO) done d ldb links).2.1.links.length ∧
    ∀ j, max links.length ldb.links.length < j → j < 512 →
      slot (Ldb.writeLinks (Device.io info aldbIO) done d ldb links).1.mem j = slot d.mem j := by
  obtain ⟨mem, fates, inbox⟩ := d
  have hout : ∀ (ls : List LinkRecord) j, j < 512 → ls.length ≤ links.length → links.length < j →
      slot (storeAll mem 0 ls) j = slot mem j := by
    intro ls j hj h1 h2
    rw [slot_storeAll _ _ _ (by omega) _ (by omega), dif_neg (by omega)]
  obtain ⟨k, hk, -, ⟨-, h2⟩ | ⟨hk2, e, m, h2, h3⟩⟩ := writeLinks_dev info mem fates inbox ldb done links
  · rw [h2]
    refine ⟨by simp; omega, by simp; omega, fun j hj hj2 => ?_⟩
    dsimp only
    rw [slot_store_other _ _ _ _ fun he => by have := slotTop_inj _ _ (by omega) (by omega) he; omega]
    exact hout _ j hj2 (by simp) (by omega)
  · rw [h2]
    refine ⟨by simp; omega, by simp; omega, fun j hj hj2 => ?_⟩
    dsimp only
    rcases h3 with ⟨-, h4⟩ | ⟨-, h5, h4⟩ | ⟨-, h5, h4⟩
    · rw [h4]; exact hout _ j hj2 (by simp) (by omega)
    · rw [h4]; exact hout _ j hj2 (by simp) (by omega)
    · rw [h4]
      rw [slot_store_other _ _ _ _ fun he => by have := slotTop_inj _ _ (by omega) (by omega) he; omega]
      exact hout _ j hj2 (by simp) (by omega)

/-- Any number of rewrites. -/
theorem rewrites_beyond (info : DeviceInfo) (done : Int) (lists : List (List LinkRecord)) (d : AldbDev) (ldb : Ldb)
    (hmax : longest ldb.links.length lists < 512) :
    (rewrites (Device.io info aldbIO) done lists (d, ldb)).2.links.length ≤ longest ldb.links.length lists ∧
    ldb.links.length ≤ (rewrites (Device.io info aldbIO) done lists (d, ldb)).2.links.length ∧
    ∀ j, longest ldb.links.length lists < j → j < 512 →
      slot (rewrites (Device.io info aldbIO) done lists (d, ldb)).1.mem j = slot d.mem j := by
  induction lists generalizing d ldb with
  | nil => exact ⟨le_refl _, le_refl _, fun _ _ _ => rfl⟩
  | cons l ls ih =>
    have hb : ldb.links.length ≤ longest ldb.links.length (l :: ls) ∧ ∀ x ∈ l :: ls, x.length ≤ longest ldb.links.length (l :: ls) :=
      (longest_le _ _ _).mp (le_refl _)
    have hl := hb.2 l (by simp)
    obtain ⟨h1, h2, h3⟩ := rewrite_beyond info d ldb done l (by omega)
    have hle : longest (Ldb.writeLinks (Device.io info aldbIO) done d ldb l).2.1.links.length ls ≤ longest ldb.links.length (l :: ls) :=
      (longest_le _ _ _).mpr ⟨by omega, fun x hx => hb.2 x (by simp [hx])⟩
    obtain ⟨i1, i2, i3⟩ := ih (Ldb.writeLinks (Device.io info aldbIO) done d ldb l).1
      (Ldb.writeLinks (Device.io info aldbIO) done d ldb l).2.1 (by omega)
    rw [rewrites]
    dsimp only
    refine ⟨by omega, by omega, fun j hj hj2 => ?_⟩
    rw [i3 j (by omega) hj2, h3 j (by omega) hj2]

/-- C170: after any rewrites, with commands lost or unconfirmed anywhere, a rewrite that succeeds leaves the device with
the given links, followed by an end record where no earlier list was longer; slots behind all lists were never touched. -/
theorem rewrite_after_failures (info : DeviceInfo) (done : Int) (earlier : List (List LinkRecord)) (links : List LinkRecord)
    (d d' : AldbDev) (ldb ldb' : Ldb) (hmax : longest ldb.links.length (links :: earlier) < 512)
    (hend : ∀ l ∈ links, ¬ isEnd (raw l))
    (h : Ldb.writeLinks (Device.io info aldbIO) done (rewrites (Device.io info aldbIO) done earlier (d, ldb)).1
      (rewrites (Device.io info aldbIO) done earlier (d, ldb)).2 links = (d', ldb', .ok none)) :
    (∀ j, (h : j < links.length) → slot d'.mem j = raw links[j]) ∧
    (∀ j, longest ldb.links.length (links :: earlier) < j → j < 512 → slot d'.mem j = slot d.mem j) ∧
    (ldb.links.length ≤ links.length → (∀ l ∈ earlier, l.length ≤ links.length) → database d'.mem = links.map raw) := by
  have hb : ldb.links.length ≤ longest ldb.links.length (links :: earlier) ∧
      ∀ x ∈ links :: earlier, x.length ≤ longest ldb.links.length (links :: earlier) := (longest_le _ _ _).mp (le_refl _)
  have hlinks := hb.2 links (by simp)
  have hle : longest ldb.links.length earlier ≤ longest ldb.links.length (links :: earlier) :=
    (longest_le _ _ _).mpr ⟨hb.1, fun x hx => hb.2 x (by simp [hx])⟩
  obtain ⟨h1, h2, h3⟩ := rewrites_beyond info done earlier d ldb (by omega)
  rcases hs : rewrites (Device.io info aldbIO) done earlier (d, ldb) with ⟨⟨mem, fates, inbox⟩, c⟩
  rw [hs] at h h1 h2 h3
  dsimp only at h h1 h2 h3
  obtain ⟨w1, w2, -, -, w5⟩ := write_links_partial info mem fates inbox c ldb' done links d' (by omega) hend h
  refine ⟨w1, fun j hj hj2 => ?_, fun hc he => ?_⟩
  · rw [w2 j (by omega) hj2 (by omega), h3 j (by omega) hj2]
  · refine w5 ?_
    have : longest ldb.links.length earlier ≤ links.length := (longest_le _ _ _).mpr ⟨hc, he⟩
    omega

/-- C170, the same list again and again: if the cached list is not longer, the first success leaves the device with
exactly this list, however many attempts failed before, and at whichever commands. -/
theorem rewrite_again (info : DeviceInfo) (done : Int) (links : List LinkRecord) (n : Nat) (d d' : AldbDev) (ldb ldb' : Ldb)
    (hmax : links.length < 512) (hc : ldb.links.length ≤ links.length) (hend : ∀ l ∈ links, ¬ isEnd (raw l))
    (h : Ldb.writeLinks (Device.io info aldbIO) done (rewrites (Device.io info aldbIO) done (List.replicate n links) (d, ldb)).1
      (rewrites (Device.io info aldbIO) done (List.replicate n links) (d, ldb)).2 links = (d', ldb', .ok none)) :
    database d'.mem = links.map raw := by
  refine (rewrite_after_failures info done _ links d d' ldb ldb' ?_ hend h).2.2 hc ?_
  · refine Nat.lt_of_le_of_lt ((longest_le _ _ links.length).mpr ⟨hc, fun x hx => ?_⟩) hmax
    rcases List.mem_cons.mp hx with rfl | hx
    · exact le_refl _
    · rw [(List.mem_replicate.mp hx).2]
  · intro l hl
    rw [(List.mem_replicate.mp hl).2]

/-- The number of commands that go wrong. -/
def Spec.mishaps (fates : List Fate) : Nat := (fates.filter fun | .done => false | _ => true).length

/-- C170: each failed attempt used up a mishap, so with `n` of them still to come one of the next `n + 1` attempts
succeeds, and leaves the device with the list. -/
theorem rewrite_in_the_end (info : DeviceInfo) (done : Int) (links : List LinkRecord) (d : AldbDev) (ldb : Ldb)
    (hmax : links.length < 512) (hc : ldb.links.length ≤ links.length) (hend : ∀ l ∈ links, ¬ isEnd (raw l)) :
    ∃ n ≤ mishaps d.fates, ∃ d' ldb',
      Ldb.writeLinks (Device.io info aldbIO) done (rewrites (Device.io info aldbIO) done (List.replicate n links) (d, ldb)).1
        (rewrites (Device.io info aldbIO) done (List.replicate n links) (d, ldb)).2 links = (d', ldb', .ok none) ∧
      database d'.mem = links.map raw := by
  suffices hs : ∀ b (d : AldbDev) (ldb : Ldb), mishaps d.fates ≤ b → ∃ n ≤ mishaps d.fates, ∃ d' ldb',
      Ldb.writeLinks (Device.io info aldbIO) done (rewrites (Device.io info aldbIO) done (List.replicate n links) (d, ldb)).1
        (rewrites (Device.io info aldbIO) done (List.replicate n links) (d, ldb)).2 links = (d', ldb', .ok none) by
    obtain ⟨n, hn, d', ldb', h⟩ := hs _ d ldb (le_refl _)
    exact ⟨n, hn, d', ldb', h, rewrite_again info done links n d d' ldb ldb' hmax hc hend h⟩
  intro b
  induction b with
  | zero =>
    intro d ldb hb
    obtain ⟨mem, fates, inbox⟩ := d
    obtain ⟨k, hk, -, ⟨-, h2⟩ | ⟨hk2, e, m, h2, h3⟩⟩ := writeLinks_dev info mem fates inbox ldb done links
    · exact ⟨0, Nat.zero_le _, _, _, h2⟩
    · exfalso
      have hf : ∃ f, fates[k]? = some f ∧ f ≠ .done := by
        rcases h3 with ⟨h3, -⟩ | ⟨h3, -⟩ | ⟨h3, -⟩ <;> exact ⟨_, h3, by simp⟩
      obtain ⟨f, hf, hd⟩ := hf
      have hm : f ∈ fates.filter fun | .done => false | _ => true := by
        rw [List.mem_filter]
        exact ⟨List.mem_of_getElem? hf, by cases f <;> simp_all⟩
      have : 0 < mishaps fates := List.length_pos_of_mem hm
      dsimp only at hb
      omega
  | succ b ih =>
    intro d ldb hb
    obtain ⟨mem, fates, inbox⟩ := d
    obtain ⟨k, hk, -, ⟨-, h2⟩ | ⟨hk2, e, m, h2, h3⟩⟩ := writeLinks_dev info mem fates inbox ldb done links
    · exact ⟨0, Nat.zero_le _, _, _, h2⟩
    · have hf : ∃ f, fates[k]? = some f ∧ f ≠ .done := by
        rcases h3 with ⟨h3, -⟩ | ⟨h3, -⟩ | ⟨h3, -⟩ <;> exact ⟨_, h3, by simp⟩
      obtain ⟨f, hf, hd⟩ := hf
      have hdrop : fates = fates.take k ++ f :: fates.drop (k + 1) := by
        obtain ⟨hlt, he⟩ := List.getElem?_eq_some_iff.mp hf
        rw [← he, List.getElem_cons_drop, List.take_append_drop]
      have hcount : mishaps (fates.drop (k + 1)) + 1 ≤ mishaps fates := by
        conv_rhs => rw [hdrop]
        unfold mishaps
        rw [List.filter_append, List.length_append, List.filter_cons]
        clear hdrop h2 h3 hf hb ih
        cases f with
        | done => exact absurd rfl hd
        | lost x => simp only [List.length_cons, if_true]; omega
        | unconfirmed x => simp only [List.length_cons, if_true]; omega
      dsimp only at hb ⊢
      obtain ⟨n, hn, d', ldb', hr⟩ := ih ⟨m, fates.drop (k + 1), inbox⟩
        { ldb with links := (links.take k).map Ldb.notLast ++ ldb.links.drop k } (by dsimp only; omega)
      dsimp only at hn
      refine ⟨n + 1, by omega, d', ldb', ?_⟩
      rw [List.replicate_succ, rewrites]
      dsimp only
      rw [h2]
      exact hr

/-- The hypotheses are met: two failures at different commands, then a success. -/
example :
    let d : AldbDev := ⟨twoRecords, [.done, .lost .insReadTimeout, .unconfirmed .insReadTimeout], []⟩
    let links : List LinkRecord := [⟨0xa2, 3, 7, 0, 0, 0⟩, ⟨0xe2, 4, 8, 0, 0, 0⟩, ⟨0xe2, 5, 9, 0, 0, 0⟩]
    mishaps d.fates = 2 ∧
    database (Ldb.writeLinks (Device.io dev5 aldbIO) 0 (rewrites (Device.io dev5 aldbIO) 0 (List.replicate 2 links) (d, ⟨0, [], []⟩)).1
      (rewrites (Device.io dev5 aldbIO) 0 (List.replicate 2 links) (d, ⟨0, [], []⟩)).2 links).1.mem = links.map raw := by
  decide +kernel

end Insteon
