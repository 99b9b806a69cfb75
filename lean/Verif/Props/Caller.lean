import Mathlib.Tactic.SplitIfs
import Verif.Model.Caller
import Verif.Spec.Caller
import Verif.Props.DeviceUpdate

/-
C165: lists and buffers handed to a device can be used again.
-/

namespace Insteon

open Spec

/-! ### The functions with the caller's array do what the functions without it do -/

theorem modify_append_cons {α : Type} (f : α → α) (pre : List α) (x : α) (xs : List α) :
    (pre ++ x :: xs).modify pre.length f = pre ++ f x :: xs := by
  induction pre with
  | nil => rfl
  | cons p ps ih => simp [List.modify_succ_cons, ih]

theorem getElem?_append_cons {α : Type} (pre : List α) (x : α) (xs : List α) : (pre ++ x :: xs)[pre.length]? = some x := by
  simp

theorem writeLinksLoopIn_spec {σ : Type} (io : MsgIO σ) (pre ls : List LinkRecord) (s : σ) (ldb : Ldb) :
    ∃ k, k ≤ ls.length ∧ ((Ldb.writeLinksLoop io pre.length ls s ldb).2.2 = .ok none → k = ls.length) ∧
      Ldb.writeLinksLoopIn io ls.length pre.length (pre ++ ls) s ldb =
        ((Ldb.writeLinksLoop io pre.length ls s ldb).1, (Ldb.writeLinksLoop io pre.length ls s ldb).2.1,
          (Ldb.writeLinksLoop io pre.length ls s ldb).2.2, pre ++ (ls.take k).map Ldb.notLast ++ ls.drop k) := by
  induction ls generalizing pre s ldb with
  | nil => exact ⟨0, Nat.le_refl _, fun _ => rfl, by simp [Ldb.writeLinksLoopIn, Ldb.writeLinksLoop]⟩
  | cons l ls ih =>
    rw [List.length_cons, Ldb.writeLinksLoopIn, Ldb.writeLinksLoop, modify_append_cons, getElem?_append_cons]
    dsimp only
    rcases hw : Ldb.writeLink io s ldb pre.length (Ldb.notLast l) with ⟨s1, l1, (_ | e) | e | _⟩
    · obtain ⟨k, hk, hok, he⟩ := ih (pre ++ [Ldb.notLast l]) s1 l1
      have hlen : (pre ++ [Ldb.notLast l]).length = pre.length + 1 := by simp
      rw [hlen] at hok he
      refine ⟨k + 1, by simpa using hk, ?_, ?_⟩
      · intro h; simpa using hok h
      · have : pre ++ Ldb.notLast l :: ls = pre ++ [Ldb.notLast l] ++ ls := by simp
        rw [this]
        dsimp only
        rw [he]
        simp
    all_goals exact ⟨1, by simp, by simp, by simp⟩

/-- With the caller's array, `WriteLinks` does what it does without. -/
theorem writeLinksIn_same {σ : Type} (io : MsgIO σ) (done : Int) (s : σ) (ldb : Ldb) (links : List LinkRecord) :
    ((Ldb.writeLinksIn io done s ldb links).1, (Ldb.writeLinksIn io done s ldb links).2.1,
      (Ldb.writeLinksIn io done s ldb links).2.2.1) = Ldb.writeLinks io done s ldb links := by
  obtain ⟨k, _, _, he⟩ := writeLinksLoopIn_spec io [] links s ldb
  simp only [List.nil_append, List.length_nil] at he
  unfold Ldb.writeLinksIn Ldb.writeLinks
  rw [he]
  rcases Ldb.writeLinksLoop io 0 links s ldb with ⟨s1, l1, (_ | e) | e | _⟩ <;> dsimp only
  rcases Ldb.writeLink io s1 l1 l1.links.length Ldb.endRecord with ⟨s2, l2, (_ | e) | e | _⟩ <;> rfl

theorem writeLinksIn_array {σ : Type} (io : MsgIO σ) (done : Int) (s : σ) (ldb : Ldb) (links : List LinkRecord) :
    ∃ k, k ≤ links.length ∧ (Ldb.writeLinksIn io done s ldb links).2.2.2 = (links.take k).map Ldb.notLast ++ links.drop k ∧
      ((Ldb.writeLinksIn io done s ldb links).2.2.1 = .ok none → k = links.length) := by
  obtain ⟨k, hk, hok, he⟩ := writeLinksLoopIn_spec io [] links s ldb
  simp only [List.nil_append, List.length_nil] at he hok
  refine ⟨k, hk, ?_⟩
  unfold Ldb.writeLinksIn
  rw [he]
  rcases hl : Ldb.writeLinksLoop io 0 links s ldb with ⟨s1, l1, (_ | e) | e | _⟩ <;> dsimp only
  · rcases Ldb.writeLink io s1 l1 l1.links.length Ldb.endRecord with ⟨s2, l2, (_ | e) | e | _⟩ <;> dsimp only <;>
      exact ⟨rfl, fun _ => hok (by rw [hl])⟩
  all_goals exact ⟨rfl, by simp⟩

theorem shiftOut_cons {α : Type} (kept : List α) (l : α) (ls tail : List α) (L : α) (hL : (l :: ls).getLast? = some L) :
    Ldb.shiftOut (kept ++ (l :: ls) ++ tail) kept.length (kept.length + (l :: ls).length) = kept ++ ls ++ L :: tail := by
  have hcat : ∃ xs, l :: ls = xs ++ [L] := by
    obtain ⟨h, e⟩ := List.getLast?_eq_some_iff.mp hL
    exact ⟨h, e⟩
  obtain ⟨xs, hxs⟩ := hcat
  have hlen : (l :: ls).length = xs.length + 1 := by rw [hxs]; simp
  unfold Ldb.shiftOut
  have h1 : (kept ++ (l :: ls) ++ tail).take kept.length = kept := by simp
  have h2 : ((kept ++ (l :: ls) ++ tail).take (kept.length + (l :: ls).length)).drop (kept.length + 1) = ls := by
    rw [← List.length_append, List.take_left, ← List.drop_drop, List.drop_left, List.drop_one, List.tail_cons]
  have h3 : (kept ++ (l :: ls) ++ tail).drop (kept.length + (l :: ls).length - 1) = L :: tail := by
    have : kept.length + (l :: ls).length - 1 = (kept ++ xs).length := by rw [hlen, List.length_append]; omega
    rw [this, hxs, ← List.append_assoc, List.append_assoc (kept ++ xs), List.drop_left]
    rfl
  rw [h1, h2, h3]

theorem getLast?_of_cons {α : Type} (l : α) (ls : List α) (L : α) (hL : (l :: ls).getLast? = some L) (hne : ls ≠ []) :
    ls.getLast? = some L := by
  obtain ⟨x, xs, rfl⟩ := List.exists_cons_of_ne_nil hne
  rwa [List.getLast?_cons_cons] at hL

/-- The first loop of `UpdateLinks` on the array: what is left of the list, then copies of its last link. -/
theorem updateFoundIn_spec {σ : Type} (io : MsgIO σ) (L : LinkRecord) (ls kept : List LinkRecord) (c : Nat) (s : σ) (ldb : Ldb)
    (hL : ls ≠ [] → ls.getLast? = some L) :
    (∀ s' ldb' left e, Ldb.updateFound io kept ls s ldb = (s', ldb', .ok (left, e)) →
      left.length ≤ kept.length + ls.length ∧
      Ldb.updateFoundIn io ls.length kept.length (kept.length + ls.length) (kept ++ ls ++ List.replicate c L) s ldb =
        (s', ldb', .ok (left.length, e), left ++ List.replicate (kept.length + ls.length + c - left.length) L)) ∧
    (∀ s' ldb' x, Ldb.updateFound io kept ls s ldb ≠ (s', ldb', .err x)) ∧
    (∀ s' ldb', Ldb.updateFound io kept ls s ldb = (s', ldb', .panic) →
      ∃ arr', Ldb.updateFoundIn io ls.length kept.length (kept.length + ls.length) (kept ++ ls ++ List.replicate c L) s ldb =
        (s', ldb', .panic, arr')) := by
  induction ls generalizing kept c s ldb with
  | nil =>
    refine ⟨?_, ?_, ?_⟩
    · intro s' ldb' left e h
      simp only [Ldb.updateFound, Prod.mk.injEq, Out.ok.injEq] at h
      obtain ⟨rfl, rfl, rfl, rfl⟩ := h
      exact ⟨by simp, by simp [Ldb.updateFoundIn]⟩
    · intro s' ldb' x h; simp [Ldb.updateFound] at h
    · intro s' ldb' h; simp [Ldb.updateFound] at h
  | cons l ls ih =>
    have hL1 := hL (by simp)
    have hL' : ls ≠ [] → ls.getLast? = some L := getLast?_of_cons l ls L hL1
    have hget : (kept ++ l :: ls ++ List.replicate c L)[kept.length]? = some l := by
      rw [List.append_assoc, List.cons_append]; exact getElem?_append_cons _ _ _
    have hshift := shiftOut_cons kept l ls (List.replicate c L) L hL1
    rw [← List.replicate_succ] at hshift
    have hlen : kept.length + (l :: ls).length - 1 = kept.length + ls.length := by simp
    have hcnt : kept.length + (l :: ls).length + c = kept.length + ls.length + (c + 1) := by simp; omega
    rw [Ldb.updateFound]
    rw [show (l :: ls).length = ls.length + 1 from rfl, Ldb.updateFoundIn, hget]
    dsimp only
    rw [show ls.length + 1 = (l :: ls).length from rfl]
    rcases hk : Ldb.lookup ldb.index l.id with _ | j <;> dsimp only
    · obtain ⟨i1, i2, i3⟩ := ih (kept ++ [l]) c s ldb hL'
      have e1 : (kept ++ [l]).length = kept.length + 1 := by simp
      have e2 : (kept ++ [l]).length + ls.length = kept.length + (l :: ls).length := by simp; omega
      have e3 : kept ++ [l] ++ ls ++ List.replicate c L = kept ++ l :: ls ++ List.replicate c L := by simp
      rw [e1, ← e1, e2, e3, e1] at i1 i3
      exact ⟨i1, i2, i3⟩
    · rcases ldb.links[j]? with _ | old <;> dsimp only
      · exact ⟨by simp, by simp, fun s' ldb' h => ⟨kept ++ l :: ls ++ List.replicate c L, by
          simp only [Prod.mk.injEq, and_true] at h; obtain ⟨rfl, rfl⟩ := h; rfl⟩⟩
      · have hrec : ∀ s1 l1,
            (∀ s' ldb' left e, Ldb.updateFound io kept ls s1 l1 = (s', ldb', .ok (left, e)) →
              left.length ≤ kept.length + (l :: ls).length ∧
              Ldb.updateFoundIn io ls.length kept.length (kept.length + (l :: ls).length - 1)
                (Ldb.shiftOut (kept ++ l :: ls ++ List.replicate c L) kept.length (kept.length + (l :: ls).length)) s1 l1 =
                (s', ldb', .ok (left.length, e), left ++ List.replicate (kept.length + (l :: ls).length + c - left.length) L)) ∧
            (∀ s' ldb' x, Ldb.updateFound io kept ls s1 l1 ≠ (s', ldb', .err x)) ∧
            (∀ s' ldb', Ldb.updateFound io kept ls s1 l1 = (s', ldb', .panic) →
              ∃ arr', Ldb.updateFoundIn io ls.length kept.length (kept.length + (l :: ls).length - 1)
                (Ldb.shiftOut (kept ++ l :: ls ++ List.replicate c L) kept.length (kept.length + (l :: ls).length)) s1 l1 =
                (s', ldb', .panic, arr')) := by
          intro s1 l1
          obtain ⟨i1, i2, i3⟩ := ih kept (c + 1) s1 l1 hL'
          rw [hshift, hlen, hcnt]
          refine ⟨fun s' ldb' left e h => ?_, i2, i3⟩
          obtain ⟨q1, q2⟩ := i1 s' ldb' left e h
          exact ⟨by simp; omega, q2⟩
        by_cases hfl : old.flags = l.flags
        · rw [if_neg (not_not.mpr hfl), if_neg (not_not.mpr hfl)]
          exact hrec s ldb
        · rw [if_pos hfl, if_pos hfl]
          rcases hw : Ldb.writeLink io s ldb kept.length l with ⟨s1, l1, (_ | e) | e | _⟩ <;> dsimp only
          · exact hrec s1 l1
          · refine ⟨?_, by simp, by simp⟩
            intro s' ldb' left e' h
            simp only [Prod.mk.injEq, Out.ok.injEq] at h
            obtain ⟨rfl, rfl, rfl, rfl⟩ := h
            refine ⟨by simp, ?_⟩
            rw [hshift, hlen]
            simp only [List.length_append, List.append_assoc]
            rw [show kept.length + (l :: ls).length + c - (kept.length + ls.length) = c + 1 by simp; omega]
          · exact ⟨by simp, by simp, fun s' ldb' h => ⟨kept ++ l :: ls ++ List.replicate c L, by
              simp only [Prod.mk.injEq, and_true] at h; obtain ⟨rfl, rfl⟩ := h; rfl⟩⟩
          · exact ⟨by simp, by simp, fun s' ldb' h => ⟨kept ++ l :: ls ++ List.replicate c L, by
              simp only [Prod.mk.injEq, and_true] at h; obtain ⟨rfl, rfl⟩ := h; rfl⟩⟩

/-- One record of the array before and after: as it was, or with the end mark taken off. -/
abbrev Unended (a b : LinkRecord) : Prop := b = a ∨ b = Ldb.notLast a

theorem unended_refl (ls : List LinkRecord) : List.Forall₂ Unended ls ls := by
  induction ls with
  | nil => exact .nil
  | cons l ls ih => exact .cons (Or.inl rfl) ih

theorem unended_take (links : List LinkRecord) (k : Nat) :
    List.Forall₂ Unended links ((links.take k).map Ldb.notLast ++ links.drop k) := by
  induction links generalizing k with
  | nil => simp
  | cons l ls ih =>
    cases k with
    | zero => simpa using unended_refl (l :: ls)
    | succ k =>
      rw [List.take_succ_cons, List.map_cons, List.drop_succ_cons, List.cons_append]
      exact .cons (Or.inr rfl) (ih k)

theorem updateAvailableIn_spec {σ : Type} (io : MsgIO σ) (fuel i : Nat) (links pre post : List LinkRecord) (s : σ) (ldb : Ldb) :
    (∀ s' ldb' left e, Ldb.updateAvailable io fuel i links s ldb = (s', ldb', .ok (left, e)) →
      ∃ taken, List.Forall₂ Unended links (taken ++ left) ∧
      Ldb.updateAvailableIn io fuel i pre.length (pre.length + links.length) (pre ++ links ++ post) s ldb =
        (s', ldb', .ok ((pre ++ taken).length, e), pre ++ taken ++ left ++ post)) ∧
    (∀ s' ldb' x, Ldb.updateAvailable io fuel i links s ldb ≠ (s', ldb', .err x)) ∧
    (∀ s' ldb', Ldb.updateAvailable io fuel i links s ldb = (s', ldb', .panic) →
      ∃ arr, List.Forall₂ Unended links arr ∧
      Ldb.updateAvailableIn io fuel i pre.length (pre.length + links.length) (pre ++ links ++ post) s ldb =
        (s', ldb', .panic, pre ++ arr ++ post)) := by
  have stop : ∀ (links pre : List LinkRecord) (s : σ) (ldb : Ldb),
      (∀ s' ldb' left e, ((s, ldb, .ok (links, none)) : σ × Ldb × Out (List LinkRecord × Option Err)) = (s', ldb', .ok (left, e)) →
        ∃ taken, List.Forall₂ Unended links (taken ++ left) ∧
        ((s, ldb, .ok (pre.length, none), pre ++ links ++ post) : σ × Ldb × Out (Nat × Option Err) × List LinkRecord) =
          (s', ldb', .ok ((pre ++ taken).length, e), pre ++ taken ++ left ++ post)) := by
    intro links pre s ldb s' ldb' left e h
    simp only [Prod.mk.injEq, Out.ok.injEq] at h
    obtain ⟨rfl, rfl, rfl, rfl⟩ := h
    exact ⟨[], unended_refl _, by simp⟩
  induction fuel generalizing i links pre s ldb with
  | zero =>
    rw [Ldb.updateAvailable, Ldb.updateAvailableIn]
    exact ⟨stop links pre s ldb, by simp, by simp⟩
  | succ fuel ih =>
    unfold Ldb.updateAvailable Ldb.updateAvailableIn
    rcases hi : ldb.links[i]? with _ | r
    · exact ⟨stop links pre s ldb, by simp, by simp⟩
    · cases links with
      | nil =>
        dsimp only
        rw [if_neg (by simp)]
        exact ih (i + 1) [] pre s ldb
      | cons l ls =>
        dsimp only
        by_cases ha : r.flags.available = true
        · rw [if_pos ha, if_pos (by simp [ha])]
          rw [List.append_assoc, List.cons_append, modify_append_cons, getElem?_append_cons]
          dsimp only
          rcases hw : Ldb.writeLink io s ldb i (Ldb.notLast l) with ⟨s1, l1, (_ | e) | e | _⟩ <;> dsimp only
          · obtain ⟨i1, i2, i3⟩ := ih (i + 1) ls (pre ++ [Ldb.notLast l]) s1 l1
            have e1 : (pre ++ [Ldb.notLast l]).length = pre.length + 1 := by simp
            have e2 : pre.length + 1 + ls.length = pre.length + (l :: ls).length := by simp; omega
            have e3 : pre ++ [Ldb.notLast l] ++ ls ++ post = pre ++ Ldb.notLast l :: (ls ++ post) := by simp
            rw [e1, e2, e3] at i1 i3
            refine ⟨fun s' ldb' left e h => ?_, i2, fun s' ldb' h => ?_⟩
            · obtain ⟨taken, t1, t2⟩ := i1 s' ldb' left e h
              refine ⟨Ldb.notLast l :: taken, .cons (Or.inr rfl) t1, ?_⟩
              rw [t2]; simp
            · obtain ⟨arr, t1, t2⟩ := i3 s' ldb' h
              refine ⟨Ldb.notLast l :: arr, .cons (Or.inr rfl) t1, ?_⟩
              rw [t2]; simp
          · refine ⟨?_, by simp, by simp⟩
            intro s' ldb' left e' h
            simp only [Prod.mk.injEq, Out.ok.injEq] at h
            obtain ⟨rfl, rfl, rfl, rfl⟩ := h
            exact ⟨[], .cons (Or.inr rfl) (unended_refl _), by simp⟩
          all_goals
            refine ⟨by simp, by simp, fun s' ldb' h => ?_⟩
            simp only [Prod.mk.injEq, and_true] at h
            obtain ⟨rfl, rfl⟩ := h
            exact ⟨Ldb.notLast l :: ls, .cons (Or.inr rfl) (unended_refl _), by simp⟩
        · rw [if_neg ha, if_neg (by simp [ha])]
          exact ih (i + 1) (l :: ls) pre s ldb

theorem exists_last (links : List LinkRecord) : links ≠ [] → links.getLast? = some (links.getLastD .zero) := by
  intro h
  obtain ⟨x, xs, rfl⟩ := List.exists_cons_of_ne_nil h
  rw [List.getLastD_eq_getLast?, List.getLast?_eq_some_getLast (by simp)]
  rfl

/-- With the caller's array, `UpdateLinks` does what it does without. -/
theorem updateLinksIn_same {σ : Type} (io : MsgIO σ) (fuel : Nat) (now done : Int) (s : σ) (ldb : Ldb) (links : List LinkRecord) :
    (Ldb.updateLinksIn io fuel now done s ldb links).map (fun r => (r.1, r.2.1, r.2.2.1)) =
      Ldb.updateLinks io fuel now done s ldb links := by
  unfold Ldb.updateLinksIn Ldb.updateLinks
  rcases Ldb.refresh io fuel now done s ldb with _ | ⟨s1, l1, (_ | e) | e | _⟩ <;> try rfl
  dsimp only
  obtain ⟨f1, f2, f3⟩ := updateFoundIn_spec io (links.getLastD .zero) links [] 0 s1 l1 (exists_last links)
  simp only [List.nil_append, List.length_nil, Nat.zero_add, List.replicate_zero, List.append_nil] at f1 f3
  rcases hf : Ldb.updateFound io [] links s1 l1 with ⟨s2, l2, ⟨left, _ | e⟩ | e | _⟩
  · obtain ⟨g1, g2⟩ := f1 _ _ _ _ hf
    rw [g2]
    dsimp only
    obtain ⟨a1, a2, a3⟩ := updateAvailableIn_spec io l2.links.length 0 left []
      (List.replicate (links.length + 0 - left.length) (links.getLastD .zero)) s2 l2
    simp only [List.nil_append, List.length_nil, Nat.zero_add, Nat.add_zero] at a1 a3
    rcases ha : Ldb.updateAvailable io l2.links.length 0 left s2 l2 with ⟨s3, l3, ⟨rest, _ | e⟩ | e | _⟩
    · obtain ⟨taken, t1, t2⟩ := a1 _ _ _ _ ha
      rw [Nat.add_zero, t2]
      have hlen := t1.length_eq
      rw [List.length_append] at hlen
      dsimp only
      cases rest with
      | nil =>
        rw [if_neg (by simp at hlen; omega)]
        rfl
      | cons x xs =>
        rw [if_pos (by simp at hlen; omega)]
        have hwin : ((taken ++ x :: xs ++ List.replicate (links.length - left.length) (links.getLastD .zero)).take left.length).drop
            taken.length = x :: xs := by
          rw [hlen, ← List.length_append, List.take_left, List.drop_left]
        have hcnt : left.length - taken.length = (x :: xs).length := by omega
        rw [hwin, hcnt]
        dsimp only
        rcases Ldb.updateAppend io l3.links.length (x :: xs) none s3 l3 with ⟨s4, l4, (_ | e) | e | _⟩ <;> rfl
    · obtain ⟨taken, t1, t2⟩ := a1 _ _ _ _ ha
      rw [Nat.add_zero, t2]
      cases rest <;> rfl
    · exact absurd ha (a2 _ _ _)
    · obtain ⟨arr, t1, t2⟩ := a3 _ _ ha
      rw [Nat.add_zero, t2]; rfl
  · obtain ⟨g1, g2⟩ := f1 _ _ _ _ hf
    rw [g2]; rfl
  · exact absurd hf (f2 _ _ _)
  · obtain ⟨arr, g2⟩ := f3 _ _ hf
    rw [g2]; rfl

theorem writeLink_index {σ : Type} (io : MsgIO σ) (s : σ) (ldb : Ldb) (i : Int) (l : LinkRecord) :
    (Ldb.writeLink io s ldb i l).2.1.index = ldb.index := by
  unfold Ldb.writeLink
  by_cases hr : i > ldb.links.length
  · rw [if_pos hr]
  · rw [if_neg hr]
    rcases (⟨LinkRequest.writeLink, Ldb.memAddressOf i, 0, some l⟩ : LinkRequest).marshalBinary with buf | e | _ <;> try rfl
    dsimp only
    rcases io.write s ⟨0, 0, 0, Cmd.readWriteALDB, buf⟩ with ⟨s1, ⟨a, _ | e⟩ | _⟩ <;> try rfl
    dsimp only
    split_ifs <;> rfl

/-- What the first loop leaves: the links whose identity is not in the index. -/
theorem updateFound_left {σ : Type} (io : MsgIO σ) (ls kept : List LinkRecord) (s s' : σ) (ldb ldb' : Ldb) (left : List LinkRecord)
    (h : Ldb.updateFound io kept ls s ldb = (s', ldb', .ok (left, none))) :
    left = kept ++ ls.filter (fun l => (Ldb.lookup ldb.index l.id).isNone) := by
  induction ls generalizing kept s ldb with
  | nil =>
    simp only [Ldb.updateFound, Prod.mk.injEq, Out.ok.injEq, and_true] at h
    simp [h.2.2]
  | cons l ls ih =>
    rw [Ldb.updateFound] at h
    rcases hk : Ldb.lookup ldb.index l.id with _ | j <;> rw [hk] at h <;> dsimp only at h
    · rw [ih _ _ _ h, List.filter_cons_of_pos (by simp [hk])]
      simp
    · rw [List.filter_cons_of_neg (by simp [hk])]
      rcases ho : ldb.links[j]? with _ | old <;> rw [ho] at h <;> dsimp only at h
      · simp at h
      · by_cases hfl : old.flags = l.flags
        · rw [if_neg (not_not.mpr hfl)] at h
          exact ih _ _ _ h
        · rw [if_pos hfl] at h
          have hix := writeLink_index io s ldb kept.length l
          rcases hw : Ldb.writeLink io s ldb kept.length l with ⟨s1, l1, (_ | e) | e | _⟩ <;> rw [hw] at h hix <;> dsimp only at h hix
          · rw [← hix]; exact ih _ _ _ h
          all_goals simp at h

theorem lookup_isNone (ldb : Ldb) (hidx : IndexOk ldb) (l : LinkRecord) :
    (Ldb.lookup ldb.index l.id).isNone = !ldb.links.any fun r => r.id == l.id := by
  have := hidx l.id
  rcases hk : Ldb.lookup ldb.index l.id with _ | j <;> rw [hk] at this <;> dsimp only at this
  · simp only [Option.isNone_none]
    symm
    simpa using this
  · obtain ⟨r, hr, he⟩ := this
    simp only [Option.isNone_some]
    symm
    simp only [Bool.not_eq_false', List.any_eq_true, beq_iff_eq]
    exact ⟨r, List.mem_of_getElem? hr, he⟩

theorem filter_strangers (ldb : Ldb) (hidx : IndexOk ldb) (links : List LinkRecord) :
    links.filter (fun l => (Ldb.lookup ldb.index l.id).isNone) = strangers ldb.links links := by
  unfold strangers
  congr 1
  funext l
  exact lookup_isNone ldb hidx l

theorem or2 (f : Byte) : RecordControlFlags.clearLastRecord f = f ||| 0x02#8 := by revert f; decide +kernel

theorem or82 (f : Byte) : RecordControlFlags.clearLastRecord (RecordControlFlags.setInUse f) = f ||| 0x82#8 := by
  revert f; decide +kernel

theorem or2_noEnd (f : Byte) : f.toNat / 2 % 2 = 1 → f ||| 0x02#8 = f := by revert f; decide +kernel

theorem or82_used (f : Byte) : 128 ≤ f.toNat → f.toNat / 2 % 2 = 1 → f ||| 0x82#8 = f := by revert f; decide +kernel

theorem sameButEnd_of (a b : LinkRecord) (h : Unended a b) : SameButEnd a b := by
  rcases h with rfl | rfl
  · exact ⟨rfl, rfl, rfl, rfl, rfl, Or.inl rfl⟩
  · exact ⟨rfl, rfl, rfl, rfl, rfl, Or.inr (or2 _)⟩

theorem sameButEnd_eq (a b : LinkRecord) (h : SameButEnd a b) (ha : NoEnd a) : b = a := by
  obtain ⟨h1, h2, h3, h4, h5, h6⟩ := h
  have hf : b.flags = a.flags := by
    rcases h6 with h6 | h6
    · exact h6
    · rw [h6]; exact or2_noEnd _ ha
  cases a; cases b; simp_all

theorem sameButUse_eq (a b : LinkRecord) (h : SameButUse a b) (ha : NoEnd a) (hu : Used a) : b = a := by
  obtain ⟨h1, h2, h3, h4, h5, h6⟩ := h
  have hf : b.flags = a.flags := by
    rcases h6 with h6 | h6
    · exact h6
    · rw [h6]; exact or82_used _ hu ha
  cases a; cases b; simp_all

theorem forall₂_eq {α : Type} {R : α → α → Prop} {as bs : List α} (h : List.Forall₂ R as bs) (he : ∀ a ∈ as, ∀ b, R a b → b = a) : bs = as := by
  induction h with
  | nil => rfl
  | cons hr _ ih =>
    rw [he _ (by simp) _ hr, ih fun a ha b hb => he a (List.mem_cons_of_mem _ ha) b hb]

theorem notLast_idem (l : LinkRecord) : Ldb.notLast (Ldb.notLast l) = Ldb.notLast l := by
  unfold Ldb.notLast
  dsimp only
  rw [or2, or2]
  congr 1
  generalize l.flags = f
  revert f; decide +kernel

/-! ### C165: writing a list -/

theorem writeLinksLoop_congr {σ : Type} (io : MsgIO σ) (i : Nat) (as bs : List LinkRecord) (s : σ) (ldb : Ldb)
    (h : as.map Ldb.notLast = bs.map Ldb.notLast) : Ldb.writeLinksLoop io i as s ldb = Ldb.writeLinksLoop io i bs s ldb := by
  induction as generalizing bs i s ldb with
  | nil =>
    cases bs with
    | nil => rfl
    | cons b bs => simp at h
  | cons a as ih =>
    cases bs with
    | nil => simp at h
    | cons b bs =>
      simp only [List.map_cons, List.cons.injEq] at h
      rw [Ldb.writeLinksLoop, Ldb.writeLinksLoop, h.1]
      rcases Ldb.writeLink io s ldb i (Ldb.notLast b) with ⟨s1, l1, (_ | e) | e | _⟩ <;> dsimp only
      exact ih _ _ _ _ h.2

/-- C165, what is proved for writing a list: whatever happens, the records of the list are the ones they were, but for the mark
of the end; a list without such marks is unchanged; and writing the list afterwards, to any device, does what writing the
original list does. -/
theorem write_list_reusable_partial {σ : Type} (io : MsgIO σ) (done : Int) (s s' : σ) (ldb ldb' : Ldb) (links arr : List LinkRecord)
    (out : Out (Option Err)) (h : Ldb.writeLinksIn io done s ldb links = (s', ldb', out, arr)) :
    List.Forall₂ SameButEnd links arr ∧ ((∀ l ∈ links, NoEnd l) → arr = links) ∧
    ∀ {τ : Type} (io2 : MsgIO τ) (done2 : Int) (t : τ) (ldb2 : Ldb),
      Ldb.writeLinks io2 done2 t ldb2 arr = Ldb.writeLinks io2 done2 t ldb2 links := by
  have hu : List.Forall₂ Unended links arr := by
    obtain ⟨k, _, he, _⟩ := writeLinksIn_array io done s ldb links
    rw [h] at he
    dsimp only at he
    rw [he]
    exact unended_take links k
  have hs : List.Forall₂ SameButEnd links arr := hu.imp fun a b => sameButEnd_of a b
  refine ⟨hs, fun hn => forall₂_eq hs fun a ha b hb => sameButEnd_eq a b hb (hn a ha), ?_⟩
  intro τ io2 done2 t ldb2
  have hm : arr.map Ldb.notLast = links.map Ldb.notLast := by
    clear hs h
    induction hu with
    | nil => rfl
    | cons hr _ ih =>
      rw [List.map_cons, List.map_cons, ih]
      rcases hr with rfl | rfl
      · rfl
      · rw [notLast_idem]
  unfold Ldb.writeLinks
  rw [writeLinksLoop_congr io2 0 arr links t ldb2 hm]

/-! ### C165: updating with a list -/

/-- C165, what a successful update leaves in the caller's list: the links the device did not have, in order (perhaps without the
mark of the end), and then copies of the last link of the list. -/
theorem update_list_after_partial {σ : Type} (io : MsgIO σ) (fuel : Nat) (now done : Int) (s s1 s' : σ) (ldb ldb1 ldb' : Ldb)
    (links arr : List LinkRecord) (h0 : Ldb.refresh io fuel now done s ldb = some (s1, ldb1, .ok none)) (hidx : IndexOk ldb1)
    (h : Ldb.updateLinksIn io fuel now done s ldb links = some (s', ldb', .ok none, arr)) :
    List.Forall₂ SameButEnd (strangers ldb1.links links ++
      List.replicate (links.length - (strangers ldb1.links links).length) (links.getLastD .zero)) arr := by
  unfold Ldb.updateLinksIn at h
  rw [h0] at h
  dsimp only at h
  obtain ⟨f1, f2, f3⟩ := updateFoundIn_spec io (links.getLastD .zero) links [] 0 s1 ldb1 (exists_last links)
  simp only [List.nil_append, List.length_nil, Nat.zero_add, List.replicate_zero, List.append_nil] at f1 f3
  rcases hf : Ldb.updateFound io [] links s1 ldb1 with ⟨s2, l2, ⟨left, _ | e⟩ | e | _⟩
  · obtain ⟨g1, g2⟩ := f1 _ _ _ _ hf
    have hleft := updateFound_left io links [] s1 s2 ldb1 l2 left hf
    rw [List.nil_append, filter_strangers ldb1 hidx] at hleft
    rw [← hleft]
    rw [g2, Nat.add_zero] at h
    dsimp only at h
    obtain ⟨a1, a2, a3⟩ := updateAvailableIn_spec io l2.links.length 0 left []
      (List.replicate (links.length - left.length) (links.getLastD .zero)) s2 l2
    simp only [List.nil_append, List.length_nil, Nat.zero_add] at a1 a3
    rcases ha : Ldb.updateAvailable io l2.links.length 0 left s2 l2 with ⟨s3, l3, ⟨rest, _ | e⟩ | e | _⟩
    · obtain ⟨taken, t1, t2⟩ := a1 _ _ _ _ ha
      rw [t2] at h
      dsimp only at h
      have harr : arr = taken ++ rest ++ List.replicate (links.length - left.length) (links.getLastD .zero) := by
        split_ifs at h
        · split at h
          all_goals
            simp only [Option.some.injEq, Prod.mk.injEq] at h
            exact h.2.2.2.symm
        · simp only [Option.some.injEq, Prod.mk.injEq] at h
          exact h.2.2.2.symm
      rw [harr]
      exact List.rel_append (t1.imp fun a b => sameButEnd_of a b) ((unended_refl _).imp fun a b => sameButEnd_of a b)
    · obtain ⟨taken, t1, t2⟩ := a1 _ _ _ _ ha
      rw [t2] at h; simp at h
    · exact absurd ha (a2 _ _ _)
    · obtain ⟨arr, t1, t2⟩ := a3 _ _ ha
      rw [t2] at h; simp at h
  · obtain ⟨g1, g2⟩ := f1 _ _ _ _ hf
    rw [g2] at h; simp at h
  · exact absurd hf (f2 _ _ _)
  · obtain ⟨arr, g2⟩ := f3 _ _ hf
    rw [g2] at h; simp at h

/-- C165, what is proved for updating with a list: if the device has none of the links and none of them marks the end, the
list is unchanged, whatever happens. -/
theorem update_list_kept_partial {σ : Type} (io : MsgIO σ) (fuel : Nat) (now done : Int) (s s' : σ) (ldb ldb' : Ldb)
    (links arr : List LinkRecord) (out : Out (Option Err)) (hend : ∀ l ∈ links, NoEnd l)
    (hnew : ∀ s1 ldb1, Ldb.refresh io fuel now done s ldb = some (s1, ldb1, .ok none) →
      IndexOk ldb1 ∧ ∀ l ∈ links, ∀ r ∈ ldb1.links, r.id ≠ l.id)
    (h : Ldb.updateLinksIn io fuel now done s ldb links = some (s', ldb', out, arr)) : arr = links := by
  have hkeep : ∀ xs, List.Forall₂ Unended links xs → xs = links := fun xs hx =>
    forall₂_eq hx fun a ha b hb => sameButEnd_eq a b (sameButEnd_of a b hb) (hend a ha)
  unfold Ldb.updateLinksIn at h
  rcases h0 : Ldb.refresh io fuel now done s ldb with _ | ⟨s1, l1, (_ | e) | e | _⟩ <;> rw [h0] at h <;> dsimp only at h
  · simp at h
  · obtain ⟨hidx, hn⟩ := hnew _ _ h0
    obtain ⟨f1, f2, f3⟩ := updateFoundIn_spec io (links.getLastD .zero) links [] 0 s1 l1 (exists_last links)
    simp only [List.nil_append, List.length_nil, Nat.zero_add, List.replicate_zero, List.append_nil] at f1 f3
    have hf := updateFound_same io [] links s1 l1 hidx (fun l hl r hr he => absurd he (hn l hl r hr))
    have hall : (links.filter fun l => !l1.links.any fun r => r.id == l.id) = links := by
      rw [List.filter_eq_self]
      intro l hl
      simpa using hn l hl
    rw [hall, List.nil_append] at hf
    obtain ⟨g1, g2⟩ := f1 _ _ _ _ hf
    rw [g2] at h
    simp only [Nat.add_zero, Nat.sub_self, List.replicate_zero, List.append_nil] at h
    obtain ⟨a1, a2, a3⟩ := updateAvailableIn_spec io l1.links.length 0 links [] [] s1 l1
    simp only [List.nil_append, List.length_nil, Nat.zero_add, List.append_nil] at a1 a3
    rcases ha : Ldb.updateAvailable io l1.links.length 0 links s1 l1 with ⟨s3, l3, ⟨rest, _ | e⟩ | e | _⟩
    · obtain ⟨taken, t1, t2⟩ := a1 _ _ _ _ ha
      rw [t2, hkeep _ t1] at h
      dsimp only at h
      split_ifs at h
      · split at h
        all_goals
          simp only [Option.some.injEq, Prod.mk.injEq] at h
          exact h.2.2.2.symm
      · simp only [Option.some.injEq, Prod.mk.injEq] at h
        exact h.2.2.2.symm
    · obtain ⟨taken, t1, t2⟩ := a1 _ _ _ _ ha
      rw [t2, hkeep _ t1] at h
      simp only [Option.some.injEq, Prod.mk.injEq] at h
      exact h.2.2.2.symm
    · exact absurd ha (a2 _ _ _)
    · obtain ⟨xs, t1, t2⟩ := a3 _ _ ha
      rw [t2, hkeep _ t1] at h
      simp only [Option.some.injEq, Prod.mk.injEq] at h
      exact h.2.2.2.symm
  all_goals
    simp only [Option.some.injEq, Prod.mk.injEq] at h
    exact h.2.2.2.symm

/-- Two links, the first of which the device of `twoCache` has. -/
def aList : List LinkRecord := [⟨0xa2, 1, 5, 0, 0, 0⟩, ⟨0xa2, 3, 7, 0, 0, 0⟩]

/-- A device without links. -/
def emptyDev : AldbDev := ⟨fun _ => 0, [], []⟩

/-- Its cache, up to date at time 0. -/
def emptyCache : Ldb := ⟨0, [], []⟩

theorem emptyCache_index : IndexOk emptyCache := by
  intro id
  simp [Ldb.lookup, emptyCache]

theorem aList_update : ∃ d' ldb', Ldb.updateLinksIn (Device.io dev5 aldbIO) 0 0 0 ⟨twoRecords, [], []⟩ twoCache aList =
    some (d', ldb', .ok none, [⟨0xa2, 3, 7, 0, 0, 0⟩, ⟨0xa2, 3, 7, 0, 0, 0⟩]) := ⟨_, _, rfl⟩

theorem aList_again : ∃ d' ldb', Ldb.updateLinks (Device.io dev5 aldbIO) 0 0 0 emptyDev emptyCache
    [⟨0xa2, 3, 7, 0, 0, 0⟩, ⟨0xa2, 3, 7, 0, 0, 0⟩] = some (d', ldb', .ok none) ∧
    database d'.mem = [raw ⟨0xa2, 3, 7, 0, 0, 0⟩, raw ⟨0xa2, 3, 7, 0, 0, 0⟩] := ⟨_, _, rfl, by decide +kernel⟩

/-- C165 in full is false of the code: a list two devices are updated with, one after the other, has been changed by the first
update, and the second device misses a link of the list. -/
theorem list_reusable_refuted :
    ¬ ∀ (info : DeviceInfo) (dA dA' dB dB' : AldbDev) (cA cA' cB cB' : Ldb) (now done : Int) (fuel : Nat) (links arr : List LinkRecord),
      now ≤ cA.age + 3600 → Agrees cA dA.mem → IndexOk cA → now ≤ cB.age + 3600 → Agrees cB dB.mem → IndexOk cB →
      Ldb.updateLinksIn (Device.io info aldbIO) fuel now done dA cA links = some (dA', cA', .ok none, arr) →
      Ldb.updateLinks (Device.io info aldbIO) fuel now done dB cB arr = some (dB', cB', .ok none) →
      ∀ l ∈ links, NoEnd l → raw l ∈ database dB'.mem := by
  intro h
  obtain ⟨dA', cA', eA⟩ := aList_update
  obtain ⟨dB', cB', eB, hB⟩ := aList_again
  have := h dev5 _ dA' emptyDev dB' twoCache cA' emptyCache cB' 0 0 0 aList _ (by simp [twoCache]) (by unfold Agrees; decide +kernel)
    twoCache_index (by simp [emptyCache]) (by unfold Agrees; decide +kernel) emptyCache_index eA eB
    ⟨0xa2, 1, 5, 0, 0, 0⟩ (by simp [aList]) (by unfold NoEnd; decide)
  rw [hB] at this
  revert this
  decide

/-- The hypotheses of `update_list_after_partial` are met by this update, those of `update_list_kept_partial` by one with new links only. -/
example : (∃ d' ldb', Ldb.refresh (Device.io dev5 aldbIO) 0 0 0 ⟨twoRecords, [], []⟩ twoCache = some (d', ldb', .ok none)) ∧
    (∃ d' ldb' arr, Ldb.updateLinksIn (Device.io dev5 aldbIO) 0 0 0 ⟨twoRecords, [], []⟩ twoCache aList = some (d', ldb', .ok none, arr)) ∧
    ∃ d' ldb' out arr, Ldb.updateLinksIn (Device.io dev5 aldbIO) 0 0 0 emptyDev emptyCache aList = some (d', ldb', out, arr) ∧
      ∀ l ∈ aList, NoEnd l :=
  ⟨⟨_, _, rfl⟩, ⟨_, _, _, rfl⟩, ⟨_, _, _, _, rfl, by unfold NoEnd; decide⟩⟩

example : strangers twoCache.links aList = [⟨0xa2, 3, 7, 0, 0, 0⟩] := by decide

/-! ### C165: adding a list -/

/-- One record of the array before and after `AddLinks`. -/
abbrev Taken (a b : LinkRecord) : Prop := b = a ∨ b = { a with flags := a.flags.setInUse.clearLastRecord }

theorem taken_refl (ls : List LinkRecord) : List.Forall₂ Taken ls ls := by
  induction ls with
  | nil => exact .nil
  | cons l ls ih => exact .cons (Or.inl rfl) ih

theorem addLoopIn_spec {σ : Type} (io : MsgIO σ) (i : Nat) (rest adds pre : List LinkRecord) (s : σ) (ldb : Ldb) :
    (∀ s' ldb' left e, Ldb.addLoop io i rest adds s ldb = (s', ldb', .ok (left, e)) →
      ∃ taken, List.Forall₂ Taken adds (taken ++ left) ∧
      Ldb.addLoopIn io i rest pre.length (pre ++ adds) s ldb = (s', ldb', .ok ((pre ++ taken).length, e), pre ++ taken ++ left)) ∧
    (∀ s' ldb' x, Ldb.addLoop io i rest adds s ldb ≠ (s', ldb', .err x)) ∧
    (∀ s' ldb', Ldb.addLoop io i rest adds s ldb = (s', ldb', .panic) →
      ∃ arr, List.Forall₂ Taken adds arr ∧
      Ldb.addLoopIn io i rest pre.length (pre ++ adds) s ldb = (s', ldb', .panic, pre ++ arr)) := by
  induction rest generalizing i adds pre s ldb with
  | nil =>
    rw [Ldb.addLoop, Ldb.addLoopIn]
    refine ⟨fun s' ldb' left e h => ?_, by simp, by simp⟩
    simp only [Prod.mk.injEq, Out.ok.injEq] at h
    obtain ⟨rfl, rfl, rfl, rfl⟩ := h
    exact ⟨[], taken_refl _, by simp⟩
  | cons link rest ih =>
    cases adds with
    | nil =>
      have hn : (pre ++ ([] : List LinkRecord))[pre.length]? = none := by simp
      rw [Ldb.addLoop, Ldb.addLoopIn, hn]
      refine ⟨fun s' ldb' left e h => ?_, by simp, by simp⟩
      simp only [Prod.mk.injEq, Out.ok.injEq] at h
      obtain ⟨rfl, rfl, rfl, rfl⟩ := h
      exact ⟨[], taken_refl _, by simp⟩
    | cons a as =>
      rw [Ldb.addLoop, Ldb.addLoopIn, getElem?_append_cons]
      dsimp only
      have step : ∀ (b : LinkRecord) (s1 : σ) (l1 : Ldb), Taken a b →
          (∀ s' ldb' left e, Ldb.addLoop io (i + 1) rest as s1 l1 = (s', ldb', .ok (left, e)) →
            ∃ taken, List.Forall₂ Taken (a :: as) (taken ++ left) ∧
            Ldb.addLoopIn io (i + 1) rest (pre.length + 1) (pre ++ b :: as) s1 l1 =
              (s', ldb', .ok ((pre ++ taken).length, e), pre ++ taken ++ left)) ∧
          (∀ s' ldb' x, Ldb.addLoop io (i + 1) rest as s1 l1 ≠ (s', ldb', .err x)) ∧
          (∀ s' ldb', Ldb.addLoop io (i + 1) rest as s1 l1 = (s', ldb', .panic) →
            ∃ arr, List.Forall₂ Taken (a :: as) arr ∧
            Ldb.addLoopIn io (i + 1) rest (pre.length + 1) (pre ++ b :: as) s1 l1 = (s', ldb', .panic, pre ++ arr)) := by
        intro b s1 l1 hb
        obtain ⟨i1, i2, i3⟩ := ih (i + 1) as (pre ++ [b]) s1 l1
        have e1 : (pre ++ [b]).length = pre.length + 1 := by simp
        have e2 : pre ++ [b] ++ as = pre ++ b :: as := by simp
        rw [e1, e2] at i1 i3
        refine ⟨fun s' ldb' left e h => ?_, i2, fun s' ldb' h => ?_⟩
        · obtain ⟨taken, t1, t2⟩ := i1 s' ldb' left e h
          exact ⟨b :: taken, .cons hb t1, by rw [t2]; simp⟩
        · obtain ⟨arr, t1, t2⟩ := i3 s' ldb' h
          exact ⟨b :: arr, .cons hb t1, by rw [t2]; simp⟩
      by_cases hav : link.flags.available = true
      · rw [if_pos hav, if_pos hav]
        rcases hw : Ldb.writeLink io s ldb i link with ⟨s1, l1, (_ | e) | e | _⟩ <;> dsimp only
        · have hset : (pre ++ a :: as).set pre.length { a with flags := a.flags.setInUse.clearLastRecord } =
              pre ++ { a with flags := a.flags.setInUse.clearLastRecord } :: as := by simp
          rw [hset]
          exact step _ _ _ (Or.inr rfl)
        · refine ⟨fun s' ldb' left e' h => ?_, by simp, by simp⟩
          simp only [Prod.mk.injEq, Out.ok.injEq] at h
          obtain ⟨rfl, rfl, rfl, rfl⟩ := h
          exact ⟨[], taken_refl _, by simp⟩
        all_goals
          refine ⟨by simp, by simp, fun s' ldb' h => ?_⟩
          simp only [Prod.mk.injEq, and_true] at h
          obtain ⟨rfl, rfl⟩ := h
          exact ⟨a :: as, taken_refl _, rfl⟩
      · rw [if_neg hav, if_neg hav]
        exact step a s ldb (Or.inl rfl)

/-- With the caller's array, `AddLinks` does what it does without. -/
theorem addLinksIn_same {σ : Type} (io : MsgIO σ) (fuel : Nat) (now done : Int) (s : σ) (ldb : Ldb) (links : List LinkRecord) :
    (Ldb.addLinksIn io fuel now done s ldb links).map (fun r => (r.1, r.2.1, r.2.2.1)) =
      Ldb.addLinks io fuel now done s ldb links := by
  unfold Ldb.addLinksIn Ldb.addLinks
  by_cases h0 : links.length = 0
  · rw [if_pos h0, if_pos h0]; rfl
  · rw [if_neg h0, if_neg h0]
    rcases Ldb.refresh io fuel now done s ldb with _ | ⟨s1, l1, (_ | e) | e | _⟩ <;> try rfl
    dsimp only
    obtain ⟨a1, a2, a3⟩ := addLoopIn_spec io 0 l1.links links [] s1 l1
    simp only [List.nil_append, List.length_nil] at a1 a3
    rcases ha : Ldb.addLoop io 0 l1.links links s1 l1 with ⟨s2, l2, ⟨left, _ | e⟩ | e | _⟩
    · obtain ⟨taken, t1, t2⟩ := a1 _ _ _ _ ha
      rw [t2]
      dsimp only
      rw [List.drop_left]
      rfl
    · obtain ⟨taken, t1, t2⟩ := a1 _ _ _ _ ha
      rw [t2]; rfl
    · exact absurd ha (a2 _ _ _)
    · obtain ⟨arr, t1, t2⟩ := a3 _ _ ha
      rw [t2]; rfl

/-- C165, what is proved for adding a list: whatever happens, the records of the list are the ones they were, but for the marks
of use and of the end; a list of records in use without marks of the end is unchanged. -/
theorem add_list_reusable_partial {σ : Type} (io : MsgIO σ) (fuel : Nat) (now done : Int) (s s' : σ) (ldb ldb' : Ldb)
    (links arr : List LinkRecord) (out : Out (Option Err))
    (h : Ldb.addLinksIn io fuel now done s ldb links = some (s', ldb', out, arr)) :
    List.Forall₂ SameButUse links arr ∧ ((∀ l ∈ links, NoEnd l ∧ Used l) → arr = links) := by
  have hs : ∀ xs, List.Forall₂ Taken links xs → List.Forall₂ SameButUse links xs := by
    intro xs hx
    refine hx.imp fun a b hab => ?_
    rcases hab with rfl | rfl
    · exact ⟨rfl, rfl, rfl, rfl, rfl, Or.inl rfl⟩
    · exact ⟨rfl, rfl, rfl, rfl, rfl, Or.inr (or82 _)⟩
  have key : List.Forall₂ Taken links arr := by
    unfold Ldb.addLinksIn at h
    by_cases h0 : links.length = 0
    · rw [if_pos h0] at h
      simp only [Option.some.injEq, Prod.mk.injEq] at h
      rw [← h.2.2.2]
      exact taken_refl _
    · rw [if_neg h0] at h
      rcases hr : Ldb.refresh io fuel now done s ldb with _ | ⟨s1, l1, (_ | e) | e | _⟩ <;> rw [hr] at h <;> dsimp only at h
      · simp at h
      · obtain ⟨a1, a2, a3⟩ := addLoopIn_spec io 0 l1.links links [] s1 l1
        simp only [List.nil_append, List.length_nil] at a1 a3
        rcases ha : Ldb.addLoop io 0 l1.links links s1 l1 with ⟨s2, l2, ⟨left, _ | e⟩ | e | _⟩
        · obtain ⟨taken, t1, t2⟩ := a1 _ _ _ _ ha
          rw [t2] at h
          simp only [Option.some.injEq, Prod.mk.injEq] at h
          rw [← h.2.2.2]; exact t1
        · obtain ⟨taken, t1, t2⟩ := a1 _ _ _ _ ha
          rw [t2] at h
          simp only [Option.some.injEq, Prod.mk.injEq] at h
          rw [← h.2.2.2]; exact t1
        · exact absurd ha (a2 _ _ _)
        · obtain ⟨xs, t1, t2⟩ := a3 _ _ ha
          rw [t2] at h
          simp only [Option.some.injEq, Prod.mk.injEq] at h
          rw [← h.2.2.2]; exact t1
      all_goals
        simp only [Option.some.injEq, Prod.mk.injEq] at h
        rw [← h.2.2.2]
        exact taken_refl _
  exact ⟨hs _ key, fun hn => forall₂_eq (hs _ key) fun a ha b hb => sameButUse_eq a b hb (hn a ha).1 (hn a ha).2⟩

/-- Adding a free record to a device with a free record changes the caller's record. -/
example : (Ldb.addLinksIn (Device.io dev5 aldbIO) 0 0 0 emptyDev ⟨0, [⟨0x22, 0, 0, 0, 0, 0⟩], []⟩ [⟨0x22, 3, 7, 0, 0, 0⟩]).map
    (fun r => r.2.2.2) = some [⟨0xa2, 3, 7, 0, 0, 0⟩] := by rfl

/-- Writing a list changes only marks of the end. -/
example : (Ldb.writeLinksIn (Device.io dev5 aldbIO) 0 emptyDev emptyCache [⟨0xa0, 3, 7, 0, 0, 0⟩]).2.2.2 = [⟨0xa2, 3, 7, 0, 0, 0⟩] := by rfl

/-! ### C165: buffers -/

/-- The buffer is what the message sent carries, or as it was. -/
theorem bufferAfter_prepare (info : DeviceInfo) (command : Command) (buf : Bytes) :
    Device.bufferAfter info command buf = if 0 < buf.length ∧ buf.length < 14 then buf
      else (Device.prepare info ⟨0, 0, 0, command, buf⟩).payload := by
  unfold Device.bufferAfter Device.prepare
  dsimp only
  by_cases h1 : info.engineVersion = verI2Cs
  · by_cases h2 : 0 < buf.length
    · by_cases h3 : buf.length < 14
      · simp [h1, h2, h3]
      · simp [h1, h2, h3]
    · simp [h1, h2]
  · by_cases h2 : 0 < buf.length
    · simp [h1, h2]
    · simp [h1, h2]

/-- C165, what is proved for buffers: only sending 14 or more bytes to an I2CS device changes the buffer, and of it the last byte
only. -/
theorem buffer_reusable_partial (info : DeviceInfo) (command : Command) (buf : Bytes) :
    ((info.engineVersion ≠ 2#64 ∨ buf.length < 14) → Device.bufferAfter info command buf = buf) ∧
    (Device.bufferAfter info command buf).length = buf.length ∧
    (Device.bufferAfter info command buf).dropLast = buf.dropLast := by
  unfold Device.bufferAfter
  by_cases h1 : info.engineVersion = verI2Cs
  · rw [if_pos h1]
    by_cases h2 : 0 < buf.length
    · rw [if_pos h2]
      by_cases h3 : buf.length < 14
      · rw [if_pos h3]; exact ⟨fun _ => rfl, rfl, rfl⟩
      · rw [if_neg h3]
        refine ⟨fun h => ?_, by simp [setChecksum], ?_⟩
        · rcases h with h | h
          · exact absurd h1 h
          · exact absurd h h3
        · rcases List.eq_nil_or_concat buf with h0 | ⟨xs, x, h0⟩
          · rw [h0] at h2; simp at h2
          · rw [h0]; simp [setChecksum]
    · rw [if_neg h2]; exact ⟨fun _ => rfl, rfl, rfl⟩
  · rw [if_neg h1]; exact ⟨fun _ => rfl, rfl, rfl⟩

/-- C165, the same for the calls: sending a command and asking with `ExtendedGet` give what they give, and of the caller's buffer change the
last byte at most, and that only for an I2CS device and 14 or more bytes. -/
theorem buffer_calls_partial {σ : Type} (info : DeviceInfo) (io : MsgIO σ) (s : σ) (fuel : Nat) (command : Command) (buf : Bytes) :
    (Device.sendIn info io s command buf).1 = Device.send info io s command buf ∧
    (Device.extendedGetIn info io fuel s buf).1 = Device.extendedGet info io fuel s buf ∧
    ∀ after, after = (Device.sendIn info io s command buf).2 ∨ after = (Device.extendedGetIn info io fuel s buf).2 →
      ((info.engineVersion ≠ 2#64 ∨ buf.length < 14) → after = buf) ∧ after.length = buf.length ∧ after.dropLast = buf.dropLast := by
  refine ⟨rfl, rfl, ?_⟩
  rintro after (rfl | rfl)
  · exact buffer_reusable_partial info command buf
  · exact buffer_reusable_partial info Cmd.extendedGetSet buf

/-- What goes out when a buffer of 14 or more bytes is sent a second time to an I2CS device, with the same command: if the
checksum was right the first time, the checksum byte is zero the second time. -/
theorem buffer_second_send (info : DeviceInfo) (h : info.engineVersion = 2#64) (command : Command) (buf : Bytes) (hlen : 14 ≤ buf.length)
    (hok : checksumOk (Device.prepare info ⟨0, 0, 0, command, buf⟩)) :
    (Device.prepare info ⟨0, 0, 0, command, Device.bufferAfter info command buf⟩).payload = buf.dropLast ++ [0#8] := by
  have hne : buf ≠ [] := by intro h0; rw [h0] at hlen; simp at hlen
  have hpre : ∀ b : Bytes, 14 ≤ b.length → (Device.prepare info ⟨0, 0, 0, command, b⟩).payload = setChecksum command b := by
    intro b hb
    unfold Device.prepare
    dsimp only
    have h2 : 0 < b.length := by omega
    have h3 : ¬ b.length < 14 := by omega
    simp [h, h2, h3]
  have hb : Device.bufferAfter info command buf = setChecksum command buf := by
    rw [bufferAfter_prepare, if_neg (by omega), hpre buf hlen]
  have hlen2 : 14 ≤ (setChecksum command buf).length := by simpa [setChecksum] using hlen
  rw [hb, hpre _ hlen2]
  have hcmd : (Device.prepare info ⟨0, 0, 0, command, buf⟩).command = command := by
    unfold Device.prepare
    dsimp only
    split_ifs <;> rfl
  unfold checksumOk cmd1 cmd2 at hok
  rw [hpre buf hlen, hcmd] at hok
  have hz : checksum command (setChecksum command buf) = 0#8 := by
    apply BitVec.eq_of_toNat_eq
    rw [checksum_toNat]
    simp only [BitVec.toNat_ofNat, Nat.zero_mod]
    omega
  rcases List.eq_nil_or_concat buf with h0 | ⟨xs, x, h0⟩
  · exact absurd h0 hne
  · rw [setChecksum, hz, h0]
    simp [setChecksum]

/-- C165 is false of the code for buffers, too: the second send of the same 14 bytes goes out with a wrong checksum although the
first one was right. -/
theorem buffer_reusable_refuted :
    ¬ ∀ (info : DeviceInfo) (answer : Message → MRes) (w w1 w2 : Wire) (command : Command) (buf : Bytes) (m1 m2 : Message),
      info.engineVersion = 2#64 → buf.length = 14 →
      (Device.sendIn info (wireIO answer) w command buf).1.1 = w1 → w1.sent = w.sent ++ [m1] →
      (Device.sendIn info (wireIO answer) w1 command (Device.sendIn info (wireIO answer) w command buf).2).1.1 = w2 → w2.sent = w1.sent ++ [m2] →
      checksumOk m1 → checksumOk m2 := by
  intro h
  exact absurd (h ⟨1, (1, 2), 0x43, 2⟩ acks ⟨[], []⟩ _ _ 0x010901 (List.replicate 14 0) _ _ rfl (by decide) rfl rfl rfl rfl (by decide)) (by decide)

example : checksumOk (Device.prepare ⟨1, (1, 2), 0x43, 2⟩ ⟨0, 0, 0, 0x012e00, List.replicate 14 0⟩) := by decide

end Insteon
