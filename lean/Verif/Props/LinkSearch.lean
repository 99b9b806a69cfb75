import Verif.Spec.LinkOps
import Verif.Props.Link

/-
C74-C78: searching lists of link records (util/link.go).
-/

namespace Insteon
open Spec

theorem available_not_inUse (f : RecordControlFlags) : f.available = true ↔ ¬ inUseBit f := by
  revert f; decide +kernel

theorem controller_eq_iff (f : RecordControlFlags) (c : Bool) : f.controller = c ↔ (controllerBit f ↔ c = true) := by
  revert f c; decide +kernel

theorem controller_responder_iff (f g : RecordControlFlags) :
    f.controller = g.responder ↔ (controllerBit f ↔ ¬ controllerBit g) := by
  have h1 : ∀ f : RecordControlFlags, f.controller = decide (controllerBit f) := by decide +kernel
  have h2 : ∀ f : RecordControlFlags, f.responder = decide (¬ controllerBit f) := by decide +kernel
  rw [h1, h2, decide_eq_decide]

theorem freed_eq (l : LinkRecord) : { l with flags := l.flags.setAvailable } = freed l := by
  have : ∀ f : RecordControlFlags, f.setAvailable = BitVec.ofNat 8 (f.toNat % 128) := by decide +kernel
  rw [freed, this]

/-! ### C74 -/

theorem findLoop_cons (c : Bool) (a : Address) (g : Group) (l : LinkRecord) (rest : List LinkRecord) :
    LinkOps.findLoop c a g (l :: rest) = if HalfLink c a g l then (l, none) else LinkOps.findLoop c a g rest := by
  rw [LinkOps.findLoop]
  refine if_congr ?_ rfl rfl
  simp only [Bool.and_eq_true, Bool.not_eq_true', beq_iff_eq, HalfLink]
  rw [← Bool.not_eq_true, available_not_inUse, not_not, controller_eq_iff]
  tauto

theorem findLoop_spec (c : Bool) (a : Address) (g : Group) (links : List LinkRecord) :
    (∃ pre l post, links = pre ++ l :: post ∧ HalfLink c a g l ∧ (∀ x ∈ pre, ¬ HalfLink c a g x)
      ∧ LinkOps.findLoop c a g links = (l, none))
    ∨ ((∀ x ∈ links, ¬ HalfLink c a g x) ∧ LinkOps.findLoop c a g links = (LinkRecord.zero, some .linkNotFound)) := by
  induction links with
  | nil => right; simp [LinkOps.findLoop]
  | cons l rest ih =>
    rw [findLoop_cons]
    by_cases h : HalfLink c a g l
    · left; exact ⟨[], l, rest, rfl, h, by simp, by rw [if_pos h]⟩
    · rw [if_neg h]
      rcases ih with ⟨pre, x, post, h1, h2, h3, h4⟩ | ⟨h1, h2⟩
      · left
        refine ⟨l :: pre, x, post, by rw [h1]; rfl, h2, ?_, h4⟩
        intro y hy
        rcases List.mem_cons.1 hy with rfl | hy
        · exact h
        · exact h3 y hy
      · right
        refine ⟨?_, h2⟩
        intro y hy
        rcases List.mem_cons.1 hy with rfl | hy
        · exact h
        · exact h1 y hy

/-- C74. If the database can be read, the first record that is in use and has the role, address and group is returned;
link-not-found is reported exactly when there is no such record. If it cannot be read, that error is reported. -/
theorem find_link_record {σ : Type} (d : Linkable σ) (c : Bool) (a : Address) (g : Group) (s s' : σ)
    (links : List LinkRecord) (err : Option Err) (h : d.links s = (s', links, err)) :
    (∀ e, err = some e → LinkOps.findLinkRecord d c a g s = (s', LinkRecord.zero, some e))
    ∧ (err = none →
      (∃ pre l post, links = pre ++ l :: post ∧ HalfLink c a g l ∧ (∀ x ∈ pre, ¬ HalfLink c a g x)
        ∧ LinkOps.findLinkRecord d c a g s = (s', l, none))
      ∨ ((∀ x ∈ links, ¬ HalfLink c a g x)
        ∧ LinkOps.findLinkRecord d c a g s = (s', LinkRecord.zero, some .linkNotFound))) := by
  constructor
  · rintro e rfl
    rw [LinkOps.findLinkRecord, h]
  · rintro rfl
    have hf : LinkOps.findLinkRecord d c a g s = (s', LinkOps.findLoop c a g links) := by
      rw [LinkOps.findLinkRecord, h]
    rw [hf]
    rcases findLoop_spec c a g links with ⟨pre, l, post, h1, h2, h3, h4⟩ | ⟨h1, h2⟩
    · left; exact ⟨pre, l, post, h1, h2, h3, by rw [h4]⟩
    · right; exact ⟨h1, by rw [h2]⟩

/-- A device that has just these links. -/
def fixedLinks (ls : List LinkRecord) : Linkable Unit :=
  ⟨0, fun s => (s, 0), fun s _ => (s, none), fun s _ => (s, none), fun s => (s, none), fun s => (s, ls, none),
   fun s _ => (s, none), fun s _ => (s, none), none⟩

/-- A deleted record, one of another group, one with the other role, and two that match. -/
example : (LinkOps.findLinkRecord (fixedLinks [⟨0x62, 1, 5, 0, 0, 0⟩, ⟨0xe2, 2, 5, 0, 0, 0⟩, ⟨0xa2, 1, 5, 0, 0, 0⟩,
    ⟨0xe2, 1, 5, 7, 0, 0⟩, ⟨0xe2, 1, 5, 8, 0, 0⟩]) true 5 1 ()).2 = (⟨0xe2, 1, 5, 7, 0, 0⟩, none) := by decide +kernel

/-! ### C75 -/

theorem mem_dupInner (eq : LinkRecord → LinkRecord → Bool) (l1 : LinkRecord) (rest : List LinkRecord) (x : LinkRecord) :
    x ∈ LinkOps.dupInner eq l1 rest ↔ x ∈ rest ∧ eq l1 x = true := by
  induction rest with
  | nil => simp [LinkOps.dupInner]
  | cons l2 rest ih =>
    rw [LinkOps.dupInner]
    split_ifs with h <;> simp only [List.mem_cons, ih]
    · constructor
      · rintro (rfl | ⟨h1, h2⟩)
        · exact ⟨Or.inl rfl, h⟩
        · exact ⟨Or.inr h1, h2⟩
      · rintro ⟨rfl | h1, h2⟩
        · exact Or.inl rfl
        · exact Or.inr ⟨h1, h2⟩
    · constructor
      · rintro ⟨h1, h2⟩; exact ⟨Or.inr h1, h2⟩
      · rintro ⟨rfl | h1, h2⟩
        · exact absurd h2 h
        · exact ⟨h1, h2⟩

theorem mem_dupOuter (eq : LinkRecord → LinkRecord → Bool) (links : List LinkRecord) (x : LinkRecord) :
    x ∈ LinkOps.dupOuter eq links ↔ ∃ (i j : Nat) (y : LinkRecord), i < j ∧ links[i]? = some y ∧ links[j]? = some x ∧ eq y x = true := by
  induction links with
  | nil => simp [LinkOps.dupOuter]
  | cons l rest ih =>
    rw [LinkOps.dupOuter, List.mem_append, mem_dupInner, ih]
    constructor
    · rintro (⟨h1, h2⟩ | ⟨i, j, y, h1, h2, h3, h4⟩)
      · obtain ⟨j, hj⟩ := List.mem_iff_getElem?.1 h1
        exact ⟨0, j + 1, l, by omega, by simp, by simpa using hj, h2⟩
      · exact ⟨i + 1, j + 1, y, by omega, by simpa using h2, by simpa using h3, h4⟩
    · rintro ⟨i, j, y, h1, h2, h3, h4⟩
      obtain ⟨j, rfl⟩ : ∃ k, j = k + 1 := ⟨j - 1, by omega⟩
      rw [List.getElem?_cons_succ] at h3
      rcases i with _ | i
      · rw [List.getElem?_cons_zero, Option.some.injEq] at h2
        subst h2
        exact Or.inl ⟨List.mem_of_getElem? h3, h4⟩
      · rw [List.getElem?_cons_succ] at h2
        exact Or.inr ⟨i, j, y, by omega, h2, h3, h4⟩

/-- The number of pairs of positions `i < j` whose records are equal under `eq`. -/
def Spec.equalPairs (eq : LinkRecord → LinkRecord → Bool) (links : List LinkRecord) : Nat :=
  ((List.range links.length).map fun j => (links.take j).countP fun y => eq y (links.getD j LinkRecord.zero)).sum

/-- C75. A record is returned exactly when an earlier record of the database is equal to it; the result is empty
exactly when no two records are; an error of reading the database is passed on, with no records. -/
theorem find_duplicates {σ : Type} (d : Linkable σ) (eq : LinkRecord → LinkRecord → Bool) (s s' : σ)
    (links : List LinkRecord) (err : Option Err) (h : d.links s = (s', links, err)) :
    ∃ dups, LinkOps.findDuplicateLinks d eq s = (s', dups, err)
      ∧ (err = none → ∀ x, x ∈ dups ↔ ∃ (i j : Nat) (y : LinkRecord), i < j ∧ links[i]? = some y ∧ links[j]? = some x ∧ eq y x = true)
      ∧ (err ≠ none → dups = []) := by
  rcases err with _ | e
  · exact ⟨LinkOps.dupOuter eq links, by rw [LinkOps.findDuplicateLinks, h], fun _ x => mem_dupOuter eq links x, by simp⟩
  · exact ⟨[], by rw [LinkOps.findDuplicateLinks, h], by simp, fun _ => rfl⟩

theorem dupInner_length (eq : LinkRecord → LinkRecord → Bool) (l1 : LinkRecord) (rest : List LinkRecord) :
    (LinkOps.dupInner eq l1 rest).length = rest.countP (eq l1) := by
  induction rest with
  | nil => rfl
  | cons l2 rest ih =>
    rw [LinkOps.dupInner, List.countP_cons]
    split_ifs with h <;> simp [ih]

theorem sum_indicator (p : LinkRecord → Bool) (rest : List LinkRecord) :
    ((List.range rest.length).map fun j => if p (rest.getD j LinkRecord.zero) = true then 1 else 0).sum = rest.countP p := by
  induction rest with
  | nil => rfl
  | cons x rest ih =>
    rw [List.length_cons, List.range_succ_eq_map, List.map_cons, List.sum_cons, List.map_map, List.countP_cons, ← ih]
    simp only [Function.comp_def, List.getD_cons_zero, List.getD_cons_succ]
    omega

/-- The result of a search for duplicates has one entry for every pair of equal records: a record with three equal
ones before it is returned three times. -/
theorem find_duplicates_count {σ : Type} (d : Linkable σ) (eq : LinkRecord → LinkRecord → Bool) (s s' : σ)
    (links : List LinkRecord) (h : d.links s = (s', links, none)) :
    (LinkOps.findDuplicateLinks d eq s).2.1.length = equalPairs eq links := by
  rw [LinkOps.findDuplicateLinks, h]
  show (LinkOps.dupOuter eq links).length = equalPairs eq links
  clear h
  induction links with
  | nil => rfl
  | cons l rest ih =>
    rw [LinkOps.dupOuter, List.length_append, ih, dupInner_length, equalPairs, equalPairs, List.length_cons,
      List.range_succ_eq_map, List.map_cons, List.sum_cons, List.map_map, ← sum_indicator]
    simp only [Function.comp_def, List.getD_cons_succ, List.take_succ_cons, List.countP_cons, List.take_zero,
      List.countP_nil, Nat.zero_add]
    have hsum : ∀ (f g : Nat → Nat) (l : List Nat), (l.map fun j => f j + g j).sum = (l.map f).sum + (l.map g).sum := by
      intro f g l
      induction l with
      | nil => rfl
      | cons x l ih => simp only [List.map_cons, List.sum_cons, ih]; omega
    rw [hsum]
    omega

example : (LinkOps.findDuplicateLinks (fixedLinks [⟨0xe2, 1, 5, 0, 0, 0⟩, ⟨0xa2, 1, 5, 0, 0, 0⟩, ⟨0xe2, 1, 5, 7, 0, 0⟩,
    ⟨0xe2, 1, 5, 8, 0, 0⟩]) LinkRecord.equal ()).2 =
    ([⟨0xe2, 1, 5, 7, 0, 0⟩, ⟨0xe2, 1, 5, 8, 0, 0⟩, ⟨0xe2, 1, 5, 8, 0, 0⟩], none) := by decide +kernel

/-! ### C76 -/

/-- The different members of a list in order of first appearance. -/
def Spec.firsts : List (BitVec 32) → List (BitVec 32)
  | [] => []
  | a :: rest => a :: (firsts rest).filter (· ≠ a)

/-- The substitute for the `k`-th address: the `k`-th replacement, or a random number modulo 2^24. -/
def Spec.substitute (repl : List (BitVec 32)) (rand : Nat → BitVec 32) (k : Nat) : BitVec 32 :=
  if k < repl.length then repl.getD k 0 else BitVec.ofNat 32 ((rand (k - repl.length)).toNat % 2 ^ 24)

theorem mask24 (x : BitVec 32) : 0x00ffffff#32 &&& x = BitVec.ofNat 32 (x.toNat % 2 ^ 24) := by
  apply BitVec.eq_of_toNat_eq
  rw [BitVec.toNat_and, BitVec.toNat_ofNat, BitVec.toNat_ofNat, Nat.and_comm]
  rw [show 0x00ffffff % 2 ^ 32 = 2 ^ 24 - 1 by norm_num, Nat.and_two_pow_sub_one_eq_mod, Nat.mod_eq_of_lt (a := x.toNat % 2 ^ 24)]
  omega

/-- The unknown addresses in order of first appearance. -/
def newAddrs (index : List (Address × Address)) (links : List LinkRecord) : List Address :=
  (firsts (links.map (·.address))).filter fun a => (index.lookup a).isNone

theorem anonLoop_spec (index : List (Address × Address)) (repl : List Address) (rand : Nat → BitVec 32)
    (links : List LinkRecord) :
    LinkOps.anonLoop index repl rand links = links.map fun l =>
      { l with address := (index.lookup l.address).getD (substitute repl rand ((newAddrs index links).idxOf l.address)) } := by
  induction links generalizing index repl rand with
  | nil => rfl
  | cons l rest ih =>
    rw [LinkOps.anonLoop.eq_def]
    dsimp only
    rcases hl : index.lookup l.address with _ | a
    · -- a new address
      have hnew : newAddrs index (l :: rest) = l.address :: ((newAddrs index rest).filter (· ≠ l.address)) := by
        rw [newAddrs, List.map_cons, firsts, List.filter_cons_of_pos (by rw [hl]; rfl), newAddrs, List.filter_filter,
          List.filter_filter]
        congr 1
        apply List.filter_congr
        intro x _
        exact Bool.and_comm _ _
      have hold : ∀ v, newAddrs ((l.address, v) :: index) rest = (newAddrs index rest).filter (· ≠ l.address) := by
        intro v
        rw [newAddrs, newAddrs, List.filter_filter]
        apply List.filter_congr
        intro x _
        rw [List.lookup_cons]
        by_cases hx : x = l.address
        · simp [hx]
        · have hb : (x == l.address) = false := by simpa using hx
          simp [hx, hb]
      have key : ∀ (v : Address) (repl' : List Address) (rand' : Nat → BitVec 32), v = substitute repl rand 0 →
          (∀ k, substitute repl' rand' k = substitute repl rand (k + 1)) →
          ({ l with address := v } :: LinkOps.anonLoop ((l.address, v) :: index) repl' rand' rest)
            = (l :: rest).map fun x =>
                { x with address := (index.lookup x.address).getD (substitute repl rand ((newAddrs index (l :: rest)).idxOf x.address)) } := by
        intro v repl' rand' hv hs
        rw [ih, List.map_cons, hnew, hl, Option.getD_none, List.idxOf_cons_self, ← hv, hold]
        congr 1
        apply List.map_congr_left
        intro x _
        rw [List.lookup_cons]
        by_cases hx : x.address = l.address
        · simp [hx, hl, hv]
        · have hb : (x.address == l.address) = false := by simpa using hx
          have hb' : (l.address == x.address) = false := by simpa using Ne.symm hx
          rw [hb, hs, List.idxOf_cons, hb']
          rfl
      rcases repl with _ | ⟨r, repl⟩
      · refine key _ _ _ ?_ ?_
        · rw [mask24, substitute, if_neg (by simp)]; rfl
        · intro k; simp [substitute]
      · refine key _ _ _ ?_ ?_
        · simp [substitute]
        · intro k; simp [substitute]
    · have hold : newAddrs index (l :: rest) = newAddrs index rest := by
        rw [newAddrs, List.map_cons, firsts, List.filter_cons_of_neg (by rw [hl]; simp), newAddrs, List.filter_filter]
        apply List.filter_congr
        intro x _
        by_cases hx : x = l.address
        · simp [hx, hl]
        · simp [hx]
      dsimp only
      rw [ih, List.map_cons, hold, hl]
      rfl

/-- C76. Anonymizing replaces addresses by a function of the address and changes nothing else: same length, order, flags,
groups and data. The `k`-th different address becomes the `k`-th replacement; addresses for which there is no replacement
become random numbers below 2^24. -/
theorem anonymize_links (rand : Nat → BitVec 32) (links : List LinkRecord) (repl : List Address) :
    ∃ f : Address → Address, LinkOps.anonymize rand links repl = links.map (fun l => { l with address := f l.address })
      ∧ ∀ k a, (firsts (links.map (·.address)))[k]? = some a → f a = substitute repl rand k := by
  have hnd : ∀ l : List Address, (firsts l).Nodup := by
    intro l
    induction l with
    | nil => exact List.nodup_nil
    | cons a l ih =>
      rw [firsts, List.nodup_cons]
      exact ⟨by simp, ih.filter _⟩
  have hn : newAddrs [] links = firsts (links.map (·.address)) := by simp [newAddrs]
  refine ⟨fun a => substitute repl rand ((firsts (links.map (·.address))).idxOf a), ?_, ?_⟩
  · rw [LinkOps.anonymize, anonLoop_spec, hn]
    rfl
  · intro k a hk
    obtain ⟨hlt, rfl⟩ := List.getElem?_eq_some_iff.1 hk
    show substitute repl rand _ = _
    rw [(hnd _).idxOf_getElem]

theorem mem_firsts (l : List Address) (a : Address) : a ∈ firsts l ↔ a ∈ l := by
  induction l with
  | nil => simp [firsts]
  | cons b l ih =>
    rw [firsts, List.mem_cons, List.mem_filter, ih, List.mem_cons]
    by_cases h : a = b <;> simp [h]

/-- With enough replacements, all different, different addresses stay different. -/
theorem anonymize_distinct (rand : Nat → BitVec 32) (links : List LinkRecord) (repl : List Address)
    (hnd : repl.Nodup) (hlen : (firsts (links.map (·.address))).length ≤ repl.length) (i j : Nat) (a b a' b' : LinkRecord)
    (ha : links[i]? = some a) (hb : links[j]? = some b)
    (ha' : (LinkOps.anonymize rand links repl)[i]? = some a') (hb' : (LinkOps.anonymize rand links repl)[j]? = some b') :
    a'.address = b'.address ↔ a.address = b.address := by
  obtain ⟨f, h1, h2⟩ := anonymize_links rand links repl
  rw [h1, List.getElem?_map] at ha' hb'
  rw [ha] at ha'
  rw [hb] at hb'
  simp only [Option.map_some, Option.some.injEq] at ha' hb'
  subst ha'; subst hb'
  show f a.address = f b.address ↔ _
  constructor
  · intro h
    obtain ⟨k, hk⟩ := List.mem_iff_getElem?.1 ((mem_firsts _ _).2 (List.mem_map_of_mem (f := (·.address)) (List.mem_of_getElem? ha)))
    obtain ⟨m, hm⟩ := List.mem_iff_getElem?.1 ((mem_firsts _ _).2 (List.mem_map_of_mem (f := (·.address)) (List.mem_of_getElem? hb)))
    have hk' : k < repl.length := lt_of_lt_of_le (List.getElem?_eq_some_iff.1 hk).1 hlen
    have hm' : m < repl.length := lt_of_lt_of_le (List.getElem?_eq_some_iff.1 hm).1 hlen
    rw [h2 k _ hk, h2 m _ hm, substitute, substitute, if_pos hk', if_pos hm'] at h
    simp only [List.getD_eq_getElem?_getD, List.getElem?_eq_getElem hk', List.getElem?_eq_getElem hm', Option.getD_some] at h
    rw [List.getElem_inj hnd] at h
    rw [h, hm] at hk
    exact (Option.some.inj hk).symm
  · intro h; rw [h]

example : LinkOps.anonymize (fun n => BitVec.ofNat 32 (0x7f000000 + n)) [⟨0xe2, 1, 5, 1, 2, 3⟩, ⟨0xa2, 1, 5, 0, 0, 0⟩, ⟨0xe2, 1, 6, 7, 0, 0⟩,
    ⟨0xe2, 1, 7, 8, 0, 0⟩] [100, 101] =
    [⟨0xe2, 1, 100, 1, 2, 3⟩, ⟨0xa2, 1, 100, 0, 0, 0⟩, ⟨0xe2, 1, 101, 7, 0, 0⟩, ⟨0xe2, 1, 0, 8, 0, 0⟩] := by decide +kernel

/-! ### C77, C78 -/

/-- The same record with the other role: bit 6 of the flags flipped. -/
def Spec.mirrored (l : LinkRecord) : LinkRecord := { l with flags := l.flags ^^^ 64#8 }

theorem flipRole_mirrored (l : LinkRecord) : LinkOps.flipRole l = mirrored l := by
  have : ∀ f : RecordControlFlags, (if f.controller then f.setResponder else f.setController) = f ^^^ 64#8 := by
    decide +kernel
  rw [LinkOps.flipRole, this, mirrored]

theorem mirrored_role (l : LinkRecord) : (controllerBit (mirrored l).flags ↔ ¬ controllerBit l.flags)
    ∧ (inUseBit (mirrored l).flags ↔ inUseBit l.flags) := by
  have : ∀ f : RecordControlFlags, (controllerBit (f ^^^ 64#8) ↔ ¬ controllerBit f) ∧ (inUseBit (f ^^^ 64#8) ↔ inUseBit f) := by
    decide +kernel
  exact this l.flags

theorem counterpart_iff (a : Address) (l : LinkRecord) (rest : List LinkRecord) :
    LinkOps.counterpart a l rest = true ↔
      ∃ x ∈ rest, x.address = a ∧ x.group = l.group ∧ (controllerBit x.flags ↔ ¬ controllerBit l.flags) := by
  induction rest with
  | nil => simp [LinkOps.counterpart]
  | cons y rest ih =>
    have hy : (y.address = a ∧ l.group = y.group ∧ l.flags.controller = y.flags.responder) ↔
        (y.address = a ∧ y.group = l.group ∧ (controllerBit y.flags ↔ ¬ controllerBit l.flags)) := by
      rw [controller_responder_iff, eq_comm (a := l.group)]; tauto
    rw [LinkOps.counterpart]
    simp only [List.mem_cons, exists_eq_or_imp, ← hy, ← ih]
    split_ifs with h
    · simp [h]
    · simp [h]

theorem missLoop_processed (a : Address) (processed links : _) (h : a ∈ processed) : LinkOps.missLoop a processed links = [] := by
  induction links generalizing processed with
  | nil => rfl
  | cons l rest ih =>
    rw [LinkOps.missLoop]
    split_ifs with h1 h2
    · exact ih _ h
    · exact ih _ (List.mem_cons_of_mem _ h)
    · push Not at h1
      exact absurd (h1.2.1 ▸ h) h1.2.2

/-- What is reported for one address. -/
def Spec.ReportedFor (links : List LinkRecord) (a : BitVec 32) (m : LinkRecord) : Prop :=
  ∃ pre l post, links = pre ++ l :: post ∧ inUseBit l.flags ∧ l.address = a
    ∧ (∀ x ∈ pre, ¬ (inUseBit x.flags ∧ x.address = a))
    ∧ (∀ x ∈ post, ¬ (x.address = a ∧ x.group = l.group ∧ (controllerBit x.flags ↔ ¬ controllerBit l.flags)))
    ∧ m = mirrored l

theorem mem_missLoop (a : Address) (links : List LinkRecord) (m : LinkRecord) :
    m ∈ LinkOps.missLoop a [] links ↔ ReportedFor links a m := by
  induction links with
  | nil => simp [LinkOps.missLoop, ReportedFor]
  | cons l rest ih =>
    rw [LinkOps.missLoop]
    by_cases h : inUseBit l.flags ∧ l.address = a
    · have h1 : ¬ (l.flags.available = true ∨ l.address ≠ a ∨ l.address ∈ ([] : List Address)) := by
        rw [available_not_inUse]; simp [h]
      rw [if_neg h1, missLoop_processed _ _ _ (by simp [h.2]), flipRole_mirrored]
      have hrep : ReportedFor (l :: rest) a m ↔ LinkOps.counterpart a l rest = false ∧ m = mirrored l := by
        rw [← Bool.not_eq_true, counterpart_iff]
        constructor
        · rintro ⟨pre, x, post, e1, e2, e3, e4, e5, e6⟩
          rcases pre with _ | ⟨y, pre⟩
          · rw [List.nil_append, List.cons.injEq] at e1
            obtain ⟨rfl, rfl⟩ := e1
            exact ⟨fun ⟨x, hx, hx'⟩ => e5 x hx hx', e6⟩
          · rw [List.cons_append, List.cons.injEq] at e1
            obtain ⟨rfl, -⟩ := e1
            exact absurd h (e4 _ (by simp))
        · rintro ⟨h1, h2⟩
          exact ⟨[], l, rest, rfl, h.1, h.2, by simp, fun x hx hx' => h1 ⟨x, hx, hx'⟩, h2⟩
      rw [hrep]
      rcases hc : LinkOps.counterpart a l rest <;> simp
    · have h1 : l.flags.available = true ∨ l.address ≠ a ∨ l.address ∈ ([] : List Address) := by
        rw [available_not_inUse]; tauto
      rw [if_pos h1, ih]
      constructor
      · rintro ⟨pre, x, post, e1, e2, e3, e4, e5, e6⟩
        refine ⟨l :: pre, x, post, by rw [e1]; rfl, e2, e3, ?_, e5, e6⟩
        intro y hy
        rcases List.mem_cons.1 hy with rfl | hy
        · exact h
        · exact e4 y hy
      · rintro ⟨pre, x, post, e1, e2, e3, e4, e5, e6⟩
        rcases pre with _ | ⟨y, pre⟩
        · rw [List.nil_append, List.cons.injEq] at e1
          obtain ⟨rfl, rfl⟩ := e1
          exact absurd ⟨e2, e3⟩ h
        · rw [List.cons_append, List.cons.injEq] at e1
          obtain ⟨rfl, e1⟩ := e1
          exact ⟨pre, x, post, e1, e2, e3, fun z hz => e4 z (List.mem_cons_of_mem _ hz), e5, e6⟩

theorem mem_missing (links : List LinkRecord) (addrs : List Address) (m : LinkRecord) :
    m ∈ LinkOps.missingCrosslinks links addrs ↔ ∃ a ∈ addrs, ReportedFor links a m := by
  induction addrs with
  | nil => simp [LinkOps.missingCrosslinks]
  | cons a rest ih => rw [LinkOps.missingCrosslinks, List.mem_append, ih, mem_missLoop]; simp

/-- C77. Every reported record is an in-use record of the list, for one of the given addresses, with the role flipped; and the
list has no in-use record with the reported record's role, address and group. -/
theorem missing_crosslinks_sound (links : List LinkRecord) (addrs : List Address) (m : LinkRecord)
    (h : m ∈ LinkOps.missingCrosslinks links addrs) :
    m.address ∈ addrs ∧ (∃ l ∈ links, inUseBit l.flags ∧ m = mirrored l)
      ∧ ∀ x ∈ links, ¬ HalfLink (decide (controllerBit m.flags)) m.address m.group x := by
  obtain ⟨a, ha, pre, l, post, e1, e2, e3, e4, e5, e6⟩ := (mem_missing links addrs m).1 h
  have hm := mirrored_role l
  subst e6
  refine ⟨by simpa [mirrored, e3] using ha, ⟨l, by simp [e1], e2, rfl⟩, ?_⟩
  rintro x hx ⟨h1, h2, h3, h4⟩
  have h3' : x.address = a := by rw [h3]; exact e3
  have h4' : x.group = l.group := h4
  rw [decide_eq_true_iff, hm.1] at h2
  rw [e1, List.mem_append, List.mem_cons] at hx
  rcases hx with hx | rfl | hx
  · exact e4 x hx ⟨h1, h3'⟩
  · tauto
  · exact e5 x hx ⟨h3', h4', h2⟩

/-- C78, what is proved: exactly what is reported. For each given address only the first in-use record for it is looked
at, and it is reported unless a later record, in use or not, has the same address and group and the other role. Missing from
the full statement: further in-use records for the address. -/
theorem missing_crosslinks_partial (links : List LinkRecord) (addrs : List Address) (m : LinkRecord) :
    m ∈ LinkOps.missingCrosslinks links addrs ↔ ∃ a ∈ addrs, ∃ pre l post, links = pre ++ l :: post
      ∧ inUseBit l.flags ∧ l.address = a ∧ (∀ x ∈ pre, ¬ (inUseBit x.flags ∧ x.address = a))
      ∧ (∀ x ∈ post, ¬ (x.address = a ∧ x.group = l.group ∧ (controllerBit x.flags ↔ ¬ controllerBit l.flags)))
      ∧ m = mirrored l := mem_missing links addrs m

/-- Complete where no record is deleted and each address has one group: then every record without its counterpart leads to
a report with the counterpart's role, address and group. -/
theorem missing_crosslinks_complete_partial (links : List LinkRecord) (addrs : List Address) (l : LinkRecord) (hl : l ∈ links)
    (ha : l.address ∈ addrs) (huse : ∀ x ∈ links, inUseBit x.flags)
    (hgroup : ∀ x ∈ links, x.address = l.address → x.group = l.group)
    (hmiss : ∀ x ∈ links, ¬ HalfLink (decide (¬ controllerBit l.flags)) l.address l.group x) :
    ∃ m ∈ LinkOps.missingCrosslinks links addrs, HalfLink (decide (¬ controllerBit l.flags)) l.address l.group m := by
  -- the first record for the address
  have hfirst : ∀ ls : List LinkRecord, (∃ x ∈ ls, x.address = l.address) →
      ∃ pre x post, ls = pre ++ x :: post ∧ x.address = l.address ∧ ∀ y ∈ pre, y.address ≠ l.address := by
    intro ls
    induction ls with
    | nil => simp
    | cons y ls ih =>
      rintro ⟨x, hx, hxa⟩
      by_cases hy : y.address = l.address
      · exact ⟨[], y, ls, rfl, hy, by simp⟩
      · rcases List.mem_cons.1 hx with rfl | hx
        · exact absurd hxa hy
        · obtain ⟨pre, z, post, e1, e2, e3⟩ := ih ⟨x, hx, hxa⟩
          refine ⟨y :: pre, z, post, by rw [e1]; rfl, e2, ?_⟩
          intro w hw
          rcases List.mem_cons.1 hw with rfl | hw
          · exact hy
          · exact e3 w hw
  obtain ⟨pre, x, post, e1, e2, e3⟩ := hfirst links ⟨l, hl, rfl⟩
  have hx : x ∈ links := by simp [e1]
  have hrole : ∀ y ∈ links, y.address = l.address → (controllerBit y.flags ↔ controllerBit l.flags) := by
    intro y hy hya
    have := hmiss y hy
    rw [HalfLink, decide_eq_true_iff] at this
    have hg := hgroup y hy hya
    have hu := huse y hy
    tauto
  refine ⟨mirrored x, (mem_missing _ _ _).2 ⟨l.address, ha, pre, x, post, e1, huse x hx, e2,
    fun y hy h => e3 y hy h.2, ?_, rfl⟩, ?_⟩
  · rintro y hy ⟨h1, h2, h3⟩
    have hy' : y ∈ links := by rw [e1]; simp [hy]
    have := hrole y hy' h1
    have := hrole x hx e2
    tauto
  · refine ⟨(mirrored_role x).2.2 (huse x hx), ?_, e2, hgroup x hx e2⟩
    rw [decide_eq_true_iff, (mirrored_role x).1, hrole x hx e2]

/-- C78 in full is false of the code: with two groups for an address only the first one is examined. -/
theorem missing_crosslinks_complete_refuted :
    ¬ ∀ (links : List LinkRecord) (addrs : List Address) (l : LinkRecord), l ∈ links → l.address ∈ addrs → inUseBit l.flags →
      (∀ x ∈ links, ¬ HalfLink (decide (¬ controllerBit l.flags)) l.address l.group x) →
      ∃ m ∈ LinkOps.missingCrosslinks links addrs, HalfLink (decide (¬ controllerBit l.flags)) l.address l.group m := by
  intro h
  have := h [⟨0xe2, 1, 5, 0, 0, 0⟩, ⟨0xa2, 1, 5, 0, 0, 0⟩, ⟨0xe2, 2, 5, 0, 0, 0⟩] [5] ⟨0xe2, 2, 5, 0, 0, 0⟩ (by simp) (by simp)
    (by decide) (by decide +kernel)
  revert this
  decide +kernel

/-- Nor does it hold for one group: a deleted counterpart counts as present. -/
theorem missing_crosslinks_deleted_refuted :
    ¬ ∀ (links : List LinkRecord) (l : LinkRecord), l ∈ links → inUseBit l.flags →
      (∀ x ∈ links, x.group = l.group) →
      (∀ x ∈ links, ¬ HalfLink (decide (¬ controllerBit l.flags)) l.address l.group x) →
      ∃ m ∈ LinkOps.missingCrosslinks links [l.address], HalfLink (decide (¬ controllerBit l.flags)) l.address l.group m := by
  intro h
  have := h [⟨0xe2, 1, 5, 0, 0, 0⟩, ⟨0x22, 1, 5, 0, 0, 0⟩] ⟨0xe2, 1, 5, 0, 0, 0⟩ (by simp) (by decide) (by decide) (by decide +kernel)
  revert this
  decide +kernel

example : LinkOps.missingCrosslinks [⟨0x22, 1, 5, 0, 0, 0⟩, ⟨0xe2, 1, 5, 1, 2, 3⟩, ⟨0xa2, 1, 6, 0, 0, 0⟩, ⟨0xe2, 1, 6, 0, 0, 0⟩] [6, 5]
    = [⟨0xa2, 1, 5, 1, 2, 3⟩] := by decide +kernel

end Insteon
