import Verif.Props.LinkSession

/-
C79, C81-C83 on a network of devices with databases and linking sessions: what the databases hold afterwards.
-/

namespace Insteon
open Spec

/-- A record (in use or not) with this role, group and 24-bit address. -/
def Spec.Keyed (c : Bool) (a : BitVec 32) (g : BitVec 8) (x : LinkRecord) : Prop :=
  (controllerBit x.flags ↔ c = true) ∧ x.group = g ∧ x.address.toNat % 2 ^ 24 = a.toNat % 2 ^ 24

/-- The errors that are still to come. -/
def Spec.errors : List CallFate → List Err
  | [] => []
  | .done :: fs => errors fs
  | .lost e :: fs => e :: errors fs
  | .unconfirmed e :: fs => e :: errors fs

theorem errors_suffix {a b : List CallFate} (h : a <:+ b) : ∀ e ∈ errors a, e ∈ errors b := by
  obtain ⟨t, rfl⟩ := h
  intro e he
  induction t with
  | nil => exact he
  | cons x t ih => rcases x with _ | _ | _ <;> simp [errors, ih]

theorem freed_not_inUse (l : LinkRecord) : ¬ inUseBit (freed l).flags := by
  have : ∀ f : RecordControlFlags, ¬ inUseBit (BitVec.ofNat 8 (f.toNat % 128)) := by decide +kernel
  exact this l.flags

theorem freed_role (l : LinkRecord) : controllerBit (freed l).flags ↔ controllerBit l.flags := by
  have : ∀ f : RecordControlFlags, controllerBit (BitVec.ofNat 8 (f.toNat % 128)) ↔ controllerBit f := by decide +kernel
  exact this l.flags

/-- A call either takes effect or not; its error is one of those to come. -/
theorem call_cases (n : Net) (f : Net → Net) :
    ∃ fs, fs <:+ n.fates ∧ ((n.call f).1 = f { n with fates := fs } ∨ (n.call f).1 = { n with fates := fs } ∧ (n.call f).2 ≠ none)
      ∧ ∀ e, (n.call f).2 = some e → e ∈ errors n.fates := by
  rcases hf : n.fates with _ | ⟨_ | e | e, fs⟩
  · refine ⟨[], List.suffix_refl _, Or.inl ?_, ?_⟩ <;> simp [Net.call, hf]
    cases n; simp_all
  · exact ⟨fs, List.suffix_cons _ _, Or.inl (by simp [Net.call, hf]), by simp [Net.call, hf]⟩
  · exact ⟨fs, List.suffix_cons _ _, Or.inr (by simp [Net.call, hf]), by simp [Net.call, hf, errors]⟩
  · exact ⟨fs, List.suffix_cons _ _, Or.inl (by simp [Net.call, hf]), by simp [Net.call, hf, errors]⟩

/-- Same databases and mode, later moment. -/
def Later (n n' : Net) : Prop := n'.db = n.db ∧ n'.mode = n.mode ∧ n'.fates <:+ n.fates

theorem links_net (nd : NetDef) (d : Nat) (n : Net) :
    ∃ n', Later n n' ∧ (((netDevice nd d).links n = (n', n.db d, none))
      ∨ ∃ e ∈ errors n.fates, (netDevice nd d).links n = (n', [], some e)) := by
  rcases hf : n.fates with _ | ⟨_ | e | e, fs⟩
  · exact ⟨n, ⟨rfl, rfl, List.suffix_refl _⟩, Or.inl (by simp [netDevice, Net.call, hf])⟩
  · exact ⟨{ n with fates := fs }, ⟨rfl, rfl, by simp [hf]⟩, Or.inl (by simp [netDevice, Net.call, hf])⟩
  · exact ⟨{ n with fates := fs }, ⟨rfl, rfl, by simp [hf]⟩, Or.inr ⟨e, by simp [errors], by simp [netDevice, Net.call, hf]⟩⟩
  · exact ⟨{ n with fates := fs }, ⟨rfl, rfl, by simp [hf]⟩, Or.inr ⟨e, by simp [errors], by simp [netDevice, Net.call, hf]⟩⟩

/-- Finding a record in the network. -/
theorem find_net (nd : NetDef) (d : Nat) (c : Bool) (a : Address) (g : Group) (n : Net) :
    ∃ n' l err, LinkOps.findLinkRecord (netDevice nd d) c a g n = (n', l, err) ∧ Later n n'
      ∧ (err = none → l ∈ n.db d ∧ HalfLink c a g l)
      ∧ (∀ e, err = some e → e = .linkNotFound ∨ e ∈ errors n.fates) := by
  obtain ⟨n', hl, h | ⟨e, he, h⟩⟩ := links_net nd d n
  · have hf : LinkOps.findLinkRecord (netDevice nd d) c a g n = (n', LinkOps.findLoop c a g (n.db d)) := by
      rw [LinkOps.findLinkRecord, h]
    rcases findLoop_spec c a g (n.db d) with ⟨pre, l, post, h1, h2, -, h4⟩ | ⟨-, h2⟩
    · exact ⟨n', l, none, by rw [hf, h4], hl, fun _ => ⟨by simp [h1], h2⟩, by simp⟩
    · exact ⟨n', _, _, by rw [hf, h2], hl, by simp, fun e he => Or.inl (by simpa using he.symm)⟩
  · exact ⟨n', LinkRecord.zero, some e, by rw [LinkOps.findLinkRecord, h], hl, by simp, fun x hx => Or.inr (by simp at hx; exact hx ▸ he)⟩

/-! ### Removing -/

/-- Single records written back freed, or not. -/
theorem removeWrite_net (d : Nat) (remove : List LinkRecord) (links : List LinkRecord) (i : Nat) (n : Net) :
    let n' := LinkOps.removeWrite (fun (n : Net) (i : Int) l => n.call fun n => n.setDb d ((n.db d).set i.toNat l)) remove i links n
    n'.mode = n.mode ∧ n'.fates <:+ n.fates ∧ (∀ x, x ≠ d → n'.db x = n.db x)
      ∧ (n'.db d).length = (n.db d).length
      ∧ ∀ j, (n'.db d)[j]? = (n.db d)[j]?
        ∨ ∃ k l, j = i + k ∧ links[k]? = some l ∧ Listed remove l ∧ (n'.db d)[j]? = some (freed l) := by
  induction links generalizing i n with
  | nil => exact ⟨rfl, List.suffix_refl _, fun _ _ => rfl, rfl, fun _ => Or.inl rfl⟩
  | cons l rest ih =>
    rw [LinkOps.removeWrite]
    by_cases hl : Listed remove l
    · rw [if_pos ((listed_iff _ _).2 hl), freed_eq]
      set n1 := (n.call fun n => n.setDb d ((n.db d).set (i : Int).toNat (freed l))).1 with hn1
      have h1 : n1.mode = n.mode ∧ n1.fates <:+ n.fates ∧ (∀ x, x ≠ d → n1.db x = n.db x)
          ∧ (n1.db d = n.db d ∨ n1.db d = (n.db d).set i (freed l)) := by
        obtain ⟨fs, hfs, h | ⟨h, -⟩, -⟩ := call_cases n fun n => n.setDb d ((n.db d).set (i : Int).toNat (freed l))
        · rw [hn1, h]
          exact ⟨rfl, hfs, fun x hx => by simp [Net.setDb, hx], Or.inr (by simp [Net.setDb])⟩
        · rw [hn1, h]
          exact ⟨rfl, hfs, fun _ _ => rfl, Or.inl rfl⟩
      obtain ⟨a1, a2, a3, a4⟩ := h1
      obtain ⟨b1, b2, b3, b4, b5⟩ := ih (i + 1) n1
      refine ⟨b1.trans a1, b2.trans a2, fun x hx => (b3 x hx).trans (a3 x hx), ?_, ?_⟩
      · rw [b4]
        rcases a4 with a4 | a4 <;> rw [a4]
        simp
      · intro j
        rcases b5 j with h | ⟨k, x, h1, h2, h3, h4⟩
        · rw [h]
          rcases a4 with a4 | a4 <;> rw [a4]
          · exact Or.inl rfl
          · by_cases hj : j = i
            · subst hj
              by_cases hlen : j < (n.db d).length
              · refine Or.inr ⟨0, l, rfl, rfl, hl, ?_⟩
                simp [hlen]
              · left; rw [List.set_eq_of_length_le (by omega)]
            · left; rw [List.getElem?_set_ne (Ne.symm hj)]
        · exact Or.inr ⟨k + 1, x, by omega, by simpa using h2, h3, h4⟩
    · rw [if_neg (fun h => hl ((listed_iff _ _).1 h))]
      obtain ⟨b1, b2, b3, b4, b5⟩ := ih (i + 1) n
      refine ⟨b1, b2, b3, b4, fun j => ?_⟩
      rcases b5 j with h | ⟨k, x, h1, h2, h3, h4⟩
      · exact Or.inl h
      · exact Or.inr ⟨k + 1, x, by omega, by simpa using h2, h3, h4⟩

theorem mem_collect (remove db : List LinkRecord) (x : LinkRecord) (h : x ∈ LinkOps.removeCollect remove db) :
    ∃ y ∈ db, Listed remove y ∧ x = freed y := by
  rw [removeCollect_eq _ _ 0, List.mem_map] at h
  obtain ⟨p, hp, rfl⟩ := h
  rw [matching, List.mem_filter] at hp
  exact ⟨p.1, List.fst_mem_of_mem_zipIdx hp.1, by simpa using hp.2, rfl⟩

theorem sameKey_trans {a b c : LinkRecord} (h1 : SameKey a b) (h2 : SameKey b c) : SameKey a c :=
  ⟨h1.1.trans h2.1, h1.2.1.trans h2.2.1, h1.2.2.trans h2.2.2⟩

theorem sameKey_freed (y : LinkRecord) : SameKey (freed y) y := ⟨freed_role y, rfl, rfl⟩

theorem overlay_collect (remove db : List LinkRecord) :
    (∀ l ∈ overlay db (LinkOps.removeCollect remove db), inUseBit l.flags → l ∈ db)
    ∧ (∀ l ∈ db, ¬ Listed remove l → l ∈ overlay db (LinkOps.removeCollect remove db)) := by
  constructor
  · intro l hl hu
    rw [overlay, List.mem_map] at hl
    obtain ⟨y, hy, rfl⟩ := hl
    rcases hf : (LinkOps.removeCollect remove db).find? fun x => SameKey y x with _ | x
    · simpa [hf] using hy
    · rw [hf, Option.getD_some] at hu
      obtain ⟨z, -, -, rfl⟩ := mem_collect remove db x (List.mem_of_find?_eq_some hf)
      exact absurd hu (freed_not_inUse z)
  · intro l hl hn
    rw [overlay, List.mem_map]
    refine ⟨l, hl, ?_⟩
    rcases hf : (LinkOps.removeCollect remove db).find? fun x => SameKey l x with _ | x
    · rfl
    · have hs : SameKey l x := by simpa using List.find?_some hf
      obtain ⟨z, -, ⟨w, hw, hzw⟩, rfl⟩ := mem_collect remove db x (List.mem_of_find?_eq_some hf)
      exact absurd ⟨w, hw, sameKey_trans hs (sameKey_trans (sameKey_freed z) hzw)⟩ hn

/-- Whatever happens to the calls, removing links of a device touches no other device, adds no in-use record and takes away no
record other than the listed ones. -/
theorem remove_links_others (nd : NetDef) (d : Nat) (remove : List LinkRecord) (n n' : Net) (err : Option Err)
    (h : LinkOps.removeLinks (netDevice nd d) remove n = (n', err)) :
    n'.mode = n.mode ∧ n'.fates <:+ n.fates ∧ (∀ e, err = some e → e ∈ errors n.fates) ∧ (∀ x, x ≠ d → n'.db x = n.db x)
      ∧ (∀ l ∈ n'.db d, inUseBit l.flags → l ∈ n.db d)
      ∧ (∀ l ∈ n.db d, ¬ Listed remove l → l ∈ n'.db d) := by
  obtain ⟨n1, ⟨l1, l2, l3⟩, hl | ⟨e, he, hl⟩⟩ := links_net nd d n
  · rw [LinkOps.removeLinks, hl] at h
    rcases hw : nd.canWrite d
    · have hwl : (netDevice nd d).writeLink = none := by simp [netDevice, hw]
      rw [hwl] at h
      dsimp only at h
      split_ifs at h with h0
      · have hcoll : (netDevice nd d).updateLinks n1 (LinkOps.removeCollect remove (n.db d))
            = n1.call fun n' => n'.setDb d (overlay (n'.db d) (LinkOps.removeCollect remove (n.db d))) := rfl
        rw [hcoll] at h
        obtain ⟨fs, hfs, hc, hce⟩ := call_cases n1 fun n' => n'.setDb d (overlay (n'.db d) (LinkOps.removeCollect remove (n.db d)))
        rw [h] at hc hce
        obtain ⟨o1, o2⟩ := overlay_collect remove (n.db d)
        refine ⟨?_, ?_, fun e he => errors_suffix l3 _ (hce e he), ?_⟩
        · rcases hc with hc | ⟨hc, -⟩ <;> simp only at hc <;> rw [hc] <;> exact l2
        · rcases hc with hc | ⟨hc, -⟩ <;> simp only at hc <;> rw [hc] <;> exact hfs.trans l3
        · rcases hc with hc | ⟨hc, -⟩ <;> simp only at hc <;> rw [hc]
          · refine ⟨fun x hx => by simp [Net.setDb, hx, l1], ?_, ?_⟩
            · simpa [Net.setDb, l1] using o1
            · simpa [Net.setDb, l1] using o2
          · exact ⟨fun x _ => by rw [l1], fun l hl' _ => by rwa [l1] at hl', fun l hl' _ => by rwa [l1]⟩
      · obtain ⟨rfl, rfl⟩ := Prod.mk.inj h
        exact ⟨l2, l3, by simp, fun x _ => by rw [l1], fun l hl' _ => by rwa [l1] at hl', fun l hl' _ => by rwa [l1]⟩
    · have hwl : (netDevice nd d).writeLink = some fun n i l => n.call fun n => n.setDb d ((n.db d).set i.toNat l) := by
        simp [netDevice, hw]
      rw [hwl] at h
      obtain ⟨rfl, rfl⟩ := Prod.mk.inj h
      obtain ⟨b1, b2, b3, b4, b5⟩ := removeWrite_net d remove (n.db d) 0 n1
      refine ⟨b1.trans l2, b2.trans l3, by simp, fun x hx => (b3 x hx).trans (by rw [l1]), ?_, ?_⟩
      · intro l hl' hu
        obtain ⟨j, hj⟩ := List.mem_iff_getElem?.1 hl'
        rcases b5 j with hb | ⟨k, x, -, -, -, hb⟩
        · rw [hb, l1] at hj; exact List.mem_of_getElem? hj
        · rw [hb] at hj
          simp only [Option.some.injEq] at hj
          subst hj
          exact absurd hu (freed_not_inUse x)
      · intro l hl' hn
        obtain ⟨j, hj⟩ := List.mem_iff_getElem?.1 hl'
        rcases b5 j with hb | ⟨k, x, hk, hx, hxl, -⟩
        · rw [l1] at hb
          exact List.mem_of_getElem? (hb.trans hj)
        · rw [Nat.zero_add] at hk
          subst hk
          rw [hx] at hj
          simp only [Option.some.injEq] at hj
          exact absurd (hj ▸ hxl) hn
  · rw [LinkOps.removeLinks, hl] at h
    obtain ⟨rfl, rfl⟩ := Prod.mk.inj h
    exact ⟨l2, l3, fun x hx => by simp at hx; exact hx ▸ he, fun x _ => by rw [l1], fun l hl' _ => by rwa [l1] at hl',
      fun l hl' _ => by rwa [l1]⟩

/-! ### A linking session -/

theorem call_ok (n : Net) (f : Net → Net) (h : (n.call f).2 = none) : ∃ fs, fs <:+ n.fates ∧ (n.call f).1 = f { n with fates := fs } := by
  obtain ⟨fs, h1, h2 | ⟨-, h2⟩, -⟩ := call_cases n f
  · exact ⟨fs, h1, h2⟩
  · exact absurd h h2

theorem leave_net (d : Nat) (n : Net) : ((n.call (Net.leave d)).1).db = n.db ∧ (n.call (Net.leave d)).1.fates <:+ n.fates
    ∧ (n.mode = none → (n.call (Net.leave d)).1.mode = none) := by
  have key : ∀ m : Net, (Net.leave d m).db = m.db ∧ (Net.leave d m).fates = m.fates ∧ (m.mode = none → (Net.leave d m).mode = none) := by
    intro m
    rw [Net.leave]
    rcases hm : m.mode with _ | ⟨c, gc, b⟩
    · exact ⟨rfl, rfl, fun _ => hm⟩
    · dsimp only
      split_ifs <;> simp_all
  obtain ⟨fs, hfs, h | ⟨h, -⟩, -⟩ := call_cases n (Net.leave d) <;> rw [h]
  · exact ⟨(key _).1, by rw [(key _).2.1]; exact hfs, (key { n with fates := fs }).2.2⟩
  · exact ⟨rfl, hfs, id⟩

/-- The databases after a completed linking session. -/
def Spec.linked (nd : NetDef) (g : BitVec 8) (c r : Nat) (db : Nat → List LinkRecord) : Nat → List LinkRecord := fun x =>
  if x = r then nd.install (db r) (nd.record false g (nd.addr c))
  else if x = c then nd.install (db c) (nd.record true g (nd.addr r)) else db x

/-- A session either leaves all databases alone or gives both devices their half-links; it does the latter if success is
reported, and then nobody is left in linking mode. -/
theorem force_link_net (nd : NetDef) (g : Group) (c r : Nat) (hcr : c ≠ r) (n n' : Net) (err : Option Err) (hm : n.mode = none)
    (h : LinkOps.forceLink g (netDevice nd c) (netDevice nd r) n = (n', err)) :
    n'.fates <:+ n.fates ∧ (∀ e, err = some e → e ∈ errors n.fates)
      ∧ (n'.db = n.db ∨ n'.db = linked nd g c r n.db)
      ∧ (err = none → n'.db = linked nd g c r n.db ∧ n'.mode = none) := by
  rw [LinkOps.forceLink] at h
  have hpc : ∀ m : Net, m.mode = none → Net.press nd c g m = { m with mode := some (c, g, true) } := by
    intro m hm; simp [Net.press, hm]
  have hpr : ∀ m : Net, m.mode = some (c, g, true) → Net.press nd r g m = { m with mode := none, db := linked nd g c r m.db } := by
    intro m hm
    simp only [Net.press, hm, if_neg hcr, if_true, Net.setDb]
    rfl
  obtain ⟨f1, hf1, hc1, he1⟩ := call_cases n (Net.press nd c g)
  have hq : (netDevice nd c).enterLinkingMode n g = n.call (Net.press nd c g) := rfl
  rw [hq] at h
  rcases hr1 : n.call (Net.press nd c g) with ⟨n1, _ | e⟩ <;> rw [hr1] at h hc1 he1 <;> dsimp only at h
  · have hn1 : n1 = { n with fates := f1, mode := some (c, g, true) } := by
      rcases hc1 with hc1 | ⟨-, hc1⟩
      · exact hc1.trans (hpc _ hm)
      · simp at hc1
    obtain ⟨rfl, rfl⟩ := Prod.mk.inj h
    have hq2 : (netDevice nd r).enterLinkingMode n1 g = n1.call (Net.press nd r g) := rfl
    rw [hq2]
    obtain ⟨f2, hf2, hc2, he2⟩ := call_cases n1 (Net.press nd r g)
    obtain ⟨c1, c2, c3⟩ := leave_net c (n1.call (Net.press nd r g)).1
    obtain ⟨r1, r2, r3⟩ := leave_net r ((n1.call (Net.press nd r g)).1.call (Net.leave c)).1
    have e1 : ((netDevice nd r).exitLinkingMode ((netDevice nd c).exitLinkingMode (n1.call (Net.press nd r g)).1).1).1
        = (((n1.call (Net.press nd r g)).1.call (Net.leave c)).1.call (Net.leave r)).1 := rfl
    rw [e1, r1, c1]
    have hn1f : n1.fates <:+ n.fates := by rw [hn1]; exact hf1
    refine ⟨?_, fun e he => errors_suffix hn1f _ (he2 e he), ?_, ?_⟩
    · refine r2.trans (c2.trans (List.IsSuffix.trans ?_ (hf2.trans hn1f)))
      rcases hc2 with hc2 | ⟨hc2, -⟩ <;> rw [hc2]
      · rw [hpr _ (by rw [hn1])]
        exact List.suffix_refl _
      · exact List.suffix_refl _
    · rcases hc2 with hc2 | ⟨hc2, -⟩ <;> rw [hc2]
      · right; rw [hpr _ (by rw [hn1]), hn1]
      · left; rw [hn1]
    · intro hok
      rcases hc2 with hc2 | ⟨-, hc2⟩
      · refine ⟨by rw [hc2, hpr _ (by rw [hn1]), hn1], r3 (c3 ?_)⟩
        rw [hc2, hpr _ (by rw [hn1])]
      · exact absurd hok hc2
  · obtain ⟨rfl, rfl⟩ := Prod.mk.inj h
    have hdb : n1.db = n.db ∧ n1.fates = f1 := by
      rcases hc1 with hc1 | ⟨hc1, -⟩ <;> dsimp only at hc1 <;> rw [hc1]
      · rw [hpc { n with fates := f1 } hm]; exact ⟨rfl, rfl⟩
      · exact ⟨rfl, rfl⟩
    exact ⟨hdb.2 ▸ hf1, he1, Or.inl hdb.1, by simp⟩

/-! ### Linking two devices -/

/-- `n'` has the in-use records of `n`, and no others, apart from the two half-links of controller `c` and responder `r` for group
`g`. -/
def Spec.SameButFor (nd : NetDef) (g : BitVec 8) (c r : Nat) (n n' : Net) : Prop :=
  ∀ d x, inUseBit x.flags → ¬ (d = c ∧ Keyed true (nd.addr r) g x) → ¬ (d = r ∧ Keyed false (nd.addr c) g x) →
    (x ∈ n'.db d ↔ x ∈ n.db d)

theorem half_keyed {c : Bool} {a : Address} {g : Group} {l : LinkRecord} (h : HalfLink c a g l) : Keyed c a g l :=
  ⟨h.2.1, h.2.2.2, by rw [h.2.2.1]⟩

theorem linked_others (nd : NetDef) (ok : nd.Ok) (g : Group) (c r : Nat) (n n' : Net) (h : n'.db = linked nd g c r n.db) :
    SameButFor nd g c r n n' := by
  intro d x hu h1 h2
  rw [h, linked]
  split_ifs with hr hc
  · subst hr
    rw [ok.install _ _ _ hu (ok.record _ _ _).1]
    constructor
    · rintro (rfl | h)
      · exact absurd ⟨rfl, half_keyed (ok.record _ _ _)⟩ h2
      · exact h
    · exact Or.inr
  · subst hc
    rw [ok.install _ _ _ hu (ok.record _ _ _).1]
    constructor
    · rintro (rfl | h)
      · exact absurd ⟨rfl, half_keyed (ok.record _ _ _)⟩ h1
      · exact h
    · exact Or.inr
  · exact Iff.rfl

theorem linked_has (nd : NetDef) (ok : nd.Ok) (g : Group) (c r : Nat) (hcr : c ≠ r) (n n' : Net) (h : n'.db = linked nd g c r n.db) :
    n'.Has c true (nd.addr r) g ∧ n'.Has r false (nd.addr c) g := by
  constructor
  · refine ⟨nd.record true g (nd.addr r), ?_, ok.record _ _ _⟩
    rw [h, linked, if_neg hcr, if_pos rfl, ok.install _ _ _ (ok.record _ _ _).1 (ok.record _ _ _).1]
    exact Or.inl rfl
  · refine ⟨nd.record false g (nd.addr c), ?_, ok.record _ _ _⟩
    rw [h, linked, if_pos rfl, ok.install _ _ _ (ok.record _ _ _).1 (ok.record _ _ _).1]
    exact Or.inl rfl

theorem sameButFor_later {nd : NetDef} {g : Group} {c r : Nat} {n n' : Net} (h : n'.db = n.db) : SameButFor nd g c r n n' := by
  intro d x _ _ _; rw [h]

theorem sameButFor_trans {nd : NetDef} {g : Group} {c r : Nat} {n1 n2 n3 : Net} (h1 : SameButFor nd g c r n1 n2)
    (h2 : SameButFor nd g c r n2 n3) : SameButFor nd g c r n1 n3 := by
  intro d x hu a b; rw [h2 d x hu a b, h1 d x hu a b]

/-- Removing a half-link of the pair. -/
theorem remove_pair (nd : NetDef) (g : Group) (c r d : Nat) (l : LinkRecord) (n n' : Net) (err : Option Err)
    (hd : d = c ∧ HalfLink true (nd.addr r) g l ∨ d = r ∧ HalfLink false (nd.addr c) g l)
    (h : LinkOps.removeLinks (netDevice nd d) [l] n = (n', err)) :
    SameButFor nd g c r n n' ∧ n'.mode = n.mode ∧ n'.fates <:+ n.fates ∧ (∀ e, err = some e → e ∈ errors n.fates) := by
  obtain ⟨h1, h2, h3, h4, h5, h6⟩ := remove_links_others nd d [l] n n' err h
  refine ⟨?_, h1, h2, h3⟩
  intro e x hu k1 k2
  by_cases he : e = d
  · subst he
    refine ⟨fun hx => h5 x hx hu, fun hx => h6 x hx ?_⟩
    rintro ⟨y, hy, hs⟩
    rw [List.mem_singleton] at hy
    subst hy
    rcases hd with ⟨rfl, hh⟩ | ⟨rfl, hh⟩
    · exact k1 ⟨rfl, hs.1.trans hh.2.1, hs.2.1.trans hh.2.2.2, hs.2.2.trans (by rw [hh.2.2.1])⟩
    · exact k2 ⟨rfl, hs.1.trans hh.2.1, hs.2.1.trans hh.2.2.2, hs.2.2.trans (by rw [hh.2.2.1])⟩
  · rw [h4 e he]

/-- C81 on a network, whatever happens to the calls. Nothing but the two half-links in question changes. If success is reported both
are there and no device is in linking mode. An error comes from a device. -/
theorem link_network (nd : NetDef) (ok : nd.Ok) (g : Group) (c r : Nat) (hcr : c ≠ r) (n n' : Net) (err : Option Err)
    (hm : n.mode = none) (h : LinkOps.link g (netDevice nd c) (netDevice nd r) n = (n', err)) :
    SameButFor nd g c r n n' ∧ n'.fates <:+ n.fates ∧ (∀ e, err = some e → e ∈ errors n.fates)
      ∧ (err = none → n'.mode = none ∧ n'.Has c true (nd.addr r) g ∧ n'.Has r false (nd.addr c) g) := by
  have haddr : ∀ d m, (netDevice nd d).address m = (m, nd.addr d) := fun _ _ => rfl
  -- a session after some preparation
  have session : ∀ (m n' : Net) (err : Option Err), SameButFor nd g c r n m → m.mode = none → m.fates <:+ n.fates →
      LinkOps.forceLink g (netDevice nd c) (netDevice nd r) m = (n', err) →
      SameButFor nd g c r n n' ∧ n'.fates <:+ n.fates ∧ (∀ e, err = some e → e ∈ errors n.fates)
        ∧ (err = none → n'.mode = none ∧ n'.Has c true (nd.addr r) g ∧ n'.Has r false (nd.addr c) g) := by
    intro m n' err m1 m2 m3 hf
    obtain ⟨f1, f2, f3, f4⟩ := force_link_net nd g c r hcr m n' err m2 hf
    refine ⟨sameButFor_trans m1 ?_, f1.trans m3, fun e he => errors_suffix m3 _ (f2 e he), fun he => ?_⟩
    · rcases f3 with f3 | f3
      · exact sameButFor_later f3
      · exact linked_others nd ok g c r m n' f3
    · exact ⟨(f4 he).2, linked_has nd ok g c r hcr m n' (f4 he).1⟩
  rw [LinkOps.link] at h
  simp only [haddr] at h
  obtain ⟨n1, l1, e1, hf1, ⟨a1, a2, a3⟩, a4, a5⟩ := find_net nd c true (nd.addr r) g n
  rw [hf1] at h
  dsimp only at h
  obtain ⟨n2, l2, e2, hf2, ⟨b1, b2, b3⟩, b4, b5⟩ := find_net nd r false (nd.addr c) g n1
  rw [hf2] at h
  dsimp only at h
  have hn2 : SameButFor nd g c r n n2 := sameButFor_later (b1.trans a1)
  have hm2 : n2.mode = none := b2.trans (a2.trans hm)
  have hs2 : n2.fates <:+ n.fates := b3.trans a3
  have he2 : ∀ e, e2 = some e → e = .linkNotFound ∨ e ∈ errors n.fates := fun e he => (b5 e he).imp id (errors_suffix a3 e)
  split_ifs at h with c1 c2 c3 c4 c5 c6 c7
  · -- stale responder link
    rcases hrm : LinkOps.removeLinks (netDevice nd r) [l2] n2 with ⟨n3, e3⟩
    rw [hrm] at h c3
    obtain ⟨r1, r2, r3, r4⟩ := remove_pair nd g c r r l2 n2 n3 e3 (Or.inr ⟨rfl, (b4 c2).2⟩) hrm
    exact session n3 n' err (sameButFor_trans hn2 r1) (r2.trans hm2) (r3.trans hs2) h
  · rcases hrm : LinkOps.removeLinks (netDevice nd r) [l2] n2 with ⟨n3, e3⟩
    rw [hrm] at h c3
    obtain ⟨rfl, rfl⟩ := Prod.mk.inj h
    obtain ⟨r1, r2, r3, r4⟩ := remove_pair nd g c r r l2 n2 n3 e3 (Or.inr ⟨rfl, (b4 c2).2⟩) hrm
    refine ⟨sameButFor_trans hn2 r1, r3.trans hs2, fun e he => errors_suffix hs2 _ (r4 e he), fun he => absurd (Or.inl he) c3⟩
  · exact session n2 n' err hn2 hm2 hs2 h
  · obtain ⟨rfl, rfl⟩ := Prod.mk.inj h
    refine ⟨hn2, hs2, fun e he => ?_, fun he => absurd he c2⟩
    rcases he2 e he with rfl | h
    · exact absurd (Or.inr he) c4
    · exact h
  · -- stale controller link
    rcases hrm : LinkOps.removeLinks (netDevice nd c) [l1] n2 with ⟨n3, e3⟩
    rw [hrm] at h c7
    obtain ⟨r1, r2, r3, r4⟩ := remove_pair nd g c r c l1 n2 n3 e3 (Or.inl ⟨rfl, (a4 c5).2⟩) hrm
    exact session n3 n' err (sameButFor_trans hn2 r1) (r2.trans hm2) (r3.trans hs2) h
  · rcases hrm : LinkOps.removeLinks (netDevice nd c) [l1] n2 with ⟨n3, e3⟩
    rw [hrm] at h c7
    obtain ⟨rfl, rfl⟩ := Prod.mk.inj h
    obtain ⟨r1, r2, r3, r4⟩ := remove_pair nd g c r c l1 n2 n3 e3 (Or.inl ⟨rfl, (a4 c5).2⟩) hrm
    exact ⟨sameButFor_trans hn2 r1, r3.trans hs2, fun e he => errors_suffix hs2 _ (r4 e he), fun he => absurd he c7⟩
  · obtain ⟨rfl, rfl⟩ := Prod.mk.inj h
    refine ⟨hn2, hs2, fun e he => ?_, fun he => ⟨hm2, ⟨l1, ?_, (a4 c5).2⟩, ⟨l2, ?_, (b4 he).2⟩⟩⟩
    · rcases he2 e he with rfl | h
      · exact absurd he c6
      · exact h
    · rw [b1, a1]; exact (a4 c5).1
    · rw [b1]; exact (b4 he).1
  · obtain ⟨rfl, rfl⟩ := Prod.mk.inj h
    refine ⟨sameButFor_later a1, a3, fun e he => ?_, fun he => absurd he c5⟩
    rcases a5 e he with rfl | h
    · exact absurd he c1
    · exact h

/-- A half-link with a 24-bit address that was there is there after successful linking. -/
theorem link_keeps (nd : NetDef) (ok : nd.Ok) (g : Group) (c r : Nat) (n n' : Net) (h1 : SameButFor nd g c r n n')
    (h2 : n'.Has c true (nd.addr r) g) (h3 : n'.Has r false (nd.addr c) g) (d : Nat) (role : Bool) (a : Address) (g' : Group)
    (ha : a.toNat < 2 ^ 24) (h : n.Has d role a g') : n'.Has d role a g' := by
  obtain ⟨x, hx, hh⟩ := h
  have key : ∀ role' d', Keyed role' (nd.addr d') g x → role = role' ∧ a = nd.addr d' ∧ g' = g := by
    rintro role' d' ⟨k1, k2, k3⟩
    obtain ⟨m1, m2, m3, m4⟩ := hh
    refine ⟨?_, ?_, m4.symm.trans k2⟩
    · have := m2.symm.trans k1
      cases role <;> cases role' <;> simp_all
    · have hd := ok.addr d'
      apply BitVec.eq_of_toNat_eq
      rw [m3] at k3
      omega
  by_cases k1 : d = c ∧ Keyed true (nd.addr r) g x
  · obtain ⟨rfl, k⟩ := k1
    obtain ⟨rfl, rfl, rfl⟩ := key _ _ k
    exact h2
  by_cases k2 : d = r ∧ Keyed false (nd.addr c) g x
  · obtain ⟨rfl, k⟩ := k2
    obtain ⟨rfl, rfl, rfl⟩ := key _ _ k
    exact h3
  exact ⟨x, (h1 d x hh.1 k1 k2).2 hx, hh⟩

/-- C81: linking again after success does nothing, if the calls get through. -/
theorem link_again (nd : NetDef) (g : Group) (c r : Nat) (n : Net) (hf : n.fates = [])
    (h1 : n.Has c true (nd.addr r) g) (h2 : n.Has r false (nd.addr c) g) :
    LinkOps.link g (netDevice nd c) (netDevice nd r) n = (n, none) := by
  obtain ⟨-, l1, -, -, -, -, f1⟩ := findLoop_found _ _ _ _ h1
  obtain ⟨-, l2, -, -, -, -, f2⟩ := findLoop_found _ _ _ _ h2
  have hl : ∀ d, (netDevice nd d).links n = (n, n.db d, none) := by
    intro d; simp [netDevice, Net.call, hf]
  have haddr : ∀ d m, (netDevice nd d).address m = (m, nd.addr d) := fun _ _ => rfl
  simp [LinkOps.link, haddr, LinkOps.findLinkRecord, hl, f1, f2]

/-! ### Cross-linking -/

/-- Both devices have both half-links. -/
def Spec.CrossLinked (nd : NetDef) (g : BitVec 8) (d1 d2 : Nat) (n : Net) : Prop :=
  n.Has d1 true (nd.addr d2) g ∧ n.Has d1 false (nd.addr d2) g ∧ n.Has d2 true (nd.addr d1) g ∧ n.Has d2 false (nd.addr d1) g

/-- The in-use records of `n'` and `n` are the same, except for those of group `g` between two of the devices `ds`. -/
def Spec.SameOutside (nd : NetDef) (g : BitVec 8) (ds : List Nat) (n n' : Net) : Prop :=
  ∀ d x, inUseBit x.flags → ¬ (d ∈ ds ∧ x.group = g ∧ ∃ e ∈ ds, x.address.toNat % 2 ^ 24 = (nd.addr e).toNat) →
    (x ∈ n'.db d ↔ x ∈ n.db d)

theorem sameOutside_of (nd : NetDef) (ok : nd.Ok) (g : Group) (ds : List Nat) (c r : Nat) (hc : c ∈ ds) (hr : r ∈ ds) (n n' : Net)
    (h : SameButFor nd g c r n n') : SameOutside nd g ds n n' := by
  intro d x hu hn
  refine h d x hu ?_ ?_
  · rintro ⟨rfl, k1, k2, k3⟩
    exact hn ⟨hc, k2, r, hr, k3.trans (Nat.mod_eq_of_lt (ok.addr r))⟩
  · rintro ⟨rfl, k1, k2, k3⟩
    exact hn ⟨hr, k2, c, hc, k3.trans (Nat.mod_eq_of_lt (ok.addr c))⟩

/-- What a series of successful linkings preserves and what holds whatever happens. -/
structure Progress (nd : NetDef) (g : Group) (ds : List Nat) (n n' : Net) (err : Option Err) : Prop where
  fates : n'.fates <:+ n.fates
  same : SameOutside nd g ds n n'
  errors : ∀ e, err = some e → e ∈ errors n.fates
  mode : err = none → n'.mode = none
  keeps : err = none → ∀ d role a g', a.toNat < 2 ^ 24 → n.Has d role a g' → n'.Has d role a g'

theorem Progress.trans {nd : NetDef} {g : Group} {ds : List Nat} {n1 n2 n3 : Net} {err : Option Err}
    (h1 : Progress nd g ds n1 n2 none) (h2 : Progress nd g ds n2 n3 err) : Progress nd g ds n1 n3 err where
  fates := h2.fates.trans h1.fates
  same := fun d x hu hn => (h2.same d x hu hn).trans (h1.same d x hu hn)
  errors := fun e he => errors_suffix h1.fates _ (h2.errors e he)
  mode := h2.mode
  keeps := fun he d role a g' ha h => h2.keeps he d role a g' ha (h1.keeps rfl d role a g' ha h)

theorem link_progress (nd : NetDef) (ok : nd.Ok) (g : Group) (ds : List Nat) (c r : Nat) (hc : c ∈ ds) (hr : r ∈ ds) (hcr : c ≠ r)
    (n n' : Net) (err : Option Err) (hm : n.mode = none) (h : LinkOps.link g (netDevice nd c) (netDevice nd r) n = (n', err)) :
    Progress nd g ds n n' err ∧ (err = none → n'.Has c true (nd.addr r) g ∧ n'.Has r false (nd.addr c) g) := by
  obtain ⟨h1, h2, h3, h4⟩ := link_network nd ok g c r hcr n n' err hm h
  exact ⟨⟨h2, sameOutside_of nd ok g ds c r hc hr n n' h1, h3, fun he => (h4 he).1,
    fun he => link_keeps nd ok g c r n n' h1 (h4 he).2.1 (h4 he).2.2⟩, fun he => (h4 he).2⟩

/-- Cross-linking two devices; no device may claim to be already linked. -/
theorem cross_link_network (nd : NetDef) (ok : nd.Ok) (g : Group) (ds : List Nat) (c r : Nat) (hc : c ∈ ds) (hr : r ∈ ds) (hcr : c ≠ r)
    (n n' : Net) (err : Option Err) (hm : n.mode = none) (hal : ∀ e ∈ errors n.fates, e.is .alreadyLinked = false)
    (h : LinkOps.crossLink g (netDevice nd c) (netDevice nd r) n = (n', err)) :
    Progress nd g ds n n' err ∧ (err = none → CrossLinked nd g c r n') := by
  rcases h1 : LinkOps.link g (netDevice nd c) (netDevice nd r) n with ⟨n1, e1⟩
  obtain ⟨p1, q1⟩ := link_progress nd ok g ds c r hc hr hcr n n1 e1 hm h1
  have hal1 : LinkOps.isErr e1 .alreadyLinked = false := by
    rcases e1 with _ | e1
    · rfl
    · exact hal e1 (p1.errors e1 rfl)
  rw [LinkOps.crossLink, h1] at h
  simp only [hal1, Bool.false_eq_true, or_false] at h
  rcases e1 with _ | e1
  · rw [if_pos rfl] at h
    rcases h2 : LinkOps.link g (netDevice nd r) (netDevice nd c) n1 with ⟨n2, e2⟩
    obtain ⟨p2, q2⟩ := link_progress nd ok g ds r c hr hc (Ne.symm hcr) n1 n2 e2 (p1.mode rfl) h2
    have hal2 : LinkOps.isErr e2 .alreadyLinked = false := by
      rcases e2 with _ | e2
      · rfl
      · exact hal e2 (errors_suffix p1.fates _ (p2.errors e2 rfl))
    rw [h2] at h
    simp only [hal2, Bool.false_eq_true, if_false] at h
    obtain ⟨rfl, rfl⟩ := Prod.mk.inj h
    refine ⟨p1.trans p2, fun he => ?_⟩
    exact ⟨p2.keeps he _ _ _ _ (ok.addr _) (q1 rfl).1, (q2 he).2, (q2 he).1, p2.keeps he _ _ _ _ (ok.addr _) (q1 rfl).2⟩
  · rw [if_neg (by simp)] at h
    obtain ⟨rfl, rfl⟩ := Prod.mk.inj h
    exact ⟨p1, by simp⟩

theorem crossLinked_keeps {nd : NetDef} (ok : nd.Ok) {g : Group} {ds : List Nat} {n n' : Net} (h : Progress nd g ds n n' none) (a b : Nat)
    (hc : CrossLinked nd g a b n) : CrossLinked nd g a b n' :=
  ⟨h.keeps rfl _ _ _ _ (ok.addr _) hc.1, h.keeps rfl _ _ _ _ (ok.addr _) hc.2.1, h.keeps rfl _ _ _ _ (ok.addr _) hc.2.2.1,
    h.keeps rfl _ _ _ _ (ok.addr _) hc.2.2.2⟩

/-- Cross-linking a list of pairs until there is an error. -/
theorem until_progress (nd : NetDef) (ok : nd.Ok) (g : Group) (ds : List Nat) (ps : List (Nat × Nat))
    (hps : ∀ p ∈ ps, p.1 ∈ ds ∧ p.2 ∈ ds ∧ p.1 ≠ p.2) (n n' : Net) (err : Option Err) (hm : n.mode = none)
    (hal : ∀ e ∈ errors n.fates, e.is .alreadyLinked = false)
    (h : untilError (fun p => LinkOps.crossLink g (netDevice nd p.1) (netDevice nd p.2)) ps n = (n', err)) :
    Progress nd g ds n n' err ∧ (err = none → ∀ p ∈ ps, CrossLinked nd g p.1 p.2 n') := by
  induction ps generalizing n with
  | nil =>
    obtain ⟨rfl, rfl⟩ := Prod.mk.inj h
    exact ⟨⟨List.suffix_refl _, fun _ _ _ _ => Iff.rfl, by simp, fun _ => hm, fun _ _ _ _ _ _ h => h⟩, by simp⟩
  | cons p ps ih =>
    rw [untilError] at h
    obtain ⟨m1, m2, m3⟩ := hps p (by simp)
    rcases h1 : LinkOps.crossLink g (netDevice nd p.1) (netDevice nd p.2) n with ⟨n1, e1⟩
    rw [h1] at h
    obtain ⟨p1, q1⟩ := cross_link_network nd ok g ds p.1 p.2 m1 m2 m3 n n1 e1 hm hal h1
    rcases e1 with _ | e1 <;> dsimp only at h
    · obtain ⟨p2, q2⟩ := ih (fun x hx => hps x (by simp [hx])) n1 (p1.mode rfl) (fun e he => hal e (errors_suffix p1.fates e he)) h
      refine ⟨p1.trans p2, fun he x hx => ?_⟩
      subst he
      rcases List.mem_cons.1 hx with rfl | hx
      · exact crossLinked_keeps ok p2 _ _ (q1 rfl)
      · exact q2 rfl x hx
    · obtain ⟨rfl, rfl⟩ := Prod.mk.inj h
      exact ⟨p1, by simp⟩

theorem pairs_map {α β : Type} (f : α → β) (ne : β → β → Bool) (l : List α) :
    pairs ne (l.map f) = (pairs (fun a b => ne (f a) (f b)) l).map fun p => (f p.1, f p.2) := by
  induction l with
  | nil => rfl
  | cons x l ih =>
    simp only [List.map_cons, pairs, ih, List.map_append, List.map_map, List.filter_map]
    rfl

theorem untilError_map {α β σ : Type} (f : β → σ → σ × Option Err) (k : α → β) (l : List α) (s : σ) :
    untilError f (l.map k) s = untilError (fun x => f (k x)) l s := by
  induction l generalizing s with
  | nil => rfl
  | cons x l ih =>
    rw [List.map_cons, untilError, untilError]
    rcases f (k x) s with ⟨s1, _ | e⟩
    · exact ih s1
    · rfl

/-- C82. On a network where nobody is in linking mode: if cross-linking the devices `ds` reports success, then every two different
ones of them have both half-links to each other for the group, and nobody is in linking mode. Half-links that were there
before are still there. Whatever happens, no in-use record changes outside the group and the devices, and an error comes from a
device. (Assumption: no device returns the error already-linked, which the code would take for success.) -/
theorem cross_link_all_network (nd : NetDef) (ok : nd.Ok) (g : Group) (ds : List Nat) (n n' : Net) (err : Option Err)
    (hm : n.mode = none) (hal : ∀ e ∈ errors n.fates, e.is .alreadyLinked = false)
    (h : LinkOps.crossLinkAll g (ds.map (netDevice nd)) n = (n', err)) :
    (err = none → (∀ a ∈ ds, ∀ b ∈ ds, a ≠ b → CrossLinked nd g a b n') ∧ n'.mode = none
      ∧ ∀ d role a g', a.toNat < 2 ^ 24 → n.Has d role a g' → n'.Has d role a g')
    ∧ SameOutside nd g ds n n' ∧ (∀ e, err = some e → e ∈ errors n.fates) := by
  rw [cross_link_all_order, pairs_map, untilError_map] at h
  have hp := fun p => pairs_all (fun a b : Nat => decide ((netDevice nd a).ident ≠ (netDevice nd b).ident)) ds (Prod.fst p) (Prod.snd p)
  obtain ⟨p1, q1⟩ := until_progress nd ok g ds _ (fun p hp' => by
    obtain ⟨i, j, -, h2, h3, h4⟩ := (hp p).1 hp'
    exact ⟨List.mem_of_getElem? h2, List.mem_of_getElem? h3, by simpa [netDevice] using of_decide_eq_true h4⟩) n n' err hm hal h
  refine ⟨fun he => ⟨?_, p1.mode he, p1.keeps he⟩, p1.same, p1.errors⟩
  have hsym : ∀ a b, CrossLinked nd g a b n' → CrossLinked nd g b a n' := fun a b h => ⟨h.2.2.1, h.2.2.2, h.1, h.2.1⟩
  intro a ha b hb hab
  obtain ⟨i, hi⟩ := List.mem_iff_getElem?.1 ha
  obtain ⟨j, hj⟩ := List.mem_iff_getElem?.1 hb
  rcases lt_trichotomy i j with hij | hij | hij
  · exact q1 he (a, b) ((hp (a, b)).2 ⟨i, j, hij, hi, hj, by simpa [netDevice] using hab⟩)
  · subst hij
    rw [hi] at hj
    exact absurd (Option.some.inj hj) hab
  · exact hsym _ _ (q1 he (b, a) ((hp (b, a)).2 ⟨j, i, hij, hj, hi, by simpa [netDevice] using Ne.symm hab⟩))

/-- A network: addresses 1, 2, 3, …; a session's records go to the end of the database. -/
def plainNet : NetDef where
  addr := fun d => BitVec.ofNat 32 ((d + 1) % 2 ^ 24)
  canWrite := fun d => d != 2
  record := fun c g a => ⟨if c then 0xe2 else 0xa2, g, a, 0, 0, 0⟩
  install := fun db l => db ++ [l]

theorem plainNet_ok : plainNet.Ok where
  addr := fun d => by simp only [plainNet, BitVec.toNat_ofNat]; omega
  record := fun c g a => by
    have : inUseBit (0xe2 : Byte) ∧ inUseBit (0xa2 : Byte) ∧ controllerBit (0xe2 : Byte) ∧ ¬ controllerBit (0xa2 : Byte) := by decide
    obtain ⟨h1, h2, h3, h4⟩ := this
    cases c
    · exact ⟨h2, ⟨fun h => absurd h h4, fun h => absurd h (by simp)⟩, rfl, rfl⟩
    · exact ⟨h1, ⟨fun _ => rfl, fun _ => h3⟩, rfl, rfl⟩
  install := fun db l x _ _ => by simp [plainNet, or_comm]

/-- Three devices, the second with a stale half-link and one call lost on the way: an error, and nothing else is tried. -/
example : (LinkOps.crossLinkAll 1 ([0, 1, 2].map (netDevice plainNet)) ⟨fun d => if d = 1 then [⟨0xe2, 1, 3, 0, 0, 0⟩] else [], none, []⟩).2 = none := by
  decide +kernel

example : ((LinkOps.crossLinkAll 1 ([0, 1, 2].map (netDevice plainNet)) ⟨fun d => if d = 1 then [⟨0xe2, 1, 3, 0, 0, 0⟩] else [], none, []⟩).1.db 1)
    = [⟨0x62, 1, 3, 0, 0, 0⟩, ⟨0xa2, 1, 1, 0, 0, 0⟩, ⟨0xe2, 1, 1, 0, 0, 0⟩, ⟨0xe2, 1, 3, 0, 0, 0⟩, ⟨0xa2, 1, 3, 0, 0, 0⟩] := by
  decide +kernel

example : (LinkOps.crossLinkAll 1 ([0, 1, 2].map (netDevice plainNet)) ⟨fun _ => [], none, [.done, .done, .done, .lost .devReadTimeout]⟩).2
    = some .devReadTimeout := by decide +kernel

/-! ### Nobody should be left in linking mode -/

/-- Telling a device to leave linking mode does not change anything if it is another one that waits, or none. -/
theorem leave_other (n : Net) (d : Nat) (h : ∀ m, n.mode = some m → m.1 ≠ d) : (n.call (Net.leave d)).1.mode = n.mode := by
  have hl : ∀ fs, (Net.leave d { n with fates := fs }).mode = n.mode ∧ (Net.leave d n).mode = n.mode := by
    intro fs
    unfold Net.leave
    rcases hm : n.mode with _ | ⟨x, y, z⟩
    · simp [hm]
    · have := h _ hm
      simp_all
  unfold Net.call
  split
  · exact (hl []).2
  · exact (hl _).1
  · rfl
  · exact (hl _).1

/-- The state after the first call of a session got through: the controller waits. -/
theorem session_leaves (nd : NetDef) (g : Group) (c r : Nat) (hcr : c ≠ r) (l : Bool) (db : Nat → List LinkRecord) (fs : List CallFate) (m : Nat × BitVec 8 × Bool) :
    ((((Net.mk db (some (c, g, l)) fs).call (Net.press nd r g)).1.call (Net.leave c)).1.call (Net.leave r)).1.mode = some m ↔
      m = (c, g, l) ∧ ∃ e e' t, fs = .lost e :: .lost e' :: t := by
  have hp : ∀ t, (Net.press nd r g ⟨db, some (c, g, l), t⟩).mode = none := by
    intro t
    cases l <;> simp [Net.press, hcr, Net.setDb]
  have hn : ∀ n : Net, n.mode = none → ((n.call (Net.leave c)).1.call (Net.leave r)).1.mode = none := by
    intro n h
    have h1 : (n.call (Net.leave c)).1.mode = none := by rw [leave_other n c (by simp [h]), h]
    rw [leave_other _ r (by simp [h1]), h1]
  rcases fs with _ | ⟨f | e | e, t⟩
  · have := hn _ (hp [])
    simp only [Net.call] at this ⊢
    simp [this]
  · have := hn _ (hp t)
    simp only [Net.call] at this ⊢
    simp [this]
  · have e1 : ((Net.mk db (some (c, g, l)) (.lost e :: t)).call (Net.press nd r g)).1 = ⟨db, some (c, g, l), t⟩ := rfl
    rw [e1]
    rcases t with _ | ⟨f | e' | e', t⟩
    · have : ((Net.mk db (some (c, g, l)) []).call (Net.leave c)).1.mode = none := by simp [Net.call, Net.leave]
      rw [leave_other _ r (by simp [this]), this]
      simp
    · have : ((Net.mk db (some (c, g, l)) (.done :: t)).call (Net.leave c)).1.mode = none := by simp [Net.call, Net.leave]
      rw [leave_other _ r (by simp [this]), this]
      simp
    · have : ((Net.mk db (some (c, g, l)) (.lost e' :: t)).call (Net.leave c)).1.mode = some (c, g, l) := rfl
      rw [leave_other _ r (by simp [this, hcr]), this]
      simp only [Option.some.injEq]
      exact ⟨fun h => ⟨h.symm, e, e', t, rfl⟩, fun h => h.1.symm⟩
    · have : ((Net.mk db (some (c, g, l)) (.unconfirmed e' :: t)).call (Net.leave c)).1.mode = none := by simp [Net.call, Net.leave]
      rw [leave_other _ r (by simp [this]), this]
      simp
  · have := hn _ (hp t)
    simp only [Net.call] at this ⊢
    simp [this]

/-- What is proved, for any fate of the calls: exactly who is left in linking mode and when. It is the controller, if its confirmation is lost, or if it confirmed but
the call to the responder and the one that tells the controller to leave are both lost. -/
theorem force_link_leaves_partial (nd : NetDef) (g : Group) (c r : Nat) (hcr : c ≠ r) (n : Net) (hm : n.mode = none) (m : Nat × BitVec 8 × Bool) :
    (LinkOps.forceLink g (netDevice nd c) (netDevice nd r) n).1.mode = some m ↔
      m = (c, g, true) ∧ ((∃ e fs, n.fates = .unconfirmed e :: fs) ∨ ∃ e e' fs, n.fates = .done :: .lost e :: .lost e' :: fs) := by
  obtain ⟨db, mode, fates⟩ := n
  dsimp only at hm
  subst hm
  rcases fates with _ | ⟨f | e | e, t⟩
  · refine Iff.trans (session_leaves nd g c r hcr true db [] m) ?_
    simp
  · refine Iff.trans (session_leaves nd g c r hcr true db t m) ?_
    simp
  · have : (LinkOps.forceLink g (netDevice nd c) (netDevice nd r) ⟨db, none, .lost e :: t⟩).1.mode = none := rfl
    rw [this]
    simp
  · have : (LinkOps.forceLink g (netDevice nd c) (netDevice nd r) ⟨db, none, .unconfirmed e :: t⟩).1.mode = some (c, g, true) := rfl
    rw [this]
    simp only [Option.some.injEq]
    exact ⟨fun h => ⟨h.symm, .inl ⟨e, t, rfl⟩⟩, fun h => h.1.symm⟩

/-- The same for unlinking. -/
theorem unlink_leaves_partial (nd : NetDef) (g : Group) (c r : Nat) (hcr : c ≠ r) (n : Net) (hm : n.mode = none) (m : Nat × BitVec 8 × Bool) :
    (LinkOps.unlink g (netDevice nd c) (netDevice nd r) n).1.mode = some m ↔
      m = (c, g, false) ∧ ((∃ e fs, n.fates = .unconfirmed e :: fs) ∨ ∃ e e' fs, n.fates = .done :: .lost e :: .lost e' :: fs) := by
  obtain ⟨db, mode, fates⟩ := n
  dsimp only at hm
  subst hm
  rcases fates with _ | ⟨f | e | e, t⟩
  · refine Iff.trans (session_leaves nd g c r hcr false db [] m) ?_
    simp
  · refine Iff.trans (session_leaves nd g c r hcr false db t m) ?_
    simp
  · have : (LinkOps.unlink g (netDevice nd c) (netDevice nd r) ⟨db, none, .lost e :: t⟩).1.mode = none := rfl
    rw [this]
    simp
  · have : (LinkOps.unlink g (netDevice nd c) (netDevice nd r) ⟨db, none, .unconfirmed e :: t⟩).1.mode = some (c, g, false) := rfl
    rw [this]
    simp only [Option.some.injEq]
    exact ⟨fun h => ⟨h.symm, .inl ⟨e, t, rfl⟩⟩, fun h => h.1.symm⟩

/-- `unlink_leaves_partial` where both calls after the first are lost, and where only the responder's is. -/
example : (LinkOps.unlink 1 (netDevice plainNet 0) (netDevice plainNet 1) ⟨fun _ => [], none, [.done, .lost .devReadTimeout, .lost .devReadTimeout]⟩).1.mode = some (0, 1, false) ∧
    (LinkOps.unlink 1 (netDevice plainNet 0) (netDevice plainNet 1) ⟨fun _ => [], none, [.done, .lost .devReadTimeout]⟩).1.mode = none := by decide +kernel

/-- In full this is false of the code: if the confirmation of the controller's command is lost, the controller is in linking mode, the
code gives up, and nobody tells the controller to leave it. -/
theorem force_link_leaves_refuted :
    ¬ ∀ (nd : NetDef) (g : Group) (c r : Nat) (n : Net) (f1 f2 : CallFate), nd.Ok → c ≠ r → n.mode = none → n.fates = [f1, f2] →
      (LinkOps.forceLink g (netDevice nd c) (netDevice nd r) n).1.mode = none := by
  intro h
  have := h plainNet 1 0 1 ⟨fun _ => [], none, [.unconfirmed .devReadTimeout, .done]⟩ (.unconfirmed .devReadTimeout) .done plainNet_ok (by decide) rfl rfl
  revert this
  decide +kernel

/-- The next session is then taken for the answer to the first one: device 2 (the controller of the new session) ends up as a responder of
device 0. -/
example : (let n := (LinkOps.forceLink 1 (netDevice plainNet 0) (netDevice plainNet 1) ⟨fun _ => [], none, [.unconfirmed .devReadTimeout]⟩).1
    ((LinkOps.forceLink 7 (netDevice plainNet 2) (netDevice plainNet 3) n).1.db 2)) = [⟨0xa2, 1, 1, 0, 0, 0⟩] := by decide +kernel

/-! ### C79 on a network -/

theorem removeWrite_exact (d : Nat) (remove : List LinkRecord) (links pre : List LinkRecord) (n : Net) (hf : n.fates = [])
    (hdb : n.db d = pre ++ links) :
    LinkOps.removeWrite (fun (n : Net) (i : Int) l => n.call fun n => n.setDb d ((n.db d).set i.toNat l)) remove pre.length links n
      = n.setDb d (pre ++ links.map fun l => if Listed remove l then freed l else l) := by
  induction links generalizing pre n with
  | nil =>
    rw [LinkOps.removeWrite, List.map_nil, ← hdb, Net.setDb]
    have : (fun x => if x = d then n.db d else n.db x) = n.db := by funext x; split_ifs with h <;> simp [h]
    rw [this]
  | cons l rest ih =>
    rw [LinkOps.removeWrite, List.map_cons]
    by_cases hl : Listed remove l
    · rw [if_pos ((listed_iff _ _).2 hl), if_pos hl, freed_eq]
      have h1 : (n.call fun n => n.setDb d ((n.db d).set (pre.length : Int).toNat (freed l))).1 = n.setDb d (pre ++ freed l :: rest) := by
        simp [Net.call, hf, hdb]
      rw [h1]
      have := ih (pre ++ [freed l]) (n.setDb d (pre ++ freed l :: rest)) hf (by simp [Net.setDb])
      rw [List.length_append, List.length_singleton] at this
      rw [this]
      simp only [Net.setDb, List.append_assoc, List.singleton_append]
      congr 1
      funext x
      split_ifs <;> rfl
    · rw [if_neg (fun h => hl ((listed_iff _ _).1 h)), if_neg hl]
      have := ih (pre ++ [l]) n hf (by simp [hdb])
      rw [List.length_append, List.length_singleton] at this
      rw [this]
      simp

/-- C79 when all calls get through, on a device that writes single records: exactly the listed records become available, everything
else is as it was. -/
theorem remove_links_exact (nd : NetDef) (d : Nat) (remove : List LinkRecord) (n : Net) (hf : n.fates = []) (hw : nd.canWrite d = true) :
    LinkOps.removeLinks (netDevice nd d) remove n
      = (n.setDb d ((n.db d).map fun l => if Listed remove l then freed l else l), none) := by
  have hl : (netDevice nd d).links n = (n, n.db d, none) := by simp [netDevice, Net.call, hf]
  have hwl : (netDevice nd d).writeLink = some fun n i l => n.call fun n => n.setDb d ((n.db d).set i.toNat l) := by simp [netDevice, hw]
  rw [LinkOps.removeLinks, hl]
  dsimp only
  rw [hwl]
  dsimp only
  have := removeWrite_exact d remove (n.db d) [] n hf rfl
  rw [List.length_nil] at this
  rw [this]
  rfl

/-- A lost write: success is reported and the record is still in use. -/
theorem remove_links_network_refuted :
    ¬ ∀ (nd : NetDef) (d : Nat) (remove : List LinkRecord) (n : Net), nd.Ok → (LinkOps.removeLinks (netDevice nd d) remove n).2 = none →
      ∀ l ∈ (LinkOps.removeLinks (netDevice nd d) remove n).1.db d, Listed remove l → ¬ inUseBit l.flags := by
  intro h
  have := h plainNet 0 [⟨0xe2, 1, 5, 0, 0, 0⟩] ⟨fun _ => [⟨0xe2, 1, 5, 0, 0, 0⟩], none, [.done, .lost .devReadTimeout]⟩ plainNet_ok (by decide +kernel)
    ⟨0xe2, 1, 5, 0, 0, 0⟩ (by decide +kernel) (by decide +kernel)
  revert this
  decide +kernel

/-! ### C83 on a network -/

theorem freeHalf_mem (c : Bool) (a : Address) (g : Group) (db : List LinkRecord) (x : LinkRecord) (hu : inUseBit x.flags) :
    x ∈ freeHalf c a g db ↔ x ∈ db ∧ ¬ HalfLink c a g x := by
  rw [freeHalf, List.mem_map]
  constructor
  · rintro ⟨y, hy, he⟩
    split_ifs at he with h
    · rw [← he] at hu; exact absurd hu (freed_not_inUse y)
    · subst he; exact ⟨hy, h⟩
  · rintro ⟨h1, h2⟩
    exact ⟨x, h1, if_neg h2⟩

/-- An unlinking session when all calls get through. -/
theorem unlink_net (nd : NetDef) (g : Group) (c r : Nat) (hcr : c ≠ r) (n : Net) (hf : n.fates = []) :
    LinkOps.unlink g (netDevice nd c) (netDevice nd r) n
      = ({ n with mode := none, db := fun x => if x = r then freeHalf false (nd.addr c) g (n.db r)
          else if x = c then freeHalf true (nd.addr r) g (n.db c) else n.db x }, none) := by
  obtain ⟨db, mode, fates⟩ := n
  dsimp only at hf
  subst hf
  simp [LinkOps.unlink, netDevice, Net.call, Net.press, Net.leave, Net.setDb, hcr]

/-- A record of the list `ls` for address `a` with this group and role. -/
def Spec.Names (ls : List LinkRecord) (a : BitVec 32) (g : BitVec 8) (controller : Prop) : Prop :=
  ∃ l ∈ ls, l.address = a ∧ l.group = g ∧ (controllerBit l.flags ↔ controller)

theorem unlinkLoop_net (nd : NetDef) (c r : Nat) (hcr : c ≠ r) (ls : List LinkRecord) (n : Net) (hf : n.fates = []) :
    ∃ n', LinkOps.unlinkLoop (netDevice nd c) (netDevice nd r) ls none n = (n', none) ∧ n'.fates = []
      ∧ (∀ d, d ≠ c → d ≠ r → n'.db d = n.db d)
      ∧ (∀ x, inUseBit x.flags → (x ∈ n'.db c ↔ x ∈ n.db c ∧ ¬ (x.address = nd.addr r ∧ Names ls (nd.addr r) x.group (controllerBit x.flags))))
      ∧ (∀ x, inUseBit x.flags → (x ∈ n'.db r ↔ x ∈ n.db r ∧ ¬ (x.address = nd.addr c ∧ Names ls (nd.addr r) x.group (¬ controllerBit x.flags)))) := by
  induction ls generalizing n with
  | nil => exact ⟨n, rfl, hf, fun _ _ _ => rfl, fun x _ => by simp [Names], fun x _ => by simp [Names]⟩
  | cons l rest ih =>
    rw [LinkOps.unlinkLoop]
    have h1 : (netDevice nd r).address n = (n, nd.addr r) := rfl
    rw [h1]
    by_cases hl : l.address = nd.addr r
    · rw [if_pos (by exact hl)]
      have nameIff : ∀ g p, Names (l :: rest) (nd.addr r) g p ↔ (l.group = g ∧ (controllerBit l.flags ↔ p)) ∨ Names rest (nd.addr r) g p := by
        intro g p; simp [Names, hl]
      by_cases hc : controllerBit l.flags
      · rw [if_pos ((controller_eq_iff _ true).2 (by simpa using hc)), unlink_net nd l.group c r hcr n hf]
        dsimp only
        obtain ⟨n', e1, e2, e3, e4, e5⟩ := ih ⟨fun x => if x = r then freeHalf false (nd.addr c) l.group (n.db r)
          else if x = c then freeHalf true (nd.addr r) l.group (n.db c) else n.db x, none, n.fates⟩ hf
        refine ⟨n', e1, e2, fun d hd1 hd2 => by rw [e3 d hd1 hd2]; simp [hd1, hd2], fun x hu => ?_, fun x hu => ?_⟩
        · rw [e4 x hu, nameIff]
          simp only [if_neg hcr, if_true, freeHalf_mem _ _ _ _ _ hu, HalfLink, hu, true_and, hc, true_iff, iff_true]
          rw [eq_comm (a := l.group)]
          tauto
        · rw [e5 x hu, nameIff]
          simp only [if_true, freeHalf_mem _ _ _ _ _ hu, HalfLink, hu, true_and, hc, true_iff, Bool.false_eq_true, iff_false]
          rw [eq_comm (a := l.group)]
          tauto
      · rw [if_neg (fun h => hc (by simpa using (controller_eq_iff _ true).1 h)), unlink_net nd l.group r c (Ne.symm hcr) n hf]
        dsimp only
        obtain ⟨n', e1, e2, e3, e4, e5⟩ := ih ⟨fun x => if x = c then freeHalf false (nd.addr r) l.group (n.db c)
          else if x = r then freeHalf true (nd.addr c) l.group (n.db r) else n.db x, none, n.fates⟩ hf
        refine ⟨n', e1, e2, fun d hd1 hd2 => by rw [e3 d hd1 hd2]; simp [hd1, hd2], fun x hu => ?_, fun x hu => ?_⟩
        · rw [e4 x hu, nameIff]
          simp only [if_true, freeHalf_mem _ _ _ _ _ hu, HalfLink, hu, true_and, hc, false_iff, Bool.false_eq_true, iff_false]
          rw [eq_comm (a := l.group)]
          tauto
        · rw [e5 x hu, nameIff]
          simp only [if_neg (Ne.symm hcr), if_true, freeHalf_mem _ _ _ _ _ hu, HalfLink, hu, true_and, hc, false_iff, iff_true, not_not]
          rw [eq_comm (a := l.group)]
          tauto
    · rw [if_neg (by exact hl)]
      obtain ⟨n', e1, e2, e3, e4, e5⟩ := ih n hf
      have nameIff : ∀ g p, Names (l :: rest) (nd.addr r) g p ↔ Names rest (nd.addr r) g p := by
        intro g p; simp [Names, hl]
      exact ⟨n', e1, e2, e3, fun x hu => by rw [e4 x hu, nameIff], fun x hu => by rw [e5 x hu, nameIff]⟩

/-- C83 when all calls get through: afterwards the controller has no in-use record that names the responder; the responder has lost exactly the
counterparts of the controller's records; all other in-use records are as they were. -/
theorem unlink_all_network (nd : NetDef) (c r : Nat) (hcr : c ≠ r) (n : Net) (hf : n.fates = []) :
    ∃ n', LinkOps.unlinkAll (netDevice nd c) (netDevice nd r) n = (n', none)
      ∧ (∀ d, d ≠ c → d ≠ r → n'.db d = n.db d)
      ∧ (∀ x, inUseBit x.flags → (x ∈ n'.db c ↔ x ∈ n.db c ∧ x.address ≠ nd.addr r))
      ∧ (∀ x, inUseBit x.flags → (x ∈ n'.db r ↔ x ∈ n.db r ∧ ¬ (x.address = nd.addr c ∧
          ∃ l ∈ n.db c, l.address = nd.addr r ∧ l.group = x.group ∧ (controllerBit l.flags ↔ ¬ controllerBit x.flags)))) := by
  obtain ⟨n', e1, e2, e3, e4, e5⟩ := unlinkLoop_net nd c r hcr (n.db c) n hf
  have hl : (netDevice nd c).links n = (n, n.db c, none) := by simp [netDevice, Net.call, hf]
  refine ⟨n', by rw [LinkOps.unlinkAll, hl]; exact e1, e3, fun x hu => ?_, e5⟩
  rw [e4 x hu]
  constructor
  · rintro ⟨h1, h2⟩
    exact ⟨h1, fun h => h2 ⟨h, x, h1, h, rfl, Iff.rfl⟩⟩
  · rintro ⟨h1, h2⟩
    exact ⟨h1, fun h => h2 h.1⟩

example : ((LinkOps.unlinkAll (netDevice plainNet 0) (netDevice plainNet 1)
      ⟨fun d => if d = 0 then [⟨0xe2, 1, 2, 0, 0, 0⟩, ⟨0xe2, 1, 9, 0, 0, 0⟩] else [⟨0xa2, 1, 1, 0, 0, 0⟩, ⟨0xa2, 2, 1, 0, 0, 0⟩], none, []⟩).1.db 1)
    = [⟨0x22, 1, 1, 0, 0, 0⟩, ⟨0xa2, 2, 1, 0, 0, 0⟩] := by decide +kernel

end Insteon
