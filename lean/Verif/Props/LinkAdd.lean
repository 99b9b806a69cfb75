import Verif.Props.LinkSession
import Verif.Props.DeviceUpdate
import Verif.Model.PlmLinks

/-
C100-C102: adding links, filling in missing crosslinks, repairing a half-link of the modem.
-/

namespace Insteon
open Spec

/-- A device that keeps a list of records; each write may fail (then nothing is stored). A single record can be written over an
existing one or directly after the last one. -/
structure Spec.Shelf where
  db : List LinkRecord
  fates : List (Option Err)
deriving DecidableEq

/-- A write under its fate. -/
def Spec.Shelf.put (s : Shelf) (db : List LinkRecord) : Shelf × Option Err :=
  match s.fates with
  | some e :: fs => (⟨s.db, fs⟩, some e)
  | fs => (⟨db, fs.tail⟩, none)

def Spec.Shelf.putAt (s : Shelf) (i : Int) (l : LinkRecord) : Shelf × Option Err :=
  if i < 0 ∨ s.db.length < i then (s, some .linkIndexOutOfRange)
  else if i = s.db.length then s.put (s.db ++ [l])
  else s.put (s.db.set i.toNat l)

/-- The device; its other methods are not used here and do nothing. -/
def Spec.shelf (canWrite : Bool) : Linkable Shelf where
  ident := 0
  address := fun s => (s, 0#32)
  enterLinkingMode := fun s _ => (s, none)
  enterUnlinkingMode := fun s _ => (s, none)
  exitLinkingMode := fun s => (s, none)
  links := fun s => (s, s.db, none)
  updateLinks := fun s _ => (s, none)
  writeLinks := fun s ls => s.put ls
  writeLink := if canWrite then some Shelf.putAt else none

theorem free_iff (f : RecordControlFlags) : f.available = true ↔ f.toNat < 128 := by
  revert f; decide +kernel

theorem addCollect_eq (db adds : List LinkRecord) : LinkOps.addCollect db adds = fillIn db adds := by
  induction db generalizing adds with
  | nil => cases adds <;> simp [LinkOps.addCollect, fillIn]
  | cons r rs ih =>
    cases adds with
    | nil =>
      rw [LinkOps.addCollect, ih, fillIn.eq_def]
      cases rs <;> simp [fillIn]
    | cons a as =>
      rw [LinkOps.addCollect, fillIn]
      by_cases h : r.flags.toNat < 128
      · rw [if_pos ((free_iff _).2 h), if_pos h, ih]
      · rw [if_neg (fun h' => h ((free_iff _).1 h')), if_neg h, ih]

theorem fillIn_none (db : List LinkRecord) : fillIn db [] = (db, []) := by cases db <;> simp [fillIn]

theorem put_cases (s : Shelf) (db : List LinkRecord) :
    (∃ fs, s.put db = (⟨db, fs⟩, none)) ∨ ∃ fs e, s.put db = (⟨s.db, fs⟩, some e) ∧ some e ∈ s.fates := by
  rcases hf : s.fates with _ | ⟨_ | e, fs⟩ <;> simp [Shelf.put, hf]

theorem addWrite_shelf (pre db adds : List LinkRecord) (s : Shelf) (hs : s.db = pre ++ db) :
    (∃ fs, LinkOps.addWrite Shelf.putAt pre.length db adds s = (⟨pre ++ (fillIn db adds).1, fs⟩, (fillIn db adds).2, none))
      ∨ ∃ s' as e, LinkOps.addWrite Shelf.putAt pre.length db adds s = (s', as, some e) := by
  induction db generalizing pre adds s with
  | nil => exact Or.inl ⟨s.fates, by cases adds <;> simp [LinkOps.addWrite, fillIn] <;> cases s <;> simp_all⟩
  | cons r rs ih =>
    cases adds with
    | nil =>
      rw [LinkOps.addWrite, fillIn_none]
      have := ih (pre ++ [r]) [] s (by simpa using hs)
      simpa [fillIn_none] using this
    | cons a as =>
      rw [LinkOps.addWrite, fillIn]
      by_cases h : r.flags.toNat < 128
      · rw [if_pos ((free_iff _).2 h), if_pos h]
        have hput : s.putAt (pre.length : Nat) a = s.put (pre ++ a :: rs) := by
          rw [Shelf.putAt, hs, if_neg (by simp; omega), if_neg (by simp; omega)]
          simp
        rw [hput]
        rcases put_cases s (pre ++ a :: rs) with ⟨fs, hp⟩ | ⟨fs, e, hp, -⟩ <;> rw [hp]
        · have := ih (pre ++ [a]) as ⟨pre ++ a :: rs, fs⟩ (by simp)
          simpa using this
        · exact Or.inr ⟨_, _, _, rfl⟩
      · rw [if_neg (fun h' => h ((free_iff _).1 h')), if_neg h]
        have := ih (pre ++ [r]) (a :: as) s (by simpa using hs)
        simpa using this

theorem addAppend_beyond (i : Nat) (l : List LinkRecord) (err : Option Err) (s : Shelf) (hi : s.db.length < i) (hne : err ≠ none ∨ l ≠ []) :
    ∃ e, (LinkOps.addAppend Shelf.putAt i l err s).2 = some e := by
  induction l generalizing i err with
  | nil =>
    rcases err with _ | e
    · simp at hne
    · exact ⟨e, rfl⟩
  | cons a as ih =>
    have hp : s.putAt i a = (s, some .linkIndexOutOfRange) := by
      rw [Shelf.putAt, if_pos (by right; exact_mod_cast hi)]
    rw [LinkOps.addAppend, hp]
    exact ih (i + 1) _ (by omega) (Or.inl (by simp))

theorem addAppend_shelf (l : List LinkRecord) (s : Shelf) :
    (∃ fs, LinkOps.addAppend Shelf.putAt s.db.length l none s = (⟨s.db ++ l, fs⟩, none))
      ∨ ∃ e, (LinkOps.addAppend Shelf.putAt s.db.length l none s).2 = some e := by
  induction l generalizing s with
  | nil => exact Or.inl ⟨s.fates, by simp [LinkOps.addAppend]⟩
  | cons a as ih =>
    have hp : s.putAt (s.db.length : Nat) a = s.put (s.db ++ [a]) := by
      rw [Shelf.putAt, if_neg (by simp), if_pos rfl]
    rw [LinkOps.addAppend, hp]
    rcases put_cases s (s.db ++ [a]) with ⟨fs, h⟩ | ⟨fs, e, h, -⟩ <;> rw [h]
    · have := ih ⟨s.db ++ [a], fs⟩
      simpa using this
    · exact Or.inr (addAppend_beyond _ as (some e) _ (by simp) (Or.inl (by simp)))

/-- C100: if AddLinks reports success, the links have been stored: the first ones in the places of the records that were free, the
others after the last record; all other records are as before. This holds whether or not the device can write single records, and
whichever writes fail. -/
theorem add_links_stored (canWrite : Bool) (adds : List LinkRecord) (s s' : Shelf)
    (h : LinkOps.addLinks (shelf canWrite) adds s = (s', none)) : s'.db = fill s.db adds := by
  rw [LinkOps.addLinks] at h
  simp only [shelf] at h
  cases canWrite
  · simp only [Bool.false_eq_true, if_false, addCollect_eq] at h
    split_ifs at h with h0
    · rcases put_cases s ((fillIn s.db adds).1 ++ (fillIn s.db adds).2) with ⟨fs, hp⟩ | ⟨fs, e, hp, -⟩ <;> rw [hp] at h
      · rw [← (Prod.mk.inj h).1]; rfl
      · simp at h
    · rw [← (Prod.mk.inj h).1]
      have hl : ((fillIn s.db adds).1 ++ (fillIn s.db adds).2) = [] := List.eq_nil_of_length_eq_zero (by omega)
      have := fillIn_length s.db adds
      rw [fill, hl]
      rw [List.append_eq_nil_iff] at hl
      rw [hl.1] at this
      exact List.eq_nil_of_length_eq_zero this.symm
  · simp only [if_true] at h
    rcases addWrite_shelf [] s.db adds s rfl with ⟨fs, hw⟩ | ⟨s1, as, e, hw⟩
    · simp only [List.length_nil, List.nil_append] at hw
      rw [hw] at h
      dsimp only at h
      have hl : s.db.length = (Shelf.mk (fillIn s.db adds).1 fs).db.length := (fillIn_length _ _).symm
      rw [hl] at h
      rcases addAppend_shelf (fillIn s.db adds).2 ⟨(fillIn s.db adds).1, fs⟩ with ⟨fs', ha⟩ | ⟨e, ha⟩
      · rw [ha] at h
        rw [← (Prod.mk.inj h).1]; rfl
      · rw [h] at ha; simp at ha
    · simp only [List.length_nil] at hw
      rw [hw] at h; simp at h

/-- If no write fails, AddLinks succeeds. -/
theorem add_links_succeeds (canWrite : Bool) (adds db : List LinkRecord) :
    LinkOps.addLinks (shelf canWrite) adds ⟨db, []⟩ = (⟨fill db adds, []⟩, none) := by
  have hput : ∀ (db db' : List LinkRecord), Shelf.put ⟨db, []⟩ db' = (⟨db', []⟩, none) := fun _ _ => rfl
  have hadd : ∀ (pre db adds : List LinkRecord), LinkOps.addWrite Shelf.putAt pre.length db adds ⟨pre ++ db, []⟩
      = (⟨pre ++ (fillIn db adds).1, []⟩, (fillIn db adds).2, none) := by
    intro pre db
    induction db generalizing pre with
    | nil => intro adds; cases adds <;> simp [LinkOps.addWrite, fillIn]
    | cons r rs ih =>
      intro adds
      cases adds with
      | nil =>
        rw [LinkOps.addWrite, fillIn_none]
        simpa [fillIn_none] using ih (pre ++ [r]) []
      | cons a as =>
        rw [LinkOps.addWrite, fillIn]
        by_cases h : r.flags.toNat < 128
        · rw [if_pos ((free_iff _).2 h), if_pos h]
          have hp : Shelf.putAt ⟨pre ++ r :: rs, []⟩ (pre.length : Nat) a = (⟨pre ++ a :: rs, []⟩, none) := by
            rw [Shelf.putAt, if_neg (by simp; omega), if_neg (by simp; omega)]
            simp [hput]
          rw [hp]
          simpa using ih (pre ++ [a]) as
        · rw [if_neg (fun h' => h ((free_iff _).1 h')), if_neg h]
          simpa using ih (pre ++ [r]) (a :: as)
  have happ : ∀ (l db : List LinkRecord), LinkOps.addAppend Shelf.putAt db.length l none ⟨db, []⟩ = (⟨db ++ l, []⟩, none) := by
    intro l
    induction l with
    | nil => intro db; simp [LinkOps.addAppend]
    | cons a as ih =>
      intro db
      have hp : Shelf.putAt ⟨db, []⟩ (db.length : Nat) a = (⟨db ++ [a], []⟩, none) := by
        rw [Shelf.putAt, if_neg (by simp), if_pos rfl]; rfl
      rw [LinkOps.addAppend, hp]
      simpa using ih (db ++ [a])
  rw [LinkOps.addLinks]
  simp only [shelf]
  cases canWrite
  · simp only [Bool.false_eq_true, if_false, addCollect_eq]
    split_ifs with h0
    · rfl
    · have hl : ((fillIn db adds).1 ++ (fillIn db adds).2) = [] := List.eq_nil_of_length_eq_zero (by omega)
      have := fillIn_length db adds
      rw [fill, hl]
      rw [List.append_eq_nil_iff] at hl
      rw [hl.1] at this
      rw [List.eq_nil_of_length_eq_zero this.symm]
  · simp only [if_true]
    have h1 := hadd [] db adds
    simp only [List.length_nil, List.nil_append] at h1
    rw [h1]
    dsimp only
    rw [← fillIn_length db adds, happ]
    rfl

/-- A device that can write single records and whose database has one free place gets one link there and one at the end. -/
example : LinkOps.addLinks (shelf true) [⟨0xe2#8, 1#8, 0x111111#32, 0#8, 0#8, 0#8⟩, ⟨0xa2#8, 1#8, 0x111111#32, 0#8, 0#8, 0#8⟩]
    ⟨[⟨0xe2#8, 2#8, 0x222222#32, 0#8, 0#8, 0#8⟩, ⟨0x62#8, 3#8, 0x333333#32, 0#8, 0#8, 0#8⟩], []⟩
    = (⟨[⟨0xe2#8, 2#8, 0x222222#32, 0#8, 0#8, 0#8⟩, ⟨0xe2#8, 1#8, 0x111111#32, 0#8, 0#8, 0#8⟩,
        ⟨0xa2#8, 1#8, 0x111111#32, 0#8, 0#8, 0#8⟩], []⟩, none) := by decide +kernel

/-- On a device whose writes past the end do not depend on each other, the error of all but the last of them is lost. -/
theorem add_links_error_refuted :
    ¬ ∀ (env : Hist → Call → Reply) (adds : List LinkRecord) (h h' : Hist),
      LinkOps.addLinks (anyDevice env (fun _ => true) 0) adds h = (h', none) →
      ∀ i l pre, (pre ++ [Call.write 0 i l]) <+: h' → h <+: pre → (env pre (.write 0 i l)).err = none := by
  intro hall
  have := hall (fun _ c => ⟨if c = .write 0 0 LinkRecord.zero then some .plmNak else none, [], 0#32⟩)
    [LinkRecord.zero, LinkRecord.zero] [] _ (by rfl) 0 LinkRecord.zero [.links 0] (by decide) (by simp)
  simp at this

/-! ### Filling in missing crosslinks -/

/-- C101: with no free record and a single missing crosslink, it is added at the end. -/
theorem fix_crosslinks_partial (links : List LinkRecord) (addrs : List Address) (m : LinkRecord)
    (hone : LinkOps.missingCrosslinks links addrs = [m]) (hfull : ∀ l ∈ links, 128 ≤ l.flags.toNat) :
    LinkOps.fixCrosslinks links addrs = links ++ [m] := by
  have hr : ∀ ls : List LinkRecord, (∀ l ∈ ls, 128 ≤ l.flags.toNat) → LinkOps.replaceAvailable m ls = none := by
    intro ls
    induction ls with
    | nil => intro _; rfl
    | cons l rest ih =>
      intro h
      rw [LinkOps.replaceAvailable, if_neg (fun h' => by have := (free_iff _).1 h'; have := h l (by simp); omega),
        ih (fun x hx => h x (by simp [hx]))]
      rfl
  rw [LinkOps.fixCrosslinks, hone, LinkOps.fixLoop, hr links hfull, LinkOps.fixLoop]

/-- With several missing crosslinks and no free record only the last one is kept. -/
theorem fix_crosslinks_refuted :
    ¬ ∀ (links : List LinkRecord) (addrs : List Address), ∀ m ∈ LinkOps.missingCrosslinks links addrs,
      m ∈ LinkOps.fixCrosslinks links addrs := by
  intro h
  have := h [⟨0xe2#8, 1#8, 0x111111#32, 0#8, 0#8, 0#8⟩, ⟨0xe2#8, 1#8, 0x222222#32, 0#8, 0#8, 0#8⟩] [0x111111#32, 0x222222#32]
    ⟨0xa2#8, 1#8, 0x111111#32, 0#8, 0#8, 0#8⟩ (by decide +kernel)
  revert this
  decide +kernel

/-! ### Half-links of the modem -/

/-- C102: like the modem, the controller cannot write single records and answers UpdateLinks as the modem does. If it has a
half-link that the responder does not have, Link fails with "not implemented" and no linking session is started. -/
theorem link_modem_stale (env : Hist → Call → Reply) (canWrite : Nat → Bool) (g : Group) (c r : Nat) (h : Hist)
    (hw : canWrite c = false) (hu : ∀ h ls, (env h (.update c ls)).err = PlmLinks.updateLinks)
    (hl : ∀ h d, (env h (.links d)).err = none) (hlk : ∀ h h' d, (env h (.links d)).links = (env h' (.links d)).links)
    (ha : ∀ h h' d, (env h (.address d)).address = (env h' (.address d)).address)
    (hc : ∃ l ∈ (env [] (.links c)).links, HalfLink true (env [] (.address r)).address g l)
    (hr : ¬ ∃ l ∈ (env [] (.links r)).links, HalfLink false (env [] (.address c)).address g l) :
    (LinkOps.link g (anyDevice env canWrite c) (anyDevice env canWrite r) h).2 = some .insNotImplemented
      ∧ ∀ x ∈ (LinkOps.link g (anyDevice env canWrite c) (anyDevice env canWrite r) h).1,
          x ∈ h ∨ x.readOnly = true ∨ ∃ ls, x = .update c ls := by
  obtain ⟨pre, l, post, e1, e2, -, e4⟩ := link_stale_controller env canWrite g c r h (hl _ _) (hl _ _)
    (by
      obtain ⟨l, h1, h2⟩ := hc
      exact ⟨l, by rw [seenC, hlk _ []]; exact h1, by rw [ha _ []]; exact h2⟩)
    (by
      rintro ⟨l, h1, h2⟩
      refine hr ⟨l, ?_, ?_⟩
      · rw [seenR, hlk _ []] at h1; exact h1
      · rw [ha _ []] at h2; exact h2)
  have hrm := remove_links_update env canWrite c [l] (h ++ looking c r) hw (hl _ _) _ rfl
  rw [if_neg, hu] at hrm
  · rw [hrm, PlmLinks.updateLinks] at e4
    simp only [reduceCtorEq, if_false] at e4
    rw [e4]
    refine ⟨rfl, fun x hx => ?_⟩
    simp only [looking, List.append_assoc, List.mem_append, List.mem_cons, List.not_mem_nil, or_false] at hx
    rcases hx with hx | hx | hx
    · exact Or.inl hx
    · rcases hx with rfl | rfl | rfl | rfl <;> exact Or.inr (Or.inl rfl)
    · rcases hx with rfl | rfl
      · exact Or.inr (Or.inl rfl)
      · exact Or.inr (Or.inr ⟨_, rfl⟩)
  · rw [List.map_eq_nil_iff, matching, List.filter_eq_nil_iff]
    intro hn
    rw [seenC] at e1
    rw [hlk _ (h ++ [.address r]), e1] at hn
    obtain ⟨i, hi⟩ := List.mem_iff_getElem.1 (show l ∈ pre ++ l :: post by simp)
    have := hn (l, i) (by
      obtain ⟨hi, hx⟩ := hi
      rw [List.mem_iff_getElem]
      exact ⟨i, by simpa using hi, by simp [hx]⟩)
    exact this (by simpa using ⟨l, by simp, Iff.rfl, rfl, rfl⟩)

/-- A modem with a half-link and a responder without. -/
example : (LinkOps.link 1#8 (anyDevice (fun _ c => match c with
      | .update 0 _ => ⟨PlmLinks.updateLinks, [], 0#32⟩
      | .links 0 => ⟨none, [⟨0xe2#8, 1#8, 0x111111#32, 0#8, 0#8, 0#8⟩], 0#32⟩
      | .address 1 => ⟨none, [], 0x111111#32⟩
      | _ => ⟨none, [], 0#32⟩) (fun _ => false) 0)
    (anyDevice (fun _ c => match c with
      | .address 1 => ⟨none, [], 0x111111#32⟩
      | _ => ⟨none, [], 0#32⟩) (fun _ => false) 1) []).2 = some .insNotImplemented := by decide +kernel

end Insteon
