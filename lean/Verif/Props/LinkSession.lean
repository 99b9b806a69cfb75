import Verif.Props.LinkSearch

/-
C79-C83: which calls the operations of util/link.go make on devices that may answer anything, and what they report.
-/

namespace Insteon
open Spec

variable (env : Hist → Call → Reply) (canWrite : Nat → Bool)

/-! ### C79 -/

/-- Some record of the list has the same role, group and address. -/
def Spec.Listed (remove : List LinkRecord) (l : LinkRecord) : Prop := ∃ r ∈ remove, SameKey l r

instance (remove l) : Decidable (Listed remove l) := by unfold Listed; infer_instance

theorem listed_iff (remove : List LinkRecord) (l : LinkRecord) :
    (remove.any fun r => l.equal r) = true ↔ Listed remove l := by
  rw [List.any_eq_true]
  simp only [link_equal_iff_partial]
  rfl

/-- The matching records of a database with their positions, counted from `i`. -/
def Spec.matching (remove : List LinkRecord) (i : Nat) (links : List LinkRecord) : List (LinkRecord × Nat) :=
  (links.zipIdx i).filter fun p => Listed remove p.1

theorem matching_cons (remove : List LinkRecord) (i : Nat) (l : LinkRecord) (rest : List LinkRecord) :
    matching remove i (l :: rest) = if Listed remove l then (l, i) :: matching remove (i + 1) rest else matching remove (i + 1) rest := by
  rw [matching, List.zipIdx_cons, List.filter_cons]
  simp only [decide_eq_true_iff]
  rfl

theorem removeWrite_calls (d : Nat) (remove links : List LinkRecord) (i : Nat) (h : Hist) :
    LinkOps.removeWrite (fun h i l => (h ++ [Call.write d i l], (env h (.write d i l)).err)) remove i links h
      = h ++ (matching remove i links).map fun p => Call.write d p.2 (freed p.1) := by
  induction links generalizing i h with
  | nil => simp [LinkOps.removeWrite, matching]
  | cons l rest ih =>
    rw [LinkOps.removeWrite, matching_cons]
    by_cases hl : Listed remove l
    · rw [if_pos ((listed_iff _ _).2 hl), if_pos hl, ih, freed_eq]
      simp
    · rw [if_neg (fun h => hl ((listed_iff _ _).1 h)), if_neg hl, ih]

theorem removeCollect_eq (remove links : List LinkRecord) (i : Nat) :
    LinkOps.removeCollect remove links = (matching remove i links).map fun p => freed p.1 := by
  induction links generalizing i with
  | nil => rfl
  | cons l rest ih =>
    rw [LinkOps.removeCollect, matching_cons]
    by_cases hl : Listed remove l
    · rw [if_pos ((listed_iff _ _).2 hl), if_pos hl, ih (i + 1), freed_eq]
      rfl
    · rw [if_neg (fun h => hl ((listed_iff _ _).1 h)), if_neg hl, ih (i + 1)]

/-- An unreadable database: no other call is made and the error is reported. -/
theorem remove_links_unreadable (d : Nat) (remove : List LinkRecord) (h : Hist) (e : Err) (he : (env h (.links d)).err = some e) :
    LinkOps.removeLinks (anyDevice env canWrite d) remove h = (h ++ [.links d], some e) := by
  simp [LinkOps.removeLinks, anyDevice, he]

/-- C79, what is proved for devices that write single records: each matching record is written back at its place,
marked available and otherwise unchanged, and nothing else is written. Missing from the full statement: success is reported
whatever the writes returned. -/
theorem remove_links_write_partial (d : Nat) (remove : List LinkRecord) (h : Hist) (hw : canWrite d = true)
    (he : (env h (.links d)).err = none) :
    LinkOps.removeLinks (anyDevice env canWrite d) remove h
      = (h ++ [.links d] ++ (matching remove 0 (env h (.links d)).links).map (fun p => Call.write d p.2 (freed p.1)), none) := by
  simp only [LinkOps.removeLinks, anyDevice, he, hw, if_true]
  rw [removeWrite_calls]

/-- C79 for other devices: the matching records are passed to `UpdateLinks`, marked available, and its error is reported;
without a match there is no call. -/
theorem remove_links_update (d : Nat) (remove : List LinkRecord) (h : Hist) (hw : canWrite d = false)
    (he : (env h (.links d)).err = none) (ls : List LinkRecord)
    (hls : ls = (matching remove 0 (env h (.links d)).links).map fun p => freed p.1) :
    LinkOps.removeLinks (anyDevice env canWrite d) remove h
      = if ls = [] then (h ++ [.links d], none)
        else (h ++ [.links d, .update d ls], (env (h ++ [.links d]) (.update d ls)).err) := by
  simp only [LinkOps.removeLinks, anyDevice, he, hw, Bool.false_eq_true, if_false]
  rw [removeCollect_eq _ _ 0, ← hls]
  by_cases h0 : ls = []
  · simp [h0]
  · rw [if_pos (List.length_pos_iff.2 h0), if_neg h0]
    simp

/-- An environment in which device `d` has the links `db d` at every moment; addresses are given, and calls fail as told. -/
def Spec.scripted (db : Nat → List LinkRecord) (addr : Nat → Address) (fail : Hist → Call → Option Err) : Hist → Call → Reply :=
  fun h c => match c with
    | .links d => ⟨fail h c, db d, 0⟩
    | .address d => ⟨none, [], addr d⟩
    | _ => ⟨fail h c, [], 0⟩

/-- C79 in full is false of the code: a failing write is not reported. -/
theorem remove_links_refuted :
    ¬ ∀ (env : Hist → Call → Reply) (canWrite : Nat → Bool) (d : Nat) (remove : List LinkRecord) (h : Hist),
      (LinkOps.removeLinks (anyDevice env canWrite d) remove h).2 = none →
      ∀ h' i l rest, (LinkOps.removeLinks (anyDevice env canWrite d) remove h).1 = h' ++ .write d i l :: rest →
        (env h' (.write d i l)).err = none := by
  intro h
  have := h (scripted (fun _ => [⟨0xe2, 1, 5, 0, 0, 0⟩]) (fun _ => 0)
    (fun _ c => match c with | .write .. => some .devReadTimeout | _ => none)) (fun _ => true) 0 [⟨0xe2, 1, 5, 0, 0, 0⟩] []
    (by decide +kernel) [.links 0] 0 ⟨0x62, 1, 5, 0, 0, 0⟩ [] (by decide +kernel)
  revert this
  simp [scripted]

example : (LinkOps.removeLinks (anyDevice (scripted (fun _ => [⟨0xa2, 1, 5, 0, 0, 0⟩, ⟨0xe2, 1, 5, 1, 2, 3⟩, ⟨0xe2, 1, 6, 0, 0, 0⟩]) (fun _ => 0)
      fun _ _ => none) (fun _ => true) 0) [⟨0xe2, 1, 5, 0, 0, 0⟩, ⟨0xe2, 1, 6, 0, 0, 0⟩] []).1
    = [.links 0, .write 0 1 ⟨0x62, 1, 5, 1, 2, 3⟩, .write 0 2 ⟨0x62, 1, 6, 0, 0, 0⟩] := by decide +kernel

/-! ### C80 -/

/-- C80 for `ForceLink`. If the controller reports an error on entering linking mode, that is all. Otherwise the responder is
told to enter linking mode and then, whatever it and the other calls returned, controller and responder are told to leave it; the
responder's error is reported. -/
theorem force_link_session (g : Group) (c r : Nat) (h : Hist) :
    LinkOps.forceLink g (anyDevice env canWrite c) (anyDevice env canWrite r) h =
      if (env h (.enter c g)).err ≠ none then (h ++ [.enter c g], (env h (.enter c g)).err)
      else (h ++ [.enter c g, .enter r g, .exit c, .exit r], (env (h ++ [.enter c g]) (.enter r g)).err) := by
  rw [LinkOps.forceLink]
  simp only [anyDevice]
  rcases he : (env h (.enter c g)).err with _ | e <;> simp

/-- C80 for `Unlink`. -/
theorem unlink_session (g : Group) (c r : Nat) (h : Hist) :
    LinkOps.unlink g (anyDevice env canWrite c) (anyDevice env canWrite r) h =
      if (env h (.unlink c g)).err ≠ none then (h ++ [.unlink c g], (env h (.unlink c g)).err)
      else (h ++ [.unlink c g, .enter r g, .exit c, .exit r], (env (h ++ [.unlink c g]) (.enter r g)).err) := by
  rw [LinkOps.unlink]
  simp only [anyDevice]
  rcases he : (env h (.unlink c g)).err with _ | e <;> simp

/-- A responder that does not answer. -/
example : LinkOps.forceLink 1 (anyDevice (fun _ c => ⟨if c = .enter 1 1 then some .devReadTimeout else none, [], 0⟩) canWrite 0)
    (anyDevice (fun _ c => ⟨if c = .enter 1 1 then some .devReadTimeout else none, [], 0⟩) canWrite 1) []
    = ([.enter 0 1, .enter 1 1, .exit 0, .exit 1], some .devReadTimeout) := by
  rw [force_link_session]; simp

/-! ### C81 -/

/-- The calls `Link` makes to look for existing links. -/
def Spec.looking (c r : Nat) : Hist := [.address r, .links c, .address c, .links r]

/-- What the controller, and then the responder, return for their links when `Link` looks. -/
def Spec.seenC (h : Hist) (c r : Nat) : Reply := env (h ++ [.address r]) (.links c)
def Spec.seenR (h : Hist) (c r : Nat) : Reply := env (h ++ [.address r, .links c, .address c]) (.links r)

/-- The half-link of the controller, and of the responder, is there. -/
def Spec.seesC (h : Hist) (g : BitVec 8) (c r : Nat) : Prop :=
  ∃ l ∈ (seenC env h c r).links, HalfLink true (env h (.address r)).address g l
def Spec.seesR (h : Hist) (g : BitVec 8) (c r : Nat) : Prop :=
  ∃ l ∈ (seenR env h c r).links, HalfLink false (env (h ++ [.address r, .links c]) (.address c)).address g l

theorem findLoop_found (c : Bool) (a : Address) (g : Group) (links : List LinkRecord) (h : ∃ l ∈ links, HalfLink c a g l) :
    ∃ pre l post, links = pre ++ l :: post ∧ HalfLink c a g l ∧ (∀ x ∈ pre, ¬ HalfLink c a g x) ∧ LinkOps.findLoop c a g links = (l, none) := by
  rcases findLoop_spec c a g links with h1 | ⟨h1, -⟩
  · exact h1
  · obtain ⟨l, hl, h2⟩ := h; exact absurd h2 (h1 l hl)

theorem findLoop_none (c : Bool) (a : Address) (g : Group) (links : List LinkRecord) (h : ¬ ∃ l ∈ links, HalfLink c a g l) :
    LinkOps.findLoop c a g links = (LinkRecord.zero, some .linkNotFound) := by
  rcases findLoop_spec c a g links with ⟨pre, l, post, h1, h2, -, -⟩ | ⟨-, h2⟩
  · exact absurd ⟨l, by simp [h1], h2⟩ h
  · exact h2

theorem findAny (d : Nat) (c : Bool) (a : Address) (g : Group) (h : Hist) (he : (env h (.links d)).err = none) :
    LinkOps.findLinkRecord (anyDevice env canWrite d) c a g h = (h ++ [.links d], LinkOps.findLoop c a g (env h (.links d)).links) := by
  simp [LinkOps.findLinkRecord, anyDevice, he]

theorem addressAny (d : Nat) (h : Hist) :
    (anyDevice env canWrite d).address h = (h ++ [.address d], (env h (.address d)).address) := rfl

/-- C81: both half-links exist. Nothing but looking is done and success is reported. -/
theorem link_both (g : Group) (c r : Nat) (h : Hist) (hc : (seenC env h c r).err = none) (hr : (seenR env h c r).err = none)
    (h1 : seesC env h g c r) (h2 : seesR env h g c r) :
    LinkOps.link g (anyDevice env canWrite c) (anyDevice env canWrite r) h = (h ++ looking c r, none) := by
  obtain ⟨-, l1, -, -, -, -, f1⟩ := findLoop_found _ _ _ _ h1
  obtain ⟨-, l2, -, -, -, -, f2⟩ := findLoop_found _ _ _ _ h2
  simp only [seenC, seenR] at hc hr f1 f2
  simp [LinkOps.link, LinkOps.findLinkRecord, anyDevice, hc, hr, f1, f2, looking]

/-- C81: neither exists. One linking session, nothing else. -/
theorem link_neither (g : Group) (c r : Nat) (h : Hist) (hc : (seenC env h c r).err = none) (hr : (seenR env h c r).err = none)
    (h1 : ¬ seesC env h g c r) (h2 : ¬ seesR env h g c r) :
    LinkOps.link g (anyDevice env canWrite c) (anyDevice env canWrite r) h
      = LinkOps.forceLink g (anyDevice env canWrite c) (anyDevice env canWrite r) (h ++ looking c r) := by
  have f1 := findLoop_none _ _ _ _ h1
  have f2 := findLoop_none _ _ _ _ h2
  simp only [seenC, seenR] at hc hr f1 f2
  simp [LinkOps.link, LinkOps.findLinkRecord, anyDevice, hc, hr, f1, f2, looking]

/-- C81: only the controller has its half-link. The first such record is removed and then, if that was successful, one linking
session is run. -/
theorem link_stale_controller (g : Group) (c r : Nat) (h : Hist) (hc : (seenC env h c r).err = none) (hr : (seenR env h c r).err = none)
    (h1 : seesC env h g c r) (h2 : ¬ seesR env h g c r) :
    ∃ pre l post, (seenC env h c r).links = pre ++ l :: post ∧ HalfLink true (env h (.address r)).address g l
      ∧ (∀ x ∈ pre, ¬ HalfLink true (env h (.address r)).address g x)
      ∧ LinkOps.link g (anyDevice env canWrite c) (anyDevice env canWrite r) h
        = (let rm := LinkOps.removeLinks (anyDevice env canWrite c) [l] (h ++ looking c r)
          if rm.2 = none then LinkOps.forceLink g (anyDevice env canWrite c) (anyDevice env canWrite r) rm.1 else rm) := by
  obtain ⟨pre, l, post, e1, e2, e3, f1⟩ := findLoop_found _ _ _ _ h1
  have f2 := findLoop_none _ _ _ _ h2
  refine ⟨pre, l, post, e1, e2, e3, ?_⟩
  simp only [seenC, seenR] at hc hr f1 f2
  have q1 := findAny env canWrite c true (env h (.address r)).address g _ hc
  have q2 := findAny env canWrite r false (env (h ++ [.address r, .links c]) (.address c)).address g _ hr
  simp [LinkOps.link, addressAny, q1, q2, f1, f2, looking]
  exact if_congr Iff.rfl rfl rfl

/-- C81: only the responder has its half-link. The first such record is removed and then one linking session is run, unless the
removal failed (with an error other than link-not-found). -/
theorem link_stale_responder (g : Group) (c r : Nat) (h : Hist) (hc : (seenC env h c r).err = none) (hr : (seenR env h c r).err = none)
    (h1 : ¬ seesC env h g c r) (h2 : seesR env h g c r) :
    ∃ pre l post, (seenR env h c r).links = pre ++ l :: post
      ∧ HalfLink false (env (h ++ [.address r, .links c]) (.address c)).address g l
      ∧ (∀ x ∈ pre, ¬ HalfLink false (env (h ++ [.address r, .links c]) (.address c)).address g x)
      ∧ LinkOps.link g (anyDevice env canWrite c) (anyDevice env canWrite r) h
        = (let rm := LinkOps.removeLinks (anyDevice env canWrite r) [l] (h ++ looking c r)
          if rm.2 = none ∨ rm.2 = some .linkNotFound
          then LinkOps.forceLink g (anyDevice env canWrite c) (anyDevice env canWrite r) rm.1 else rm) := by
  have f1 := findLoop_none _ _ _ _ h1
  obtain ⟨pre, l, post, e1, e2, e3, f2⟩ := findLoop_found _ _ _ _ h2
  refine ⟨pre, l, post, e1, e2, e3, ?_⟩
  simp only [seenC, seenR] at hc hr f1 f2
  have q1 := findAny env canWrite c true (env h (.address r)).address g _ hc
  have q2 := findAny env canWrite r false (env (h ++ [.address r, .links c]) (.address c)).address g _ hr
  simp [LinkOps.link, addressAny, q1, q2, f1, f2, looking]
  exact if_congr Iff.rfl rfl rfl

/-- C81: a database cannot be read. Nothing but looking is done and the error is reported, except for the error
link-not-found. -/
theorem link_unreadable (g : Group) (c r : Nat) (h : Hist) (e : Err) (he : e ≠ .linkNotFound) :
    ((seenC env h c r).err = some e →
      LinkOps.link g (anyDevice env canWrite c) (anyDevice env canWrite r) h = (h ++ [.address r, .links c], some e))
    ∧ ((seenC env h c r).err = none → (seenR env h c r).err = some e →
      LinkOps.link g (anyDevice env canWrite c) (anyDevice env canWrite r) h = (h ++ looking c r, some e)) := by
  constructor
  · intro hc
    simp only [seenC] at hc
    simp [LinkOps.link, LinkOps.findLinkRecord, anyDevice, hc, he]
  · intro hc hr
    simp only [seenC] at hc
    simp only [seenR] at hr
    rcases hf : LinkOps.findLoop true (env h (.address r)).address g (env (h ++ [.address r]) (.links c)).links with ⟨l, err⟩
    have herr : err = none ∨ err = some .linkNotFound := by
      rcases findLoop_spec true (env h (.address r)).address g (env (h ++ [.address r]) (.links c)).links with ⟨_, _, _, _, _, _, h4⟩ | ⟨_, h2⟩
      · rw [hf] at h4; left; simpa using congrArg Prod.snd h4
      · rw [hf] at h2; right; simpa using congrArg Prod.snd h2
    rcases herr with rfl | rfl <;>
      simp [LinkOps.link, LinkOps.findLinkRecord, anyDevice, hc, hr, he, hf, looking]

/-- Calls that read or write the database of device `d`. -/
def Spec.Call.onDatabase (d : Nat) : Call → Bool
  | .links x | .write x _ _ | .update x _ => x = d
  | _ => false

theorem remove_calls (d : Nat) (remove : List LinkRecord) (h : Hist) :
    ∃ calls, (LinkOps.removeLinks (anyDevice env canWrite d) remove h).1 = h ++ calls ∧ ∀ x ∈ calls, Call.onDatabase d x = true := by
  rcases he : (env h (.links d)).err with _ | e
  · rcases hw : canWrite d
    · have := remove_links_update env canWrite d remove h hw he _ rfl
      rw [this]
      split_ifs
      · exact ⟨[.links d], rfl, by simp [Call.onDatabase]⟩
      · exact ⟨_, rfl, by simp [Call.onDatabase]⟩
    · rw [remove_links_write_partial env canWrite d remove h hw he]
      refine ⟨_, List.append_assoc _ _ _, ?_⟩
      intro x hx
      simp only [List.mem_append, List.mem_singleton, List.mem_map] at hx
      rcases hx with rfl | ⟨p, -, rfl⟩ <;> simp [Call.onDatabase]
  · rw [remove_links_unreadable env canWrite d remove h e he]
    exact ⟨[.links d], rfl, by simp [Call.onDatabase]⟩

theorem force_calls (g : Group) (c r : Nat) (h : Hist) :
    ∃ session, (LinkOps.forceLink g (anyDevice env canWrite c) (anyDevice env canWrite r) h).1 = h ++ session
      ∧ (session = [.enter c g, .enter r g, .exit c, .exit r]
        ∨ session = [.enter c g] ∧ (LinkOps.forceLink g (anyDevice env canWrite c) (anyDevice env canWrite r) h).2 ≠ none) := by
  rw [force_link_session]
  split_ifs with h1
  · exact ⟨_, rfl, Or.inr ⟨rfl, h1⟩⟩
  · exact ⟨_, rfl, Or.inl rfl⟩

/-- C81 in one statement: with readable databases, after looking, `Link` does nothing if both half-links exist; otherwise it
works on at most one of the databases, and then runs one linking session, which is complete if success is reported; it leaves out
the session only if there was an error. -/
theorem link_one_session (g : Group) (c r : Nat) (h : Hist) (hc : (seenC env h c r).err = none) (hr : (seenR env h c r).err = none) :
    ∃ removal session d, (LinkOps.link g (anyDevice env canWrite c) (anyDevice env canWrite r) h).1 = h ++ looking c r ++ removal ++ session
      ∧ (d = c ∨ d = r) ∧ (∀ x ∈ removal, Call.onDatabase d x = true)
      ∧ (seesC env h g c r ∧ seesR env h g c r → removal = [] ∧ session = []
          ∧ (LinkOps.link g (anyDevice env canWrite c) (anyDevice env canWrite r) h).2 = none)
      ∧ (¬ (seesC env h g c r ∧ seesR env h g c r) →
          session = [.enter c g, .enter r g, .exit c, .exit r]
          ∨ (session = [] ∨ session = [.enter c g]) ∧ (LinkOps.link g (anyDevice env canWrite c) (anyDevice env canWrite r) h).2 ≠ none) := by
  by_cases h1 : seesC env h g c r <;> by_cases h2 : seesR env h g c r
  · rw [link_both env canWrite g c r h hc hr h1 h2]
    exact ⟨[], [], c, by simp, Or.inl rfl, by simp, fun _ => ⟨rfl, rfl, rfl⟩, fun h => absurd ⟨h1, h2⟩ h⟩
  · obtain ⟨-, l, -, -, -, -, hl⟩ := link_stale_controller env canWrite g c r h hc hr h1 h2
    obtain ⟨rm, r1, r2⟩ := remove_calls env canWrite c [l] (h ++ looking c r)
    rw [hl]
    dsimp only
    split_ifs with hrm
    · obtain ⟨session, s1, s2⟩ := force_calls env canWrite g c r (LinkOps.removeLinks (anyDevice env canWrite c) [l] (h ++ looking c r)).1
      refine ⟨rm, session, c, by rw [s1, r1], Or.inl rfl, r2, fun h => absurd h.2 h2, fun _ => ?_⟩
      rcases s2 with s2 | ⟨s2, s3⟩
      · exact Or.inl s2
      · exact Or.inr ⟨Or.inr s2, s3⟩
    · exact ⟨rm, [], c, by rw [r1, List.append_nil], Or.inl rfl, r2, fun h => absurd h.2 h2, fun _ => Or.inr ⟨Or.inl rfl, hrm⟩⟩
  · obtain ⟨-, l, -, -, -, -, hl⟩ := link_stale_responder env canWrite g c r h hc hr h1 h2
    obtain ⟨rm, r1, r2⟩ := remove_calls env canWrite r [l] (h ++ looking c r)
    rw [hl]
    dsimp only
    split_ifs with hrm
    · obtain ⟨session, s1, s2⟩ := force_calls env canWrite g c r (LinkOps.removeLinks (anyDevice env canWrite r) [l] (h ++ looking c r)).1
      refine ⟨rm, session, r, by rw [s1, r1], Or.inr rfl, r2, fun h => absurd h.1 h1, fun _ => ?_⟩
      rcases s2 with s2 | ⟨s2, s3⟩
      · exact Or.inl s2
      · exact Or.inr ⟨Or.inr s2, s3⟩
    · exact ⟨rm, [], r, by rw [r1, List.append_nil], Or.inr rfl, r2, fun h => absurd h.1 h1,
        fun _ => Or.inr ⟨Or.inl rfl, fun h => hrm (Or.inl h)⟩⟩
  · rw [link_neither env canWrite g c r h hc hr h1 h2]
    obtain ⟨session, s1, s2⟩ := force_calls env canWrite g c r (h ++ looking c r)
    refine ⟨[], session, c, by rw [s1]; simp, Or.inl rfl, by simp, fun h => absurd h.1 h1, fun _ => ?_⟩
    rcases s2 with s2 | ⟨s2, s3⟩
    · exact Or.inl s2
    · exact Or.inr ⟨Or.inr s2, s3⟩

/-- Both half-links; only the controller's; none. -/
example : (LinkOps.link 1 (anyDevice (scripted (fun d => if d = 0 then [⟨0xe2, 1, 6, 0, 0, 0⟩] else [⟨0xa2, 1, 5, 0, 0, 0⟩])
      (fun d => if d = 0 then 5 else 6) fun _ _ => none) (fun _ => true) 0)
    (anyDevice (scripted (fun d => if d = 0 then [⟨0xe2, 1, 6, 0, 0, 0⟩] else [⟨0xa2, 1, 5, 0, 0, 0⟩])
      (fun d => if d = 0 then 5 else 6) fun _ _ => none) (fun _ => true) 1) []) = (looking 0 1, none) := by decide +kernel

example : (LinkOps.link 1 (anyDevice (scripted (fun d => if d = 0 then [⟨0xe2, 1, 6, 0, 0, 0⟩] else [⟨0x22, 1, 5, 0, 0, 0⟩])
      (fun d => if d = 0 then 5 else 6) fun _ _ => none) (fun _ => true) 0)
    (anyDevice (scripted (fun d => if d = 0 then [⟨0xe2, 1, 6, 0, 0, 0⟩] else [⟨0x22, 1, 5, 0, 0, 0⟩])
      (fun d => if d = 0 then 5 else 6) fun _ _ => none) (fun _ => true) 1) [])
    = (looking 0 1 ++ [.links 0, .write 0 0 ⟨0x62, 1, 6, 0, 0, 0⟩, .enter 0 1, .enter 1 1, .exit 0, .exit 1], none) := by
  decide +kernel

/-- The documentation of `ErrAlreadyLinked` says it is returned when a matching link exists. It is not: `Link` returns it only if
a device did. -/
theorem already_linked_not_reported (g : Group) (c r : Nat) (h : Hist) (hc : (seenC env h c r).err = none)
    (hr : (seenR env h c r).err = none) (h1 : seesC env h g c r) (h2 : seesR env h g c r) :
    (LinkOps.link g (anyDevice env canWrite c) (anyDevice env canWrite r) h).2 ≠ some .alreadyLinked := by
  rw [link_both env canWrite g c r h hc hr h1 h2]
  simp

/-! ### C82: order of the sessions and stopping at the first error -/

/-- The pairs of different members of a list, each with the members after it. -/
def Spec.pairs {α : Type} (ne : α → α → Bool) : List α → List (α × α)
  | [] => []
  | x :: rest => (rest.filter (ne x)).map (fun y => (x, y)) ++ pairs ne rest

/-- Doing something for each member of a list until there is an error. -/
def Spec.untilError {α σ : Type} (f : α → σ → σ × Option Err) : List α → σ → σ × Option Err
  | [], s => (s, none)
  | x :: rest, s => match f x s with
    | (s, none) => untilError f rest s
    | (s, some e) => (s, some e)

theorem untilError_append {α σ : Type} (f : α → σ → σ × Option Err) (l1 l2 : List α) (s : σ) :
    untilError f (l1 ++ l2) s = match untilError f l1 s with
      | (s, none) => untilError f l2 s
      | (s, some e) => (s, some e) := by
  induction l1 generalizing s with
  | nil => rfl
  | cons x l1 ih =>
    rw [List.cons_append, untilError, untilError]
    rcases f x s with ⟨s1, _ | e⟩
    · exact ih s1
    · rfl

/-- C82: for arbitrary devices, cross-linking all of them is cross-linking each pair of different devices of the list, in
order, until there is an error, which is then reported. -/
theorem cross_link_all_order {σ : Type} (g : Group) (ds : List (Linkable σ)) (s : σ) :
    LinkOps.crossLinkAll g ds s
      = untilError (fun p => LinkOps.crossLink g p.1 p.2) (pairs (fun a b => decide (a.ident ≠ b.ident)) ds) s := by
  have inner : ∀ (d : Linkable σ) (l : List (Linkable σ)) (s : σ), LinkOps.crossInner g d l s
      = untilError (fun p => LinkOps.crossLink g p.1 p.2) ((l.filter fun b => decide (d.ident ≠ b.ident)).map fun y => (d, y)) s := by
    intro d l
    induction l with
    | nil => intro s; rfl
    | cons x l ih =>
      intro s
      rw [LinkOps.crossInner]
      by_cases hx : d.ident ≠ x.ident
      · rw [if_pos hx, List.filter_cons_of_pos (by simpa using hx), List.map_cons, untilError]
        rcases hcl : LinkOps.crossLink g d x s with ⟨s1, _ | e⟩
        · exact ih s1
        · rfl
      · rw [if_neg hx, List.filter_cons_of_neg (by simpa using hx), ih]
  induction ds generalizing s with
  | nil => rfl
  | cons d rest ih =>
    rw [LinkOps.crossLinkAll, inner, List.filter_cons_of_neg (by simp), pairs, untilError_append]
    generalize untilError (fun p : Linkable σ × Linkable σ => LinkOps.crossLink g p.1 p.2) (List.map _ (List.filter _ rest)) s = x
    rcases x with ⟨s1, _ | e⟩
    · exact ih s1
    · rfl

/-- Cross-linking two devices is linking them in one direction and then, unless that failed, in the other;
already-linked does not count as a failure. -/
theorem cross_link_order {σ : Type} (g : Group) (d1 d2 : Linkable σ) (s : σ) :
    (∀ s1 e, LinkOps.link g d1 d2 s = (s1, some e) → e.is .alreadyLinked = false → LinkOps.crossLink g d1 d2 s = (s1, some e))
    ∧ (∀ s1 e1 s2, LinkOps.link g d1 d2 s = (s1, e1) → (∀ e, e1 = some e → e.is .alreadyLinked = true) →
      (∀ e, LinkOps.link g d2 d1 s1 = (s2, some e) → e.is .alreadyLinked = false → LinkOps.crossLink g d1 d2 s = (s2, some e))
      ∧ (∀ e, LinkOps.link g d2 d1 s1 = (s2, e) → (∀ x, e = some x → x.is .alreadyLinked = true) → LinkOps.crossLink g d1 d2 s = (s2, none))) := by
  refine ⟨fun s1 e h he => ?_, fun s1 e1 s2 h he => ⟨fun e h2 he2 => ?_, fun e h2 he2 => ?_⟩⟩
  · simp [LinkOps.crossLink, h, LinkOps.isErr, he]
  · rcases e1 with _ | e1
    · simp [LinkOps.crossLink, h, h2, LinkOps.isErr, he2]
    · simp [LinkOps.crossLink, h, h2, LinkOps.isErr, he2, he e1 rfl]
  · rcases e1 with _ | e1 <;> rcases e with _ | e
    · simp [LinkOps.crossLink, h, h2, LinkOps.isErr]
    · simp [LinkOps.crossLink, h, h2, LinkOps.isErr, he2 e rfl]
    · simp [LinkOps.crossLink, h, h2, LinkOps.isErr, he e1 rfl]
    · simp [LinkOps.crossLink, h, h2, LinkOps.isErr, he2 e rfl, he e1 rfl]

/-- Every two different members of the list form one of the pairs, in the order of the list. -/
theorem pairs_all {α : Type} (ne : α → α → Bool) (l : List α) (x y : α) :
    (x, y) ∈ pairs ne l ↔ ∃ i j : Nat, i < j ∧ l[i]? = some x ∧ l[j]? = some y ∧ ne x y = true := by
  induction l with
  | nil => simp [pairs]
  | cons z l ih =>
    rw [pairs, List.mem_append, ih, List.mem_map]
    constructor
    · rintro (⟨w, hw, he⟩ | ⟨i, j, h1, h2, h3, h4⟩)
      · rw [Prod.mk.injEq] at he
        obtain ⟨rfl, rfl⟩ := he
        rw [List.mem_filter] at hw
        obtain ⟨j, hj⟩ := List.mem_iff_getElem?.1 hw.1
        exact ⟨0, j + 1, by omega, by simp, by simpa using hj, hw.2⟩
      · exact ⟨i + 1, j + 1, by omega, by simpa using h2, by simpa using h3, h4⟩
    · rintro ⟨i, j, h1, h2, h3, h4⟩
      obtain ⟨j, rfl⟩ : ∃ k, j = k + 1 := ⟨j - 1, by omega⟩
      rw [List.getElem?_cons_succ] at h3
      rcases i with _ | i
      · rw [List.getElem?_cons_zero, Option.some.injEq] at h2
        subst h2
        exact Or.inl ⟨y, List.mem_filter.2 ⟨List.mem_of_getElem? h3, h4⟩, rfl⟩
      · rw [List.getElem?_cons_succ] at h2
        exact Or.inr ⟨i, j, by omega, h2, h3, h4⟩

example : pairs (fun a b : Nat => decide (a ≠ b)) [1, 2, 3, 1] = [(1, 2), (1, 3), (2, 3), (2, 1), (3, 1)] := by decide

/-! ### C83 -/

/-- The unlinking sessions that should be run: one for each record that names the responder. -/
def Spec.unlinksFor (c r : Nat) (a : BitVec 32) (links : List LinkRecord) : Hist :=
  (links.filter fun l => l.address = a).map fun l => .unlink (if controllerBit l.flags then c else r) l.group

/-- Calls that start an unlinking session. -/
def Spec.Call.isUnlink : Call → Bool
  | .unlink .. => true
  | _ => false

theorem unlink_calls (g : Group) (c r : Nat) (h : Hist) :
    ∃ more, (LinkOps.unlink g (anyDevice env canWrite c) (anyDevice env canWrite r) h).1 = h ++ .unlink c g :: more
      ∧ more.filter Call.isUnlink = [] := by
  rw [unlink_session]
  split_ifs
  · exact ⟨[], by simp, rfl⟩
  · exact ⟨[.enter r g, .exit c, .exit r], by simp, rfl⟩

theorem unlinkLoop_calls (c r : Nat) (a : Address) (ha : ∀ h, (env h (.address r)).address = a) (links : List LinkRecord)
    (err : Option Err) (h : Hist) :
    ∃ calls, (LinkOps.unlinkLoop (anyDevice env canWrite c) (anyDevice env canWrite r) links err h).1 = h ++ calls
      ∧ calls.filter Call.isUnlink = unlinksFor c r a links := by
  induction links generalizing err h with
  | nil => exact ⟨[], by simp [LinkOps.unlinkLoop], rfl⟩
  | cons l rest ih =>
    rw [LinkOps.unlinkLoop]
    have h1 : ((anyDevice env canWrite r).address h) = (h ++ [.address r], a) := by simp [anyDevice, ha]
    rw [h1]
    by_cases hl : l.address = a
    · rw [if_pos (by exact hl)]
      by_cases hc : controllerBit l.flags
      · rw [if_pos ((controller_eq_iff _ true).2 (by simpa using hc))]
        obtain ⟨more, m1, m2⟩ := unlink_calls env canWrite l.group c r (h ++ [.address r])
        obtain ⟨calls, c1, c2⟩ := ih (LinkOps.unlink l.group (anyDevice env canWrite c) (anyDevice env canWrite r) (h ++ [.address r])).2
          (LinkOps.unlink l.group (anyDevice env canWrite c) (anyDevice env canWrite r) (h ++ [.address r])).1
        refine ⟨.address r :: .unlink c l.group :: (more ++ calls), by rw [c1, m1]; simp, ?_⟩
        rw [List.filter_cons_of_neg (by simp [Call.isUnlink]), List.filter_cons_of_pos (by simp [Call.isUnlink]), List.filter_append,
          m2, List.nil_append, c2, unlinksFor, unlinksFor, List.filter_cons_of_pos (by simpa using hl), List.map_cons, if_pos hc]
      · rw [if_neg (fun h => hc (by simpa using (controller_eq_iff _ true).1 h))]
        obtain ⟨more, m1, m2⟩ := unlink_calls env canWrite l.group r c (h ++ [.address r])
        obtain ⟨calls, c1, c2⟩ := ih (LinkOps.unlink l.group (anyDevice env canWrite r) (anyDevice env canWrite c) (h ++ [.address r])).2
          (LinkOps.unlink l.group (anyDevice env canWrite r) (anyDevice env canWrite c) (h ++ [.address r])).1
        refine ⟨.address r :: .unlink r l.group :: (more ++ calls), by rw [c1, m1]; simp, ?_⟩
        rw [List.filter_cons_of_neg (by simp [Call.isUnlink]), List.filter_cons_of_pos (by simp [Call.isUnlink]), List.filter_append,
          m2, List.nil_append, c2, unlinksFor, unlinksFor, List.filter_cons_of_pos (by simpa using hl), List.map_cons, if_neg hc]
    · rw [if_neg (by exact hl)]
      obtain ⟨calls, c1, c2⟩ := ih err (h ++ [.address r])
      refine ⟨.address r :: calls, by rw [c1]; simp, ?_⟩
      rw [List.filter_cons_of_neg (by simp [Call.isUnlink]), c2, unlinksFor, unlinksFor, List.filter_cons_of_neg (by simpa using hl)]

/-- C83, what is proved about the sessions: for a readable database exactly one unlinking session is started for each record
that names the responder, in order, with the record's group, led by the device that the record makes the controller. -/
theorem unlink_all_sessions_partial (c r : Nat) (a : Address) (h : Hist) (ha : ∀ h, (env h (.address r)).address = a)
    (he : (env h (.links c)).err = none) :
    ∃ calls, (LinkOps.unlinkAll (anyDevice env canWrite c) (anyDevice env canWrite r) h).1 = h ++ calls
      ∧ calls.filter Call.isUnlink = unlinksFor c r a (env h (.links c)).links := by
  obtain ⟨calls, c1, c2⟩ := unlinkLoop_calls env canWrite c r a ha (env h (.links c)).links none (h ++ [.links c])
  refine ⟨.links c :: calls, ?_, by simpa [Call.isUnlink] using c2⟩
  have : LinkOps.unlinkAll (anyDevice env canWrite c) (anyDevice env canWrite r) h
      = LinkOps.unlinkLoop (anyDevice env canWrite c) (anyDevice env canWrite r) (env h (.links c)).links none (h ++ [.links c]) := by
    simp [LinkOps.unlinkAll, anyDevice, he]
  rw [this, c1]
  simp

theorem unlinkLoop_append (c r : Nat) (l1 l2 : List LinkRecord) (err : Option Err) (h : Hist) :
    LinkOps.unlinkLoop (anyDevice env canWrite c) (anyDevice env canWrite r) (l1 ++ l2) err h
      = (let x := LinkOps.unlinkLoop (anyDevice env canWrite c) (anyDevice env canWrite r) l1 err h
        LinkOps.unlinkLoop (anyDevice env canWrite c) (anyDevice env canWrite r) l2 x.2 x.1) := by
  induction l1 generalizing err h with
  | nil => rfl
  | cons l l1 ih =>
    rw [List.cons_append, LinkOps.unlinkLoop, LinkOps.unlinkLoop]
    dsimp only
    split_ifs <;> exact ih _ _

theorem unlinkLoop_skip (c r : Nat) (a : Address) (ha : ∀ h, (env h (.address r)).address = a) (links : List LinkRecord)
    (hn : ∀ l ∈ links, l.address ≠ a) (err : Option Err) (h : Hist) :
    LinkOps.unlinkLoop (anyDevice env canWrite c) (anyDevice env canWrite r) links err h
      = (h ++ List.replicate links.length (.address r), err) := by
  induction links generalizing h with
  | nil => simp [LinkOps.unlinkLoop]
  | cons l rest ih =>
    rw [LinkOps.unlinkLoop]
    have h1 : ((anyDevice env canWrite r).address h) = (h ++ [.address r], a) := by simp [anyDevice, ha]
    rw [h1, if_neg (by exact hn l (by simp)), ih (fun x hx => hn x (by simp [hx]))]
    simp [List.replicate_succ]

/-- C83, what is proved about the error: only the outcome of the last session is reported. Missing from the full
statement: errors of the sessions before it. -/
theorem unlink_all_error_partial (c r : Nat) (a : Address) (h : Hist) (ha : ∀ h, (env h (.address r)).address = a)
    (he : (env h (.links c)).err = none) :
    (∀ pre l post, (env h (.links c)).links = pre ++ l :: post → l.address = a → (∀ x ∈ post, x.address ≠ a) →
      ∃ h', (LinkOps.unlinkAll (anyDevice env canWrite c) (anyDevice env canWrite r) h).2
        = if controllerBit l.flags then (LinkOps.unlink l.group (anyDevice env canWrite c) (anyDevice env canWrite r) h').2
          else (LinkOps.unlink l.group (anyDevice env canWrite r) (anyDevice env canWrite c) h').2)
    ∧ ((∀ x ∈ (env h (.links c)).links, x.address ≠ a) →
      (LinkOps.unlinkAll (anyDevice env canWrite c) (anyDevice env canWrite r) h).2 = none) := by
  have hu : LinkOps.unlinkAll (anyDevice env canWrite c) (anyDevice env canWrite r) h
      = LinkOps.unlinkLoop (anyDevice env canWrite c) (anyDevice env canWrite r) (env h (.links c)).links none (h ++ [.links c]) := by
    simp [LinkOps.unlinkAll, anyDevice, he]
  rw [hu]
  constructor
  · intro pre l post hl hla hpost
    rw [hl, unlinkLoop_append]
    dsimp only
    set x := LinkOps.unlinkLoop (anyDevice env canWrite c) (anyDevice env canWrite r) pre none (h ++ [.links c])
    rw [LinkOps.unlinkLoop]
    have h1 : ((anyDevice env canWrite r).address x.1) = (x.1 ++ [.address r], a) := by simp [anyDevice, ha]
    rw [h1, if_pos (by exact hla), unlinkLoop_skip env canWrite c r a ha post hpost]
    refine ⟨x.1 ++ [.address r], ?_⟩
    by_cases hc : controllerBit l.flags
    · rw [if_pos ((controller_eq_iff _ true).2 (by simpa using hc)), if_pos hc]
    · rw [if_neg (fun h => hc (by simpa using (controller_eq_iff _ true).1 h)), if_neg hc]
  · intro hn
    rw [unlinkLoop_skip env canWrite c r a ha _ hn]

/-- C83 in full is false of the code: the first of two sessions fails, success is reported. -/
theorem unlink_all_error_refuted :
    ¬ ∀ (env : Hist → Call → Reply) (c r : Nat) (h : Hist),
      (LinkOps.unlinkAll (anyDevice env (fun _ => true) c) (anyDevice env (fun _ => true) r) h).2 = none →
      ∀ h' call rest, (LinkOps.unlinkAll (anyDevice env (fun _ => true) c) (anyDevice env (fun _ => true) r) h).1 = h' ++ call :: rest →
        Call.isUnlink call = true → (env h' call).err = none := by
  intro h
  have := h (scripted (fun _ => [⟨0xe2, 1, 6, 0, 0, 0⟩, ⟨0xe2, 2, 6, 0, 0, 0⟩]) (fun _ => 6)
    (fun _ c => if c = .unlink 0 1 then some .devReadTimeout else none)) 0 1 [] (by decide +kernel) [.links 0, .address 1] (.unlink 0 1)
    [.address 1, .unlink 0 2, .enter 1 2, .exit 0, .exit 1] (by decide +kernel) rfl
  revert this
  simp [scripted]

example : (LinkOps.unlinkAll (anyDevice (scripted (fun _ => [⟨0xe2, 1, 6, 0, 0, 0⟩, ⟨0xe2, 1, 7, 0, 0, 0⟩, ⟨0xa2, 2, 6, 0, 0, 0⟩]) (fun _ => 6)
      fun _ _ => none) (fun _ => true) 0) (anyDevice (scripted (fun _ => []) (fun _ => 6) fun _ _ => none) (fun _ => true) 1) [])
    = ([.links 0, .address 1, .unlink 0 1, .enter 1 1, .exit 0, .exit 1, .address 1, .address 1, .unlink 1 2, .enter 0 2, .exit 1, .exit 0], none) := by
  decide +kernel

end Insteon
