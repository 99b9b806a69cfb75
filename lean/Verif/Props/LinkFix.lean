import Verif.Props.LinkAdd
import Verif.Props.LinkSearch
import Mathlib.Tactic.Ring

/-
C101: which of the missing crosslinks the computed list contains.
-/

namespace Insteon
open Spec

/-- The number of free records of a list. -/
def Spec.freeRecords (links : List LinkRecord) : Nat := (links.filter (fun l => decide (l.flags.toNat < 128))).length

/-- Missing crosslinks are records in use. -/
theorem missing_in_use (links : List LinkRecord) (addrs : List Address) (m : LinkRecord)
    (h : m ∈ LinkOps.missingCrosslinks links addrs) : ¬ m.flags.toNat < 128 := by
  obtain ⟨-, ⟨l, -, hl, rfl⟩, -⟩ := missing_crosslinks_sound links addrs m h
  rw [← flipRole_mirrored]
  intro hf
  have h1 := (free_iff _).2 hf
  have : ∀ f : RecordControlFlags, inUseBit f →
      (if f.controller then f.setResponder else f.setController).available = false := by
    intro f; unfold inUseBit; revert f; decide +kernel
  rw [LinkOps.flipRole] at h1
  dsimp only at h1
  rw [this _ hl] at h1
  exact absurd h1 (by decide)

theorem replaceAvailable_none (m : LinkRecord) (ls : List LinkRecord) (h : freeRecords ls = 0) :
    LinkOps.replaceAvailable m ls = none := by
  induction ls with
  | nil => rfl
  | cons l rest ih =>
    rw [freeRecords, List.length_eq_zero_iff, List.filter_cons] at h
    split_ifs at h with hl
    rw [LinkOps.replaceAvailable, if_neg (fun h' => hl (by simpa using (free_iff _).1 h')), ih (by rw [freeRecords, h]; rfl)]
    rfl

/-- Putting in one record and then others is putting in all of them. -/
theorem replaceAvailable_some (m : LinkRecord) (hm : ¬ m.flags.toNat < 128) (ls : List LinkRecord) (h : 0 < freeRecords ls) :
    ∃ ls', LinkOps.replaceAvailable m ls = some ls' ∧ freeRecords ls' + 1 = freeRecords ls ∧
      ∀ ms, (fillIn ls' ms).1 = (fillIn ls (m :: ms)).1 := by
  induction ls with
  | nil => simp [freeRecords] at h
  | cons l rest ih =>
    by_cases hl : l.flags.toNat < 128
    · refine ⟨m :: rest, by rw [LinkOps.replaceAvailable, if_pos ((free_iff _).2 hl)], ?_, fun ms => ?_⟩
      · simp [freeRecords, hl, hm]
      · cases ms with
        | nil => rw [fillIn_none, fillIn, if_pos hl]; simp [fillIn_none]
        | cons a as => rw [fillIn, if_neg hm, fillIn, if_pos hl]
    · have h' : 0 < freeRecords rest := by simpa [freeRecords, hl] using h
      obtain ⟨ls', g1, g2, g3⟩ := ih h'
      refine ⟨l :: ls', ?_, ?_, fun ms => ?_⟩
      · rw [LinkOps.replaceAvailable, if_neg (fun h' => hl ((free_iff _).1 h')), g1]; rfl
      · simpa [freeRecords, hl] using g2
      · cases ms with
        | nil =>
          have := g3 []
          rw [fillIn_none] at this ⊢
          rw [fillIn, if_neg hl]
          simpa using this
        | cons a as =>
          rw [fillIn, if_neg hl, fillIn, if_neg hl]
          have := g3 (a :: as)
          simpa using this

theorem fixLoop_room (links ms rest cur : List LinkRecord) (hm : ∀ m ∈ ms, ¬ m.flags.toNat < 128)
    (h : ms.length ≤ freeRecords cur) :
    LinkOps.fixLoop links (ms ++ rest) cur = LinkOps.fixLoop links rest (fillIn cur ms).1 ∧
      freeRecords (fillIn cur ms).1 = freeRecords cur - ms.length := by
  induction ms generalizing cur with
  | nil => simp [fillIn_none]
  | cons m ms ih =>
    obtain ⟨ls', g1, g2, g3⟩ := replaceAvailable_some m (hm m (by simp)) cur (by simp at h; omega)
    rw [List.cons_append, LinkOps.fixLoop, g1]
    dsimp only
    have := ih ls' (fun x hx => hm x (by simp [hx])) (by simp at h; omega)
    rw [g3] at this
    refine ⟨this.1, ?_⟩
    rw [this.2]
    simp only [List.length_cons]
    omega

theorem freeRecords_append (a b : List LinkRecord) : freeRecords (a ++ b) = freeRecords a + freeRecords b := by
  simp [freeRecords]

theorem fillIn_tail (links t ms : List LinkRecord) (ht : freeRecords t = 0) :
    (fillIn (links ++ t) ms).1 = (fillIn links ms).1 ++ t := by
  induction links generalizing ms with
  | nil =>
    rw [List.nil_append]
    have h0 : (fillIn [] ms).1 = [] := by cases ms <;> simp [fillIn]
    rw [h0, List.nil_append]
    induction t generalizing ms with
    | nil => cases ms <;> simp [fillIn]
    | cons x xs ih =>
      rw [freeRecords, List.length_eq_zero_iff, List.filter_cons] at ht
      split_ifs at ht with hx
      cases ms with
      | nil => rw [fillIn_none]
      | cons m ms =>
        rw [fillIn, if_neg (by simpa using hx)]
        have := ih (by rw [freeRecords, ht]; rfl) (m :: ms) (by simp [fillIn])
        simp [this]
  | cons l ls ih =>
    cases ms with
    | nil => simp [fillIn_none]
    | cons m ms =>
      rw [List.cons_append, fillIn, fillIn]
      by_cases hl : l.flags.toNat < 128
      · rw [if_pos hl, if_pos hl]; simp [ih]
      · rw [if_neg hl, if_neg hl]; simp [ih]

theorem fixLoop_exact (links : List LinkRecord) (n : Nat) (ms t : List LinkRecord) (hn : ms.length ≤ n)
    (hm : ∀ m ∈ ms, ¬ m.flags.toNat < 128) (ht : freeRecords t = 0) :
    LinkOps.fixLoop links ms (links ++ t) =
      (fillIn links (ms.drop ((freeRecords links + 1) * (ms.length / (freeRecords links + 1))))).1 ++
        if ms.length ≤ freeRecords links then t
        else (ms[(freeRecords links + 1) * (ms.length / (freeRecords links + 1)) - 1]?).toList := by
  induction n generalizing ms t with
  | zero =>
    have : ms = [] := List.eq_nil_of_length_eq_zero (by omega)
    subst this
    simp [LinkOps.fixLoop, fillIn_none]
  | succ n ih =>
    set f := freeRecords links with hf
    by_cases hle : ms.length ≤ f
    · have hq : ms.length / (f + 1) = 0 := Nat.div_eq_of_lt (by omega)
      have h1 := fixLoop_room links ms [] (links ++ t) hm (by rw [freeRecords_append, ← hf]; omega)
      rw [List.append_nil, LinkOps.fixLoop, fillIn_tail _ _ _ ht] at h1
      rw [h1.1, if_pos hle, hq, Nat.mul_zero, List.drop_zero]
    · have hsplit : ms = ms.take f ++ ms[f]'(by omega) :: ms.drop (f + 1) := by
        rw [← List.drop_eq_getElem_cons, List.take_append_drop]
      have hq : ms.length / (f + 1) = (ms.length - (f + 1)) / (f + 1) + 1 :=
        Nat.div_eq_sub_div (by omega) (by omega)
      set m := ms[f]'(by omega) with hmdef
      have hmem : m ∈ ms := List.getElem_mem _
      have hl : (ms.take f).length = f := by simp; omega
      have h1 := fixLoop_room links (ms.take f) (m :: ms.drop (f + 1)) (links ++ t)
        (fun x hx => hm x (List.mem_of_mem_take hx)) (by rw [freeRecords_append, ← hf, hl]; omega)
      rw [← hsplit] at h1
      have hfree : freeRecords (fillIn (links ++ t) (ms.take f)).1 = 0 := by
        rw [h1.2, freeRecords_append, ← hf, ht, hl]; omega
      rw [h1.1, LinkOps.fixLoop, replaceAvailable_none _ _ hfree]
      dsimp only
      rw [ih (ms.drop (f + 1)) [m] (by simp; omega) (fun x hx => hm x (List.mem_of_mem_drop hx))
        (by simp [freeRecords, hm m hmem]), if_neg hle, hq, List.length_drop, List.drop_drop]
      have hidx : (f + 1) * ((ms.length - (f + 1)) / (f + 1) + 1) = f + 1 + (f + 1) * ((ms.length - (f + 1)) / (f + 1)) := by ring
      rw [hidx]
      congr 1
      by_cases h2 : ms.length - (f + 1) ≤ f
      · rw [if_pos h2, Nat.div_eq_of_lt (by omega)]
        simp only [Nat.mul_zero, Nat.add_zero, Nat.add_sub_cancel]
        rw [List.getElem?_eq_getElem (by omega)]
        rfl
      · rw [if_neg h2, List.getElem?_drop]
        have : 1 ≤ (ms.length - (f + 1)) / (f + 1) := (Nat.one_le_div_iff (by omega)).mpr (by omega)
        have h3 : f + 1 ≤ (f + 1) * ((ms.length - (f + 1)) / (f + 1)) := Nat.le_mul_of_pos_right _ this
        congr 2
        omega

/-- C101, exactly: with `f` free records, the missing crosslinks are taken in groups of `f + 1`. The free records are filled
with those after the last full group, and the last one of the last full group follows at the end; all others
are not in the computed list. -/
theorem fix_crosslinks_exact_partial (links : List LinkRecord) (addrs : List Address) (missing : List LinkRecord) (f q : Nat)
    (hm : missing = LinkOps.missingCrosslinks links addrs) (hf : f = freeRecords links) (hq : q = missing.length / (f + 1)) :
    LinkOps.fixCrosslinks links addrs =
      (fillIn links (missing.drop ((f + 1) * q))).1 ++
        if missing.length ≤ f then [] else (missing[(f + 1) * q - 1]?).toList := by
  subst hq hf
  have := fixLoop_exact links _ missing [] le_rfl (fun m h => missing_in_use links addrs m (hm ▸ h)) rfl
  rw [List.append_nil] at this
  rw [LinkOps.fixCrosslinks, ← hm, this]

/-- C101 where there is room: if there are at least as many free records as missing crosslinks, these are filled with them
in order and everything else stays. -/
theorem fix_crosslinks_room_partial (links : List LinkRecord) (addrs : List Address)
    (h : (LinkOps.missingCrosslinks links addrs).length ≤ freeRecords links) :
    LinkOps.fixCrosslinks links addrs = (fillIn links (LinkOps.missingCrosslinks links addrs)).1 ∧
    ∀ m ∈ LinkOps.missingCrosslinks links addrs, m ∈ LinkOps.fixCrosslinks links addrs := by
  have h1 : LinkOps.fixCrosslinks links addrs = (fillIn links (LinkOps.missingCrosslinks links addrs)).1 := by
    rw [fix_crosslinks_exact_partial links addrs _ _ _ rfl rfl rfl, if_pos h, Nat.div_eq_of_lt (by omega)]
    simp
  refine ⟨h1, ?_⟩
  rw [h1]
  generalize LinkOps.missingCrosslinks links addrs = ms at h
  clear h1
  induction links generalizing ms with
  | nil => simp [freeRecords] at h; subst h; simp
  | cons l ls ih =>
    cases ms with
    | nil => simp
    | cons m ms =>
      rw [fillIn]
      by_cases hl : l.flags.toNat < 128
      · rw [if_pos hl]
        intro x hx
        rcases List.mem_cons.1 hx with rfl | hx
        · simp
        · exact List.mem_cons_of_mem _ (ih ms (by simpa [freeRecords, hl] using h) x hx)
      · rw [if_neg hl]
        intro x hx
        exact List.mem_cons_of_mem _ (ih (m :: ms) (by simpa [freeRecords, hl] using h) x hx)

/-- Whatever happens, records in use are kept, in order, at the front. -/
theorem fix_crosslinks_keeps (links : List LinkRecord) (addrs : List Address) (i : Nat) (l : LinkRecord)
    (hl : links[i]? = some l) (hu : 128 ≤ l.flags.toNat) : (LinkOps.fixCrosslinks links addrs)[i]? = some l := by
  rw [fix_crosslinks_exact_partial links addrs _ _ _ rfl rfl rfl]
  generalize (LinkOps.missingCrosslinks links addrs).drop _ = ms
  have hlen : i < links.length := (List.getElem?_eq_some_iff.1 hl).1
  rw [List.getElem?_append_left (by rw [fillIn_length]; exact hlen)]
  clear hlen
  induction links generalizing ms i with
  | nil => simp at hl
  | cons x xs ih =>
    cases ms with
    | nil => rw [fillIn_none]; exact hl
    | cons m ms =>
      rw [fillIn]
      cases i with
      | zero =>
        simp only [List.getElem?_cons_zero, Option.some.injEq] at hl
        subst hl
        rw [if_neg (by omega)]
        simp
      | succ i =>
        simp only [List.getElem?_cons_succ] at hl
        by_cases hx : x.flags.toNat < 128
        · rw [if_pos hx]; simpa using ih i hl ms
        · rw [if_neg hx]; simpa using ih i hl (m :: ms)

/-- Two missing crosslinks and two free records. -/
example : LinkOps.fixCrosslinks [⟨0xe2#8, 1#8, 0x111111#32, 0#8, 0#8, 0#8⟩, ⟨0x62#8, 9#8, 0#32, 0#8, 0#8, 0#8⟩,
      ⟨0xe2#8, 1#8, 0x222222#32, 0#8, 0#8, 0#8⟩, ⟨0x62#8, 9#8, 0#32, 0#8, 0#8, 0#8⟩] [0x111111#32, 0x222222#32] =
    [⟨0xe2#8, 1#8, 0x111111#32, 0#8, 0#8, 0#8⟩, ⟨0xa2#8, 1#8, 0x111111#32, 0#8, 0#8, 0#8⟩,
      ⟨0xe2#8, 1#8, 0x222222#32, 0#8, 0#8, 0#8⟩, ⟨0xa2#8, 1#8, 0x222222#32, 0#8, 0#8, 0#8⟩] := by decide +kernel

end Insteon
