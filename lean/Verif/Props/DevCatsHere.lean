import Verif.Props.DevCats
import Verif.Model.DevCatTable

/-
Property C215: devcats.go as it is in the project.
-/

namespace Insteon
open Spec DevCats

/-- A record, read, is an entry of the map. -/
def rowMatches (r : DevRow) (e : Nat × Nat × Bytes) : Bool :=
  decide (parseHex (fun _ => none) (dropMark r.domain) = some (e.1 : Int)) && decide (parseHex (fun _ => none) (dropMark r.category) = some (e.2.1 : Int)) &&
    decide (trimSpace r.name = e.2.2) && decide (e.1 < 256) && decide (e.2.1 < 256) && (e.2.2.all fun b => !([0x0a#8, 0x22#8, 0x5c#8, 0x26#8, 0x27#8, 0x2b#8, 0x3c#8, 0x3e#8, 0x00#8].contains b)) &&
    genDomains.any fun d => decide (d.id = e.1)

def allMatch : List DevRow → List (Nat × Nat × Bytes) → Bool
  | [], [] => true
  | r :: rs, e :: es => rowMatches r e && allMatch rs es
  | _, _ => false

theorem devcats_match : allMatch devcatRows devcatStrings = true := by decide +kernel

theorem parseHex_other (other : Bytes → Option Int) (s : Bytes) (v : Int) (h : parseHex (fun _ => none) s = some v) : parseHex other s = some v := by
  unfold parseHex at h ⊢
  split at h
  · split at h
    · rename_i hc; rw [if_pos hc]; exact h
    · cases h
  · cases h

theorem rowMatches_reads (other : Bytes → Option Int) (r : DevRow) (e : Nat × Nat × Bytes) (h : rowMatches r e = true) :
    Reads other r e.1 e.2.1 e.2.2 ∧ PlainText e.2.2 ∧ e.1 ∈ genDomains.map (·.id) := by
  unfold rowMatches at h
  simp only [Bool.and_eq_true, decide_eq_true_eq] at h
  obtain ⟨⟨⟨⟨⟨⟨h1, h2⟩, h3⟩, h4⟩, h5⟩, h6⟩, h7⟩ := h
  have hp : ∀ x ∈ [0x0a#8, 0x22#8, 0x5c#8, 0x26#8, 0x27#8, 0x2b#8, 0x3c#8, 0x3e#8, 0x00#8], x ∉ e.2.2 := by
    intro x hx hm
    have := List.all_eq_true.mp h6 x hm
    rw [List.contains_iff_mem.mpr hx] at this
    simp at this
  refine ⟨⟨h4, h5, parseHex_other other _ _ h1, parseHex_other other _ _ h2, h3⟩, ⟨hp _ (by simp), hp _ (by simp), hp _ (by simp), hp _ (by simp), hp _ (by simp), hp _ (by simp), hp _ (by simp), hp _ (by simp), hp _ (by simp)⟩, ?_⟩
  obtain ⟨d, hd, hi⟩ := List.any_eq_true.mp h7
  exact List.mem_map.mpr ⟨d, hd, by simpa using hi⟩

theorem allMatch_reads (rs : List DevRow) : ∀ es : List (Nat × Nat × Bytes), allMatch rs es = true →
    (∀ r ∈ rs, ∃ e ∈ es, rowMatches r e = true) ∧ ∀ e ∈ es, ∃ r ∈ rs, rowMatches r e = true := by
  induction rs with
  | nil => intro es h; cases es <;> simp_all [allMatch]
  | cons r rs ih =>
    intro es h
    rcases es with _ | ⟨e, es⟩
    · simp [allMatch] at h
    · simp only [allMatch, Bool.and_eq_true] at h
      obtain ⟨h1, h2⟩ := ih es h.2
      constructor
      · intro x hx
        rcases List.mem_cons.mp hx with rfl | hx
        · exact ⟨e, by simp, h.1⟩
        · obtain ⟨y, hy, hm⟩ := h1 x hx; exact ⟨y, by simp [hy], hm⟩
      · intro x hx
        rcases List.mem_cons.mp hx with rfl | hx
        · exact ⟨r, by simp, h.1⟩
        · obtain ⟨y, hy, hm⟩ := h2 x hx; exact ⟨y, by simp [hy], hm⟩

theorem genDomains_table : DomainTable genDomains := by decide +kernel

/-- C215: the file made from the project's table names exactly the categories that devcats.go names. -/
theorem devcats_here (other : Bytes → Option Int) (year : Bytes) (hy : 0x0a#8 ∉ year) :
    ∃ out, devcatsGo other year genDomains devcatRows = some out ∧
      ∀ (d c : Nat) (t : Bytes), (∃ l, HasLine out l ∧ NamesCategory l d c t) ↔ (d, c, t) ∈ devcatStrings := by
  obtain ⟨k1, k2⟩ := allMatch_reads _ _ devcats_match
  obtain ⟨out, h1, h2⟩ := reads_names other year hy genDomains genDomains_table devcatRows fun r hr => by
    obtain ⟨e, he, hm⟩ := k1 r hr
    exact ⟨_, _, _, rowMatches_reads other r e hm⟩
  refine ⟨out, h1, fun d c t => (h2 d c t).trans ⟨?_, ?_⟩⟩
  · rintro ⟨r, hr, hR⟩
    obtain ⟨e, he, hm⟩ := k1 r hr
    obtain ⟨rfl, rfl, rfl⟩ := reads_unique hR (rowMatches_reads other r e hm).1
    exact he
  · intro he
    obtain ⟨r, hr, hm⟩ := k2 _ he
    exact ⟨r, hr, (rowMatches_reads other r _ hm).1⟩

end Insteon
