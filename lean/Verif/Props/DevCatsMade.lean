import Verif.Props.ParseInt
import Verif.Props.DevCats

/-
C217: which tables the generator of device categories makes a file of.
-/

namespace Insteon
namespace DevCats
open Spec

theorem dropMark_without (s : Bytes) : WithoutMarks s (dropMark s) := by
  induction s using dropMark.induct with
  | case1 s ih => rw [dropMark]; exact .mark ih
  | case2 b s hn ih =>
    rw [dropMark.eq_2 b s hn]
    refine .byte ?_ ih
    rintro ⟨u, hu⟩
    simp only [markBytes, List.cons_append, List.nil_append, List.cons.injEq] at hu
    exact hn u hu.1.symm hu.2.symm
  | case3 => exact .nil

theorem without_dropMark {s t : Bytes} (h : WithoutMarks s t) : t = dropMark s := by
  induction h with
  | nil => rfl
  | mark h ih => rw [ih]; rfl
  | @byte b s t hb h ih =>
    rw [ih, dropMark.eq_2]
    intro u e1 e2
    exact hb ⟨u, by rw [e1, e2]; rfl⟩

/-- C217: a file is made exactly of the tables all of whose rows have the number of one of the domains and a number for the category, in any form Go has for numbers. -/
theorem devcats_made (year : Bytes) (ds : List GenDomain) (hne : ds ≠ []) (hid : ∀ d ∈ ds, d.id < 2 ^ 63) (rows : List DevRow) :
    (∃ out, devcatsGo Num.parseInt year ds rows = some out) ↔
      ∀ r ∈ rows, (∃ d ∈ ds, ∃ t, WithoutMarks r.domain t ∧ GoNumber t (d.id : Int)) ∧
        ∃ (t : Bytes) (c : Int), WithoutMarks r.category t ∧ GoNumber t c ∧ -2 ^ 63 ≤ c ∧ c < 2 ^ 63 := by
  have hm : (ds.map fun d => (d, ([] : List GenCategory))).map (·.1) = ds := by simp [Function.comp_def]
  have hk : ∀ r, Known Num.parseInt ds r ↔ (∃ d ∈ ds, ∃ t, WithoutMarks r.domain t ∧ GoNumber t (d.id : Int)) ∧
      ∃ (t : Bytes) (c : Int), WithoutMarks r.category t ∧ GoNumber t c ∧ -2 ^ 63 ≤ c ∧ c < 2 ^ 63 := by
    intro r
    constructor
    · rintro ⟨d, hd, h1, c, h2⟩
      rw [Num.number_read_here] at h1 h2
      exact ⟨⟨d, hd, _, dropMark_without _, h1.1⟩, _, c, dropMark_without _, h2⟩
    · rintro ⟨⟨d, hd, t, ht, h1⟩, u, c, hu, h2⟩
      rw [without_dropMark ht] at h1
      rw [without_dropMark hu] at h2
      have := hid d hd
      exact ⟨d, hd, (Num.number_read_here _ _).mpr ⟨h1, by omega, by omega⟩, c, (Num.number_read_here _ _).mpr h2⟩
  constructor
  · rintro ⟨out, h⟩ r hr
    rw [← hk]
    by_contra hn
    have := data_unknown Num.parseInt rows (ds.map fun d => (d, [])) ⟨r, hr, by rwa [hm]⟩
    simp [devcatsGo, this] at h
  · intro h
    have := data_known Num.parseInt rows (ds.map fun d => (d, [])) (fun r hr => by rw [hm]; exact (hk r).mpr (h r hr))
    obtain ⟨d, ds, rfl⟩ : ∃ d ds', ds = d :: ds' := by
      cases ds with
      | nil => exact absurd rfl hne
      | cons d ds => exact ⟨d, ds, rfl⟩
    rw [devcatsGo, this]
    exact ⟨_, rfl⟩

/-- `devcats_made` on a table with a category in octal, and one whose category is no number. -/
example : (∃ out, devcatsGo Num.parseInt [] [⟨1, [], []⟩] [⟨[0xef#8, 0xbb#8, 0xbf#8, 0x31#8], [0x30#8, 0x37#8], [], []⟩] = some out) ∧
    devcatsGo Num.parseInt [] [⟨1, [], []⟩] [⟨[0x31#8], [0x30#8, 0x38#8], [], []⟩] = none := by
  constructor
  · rw [devcats_made _ _ (by simp) (by simp)]
    intro r hr
    simp only [List.mem_singleton] at hr
    subst hr
    refine ⟨⟨⟨1, [], []⟩, by simp, _, dropMark_without _, ?_⟩, _, 7, dropMark_without _, ?_, by decide, by decide⟩
    · exact ((Num.number_read _ _).mp (by decide +kernel : Num.parseInt (dropMark [0xef#8, 0xbb#8, 0xbf#8, 0x31#8]) = some 1)).1
    · exact ((Num.number_read _ _).mp (by decide +kernel : Num.parseInt (dropMark [0x30#8, 0x37#8]) = some 7)).1
  · decide +kernel

end DevCats
end Insteon
