import Verif.Model.DevCatFile
import Verif.Props.Csv
import Verif.Props.DevCatsHere

/-
C216: the project's table of categories is read from its file, and the file of Go made of it.
-/

namespace Insteon
open Spec

/-- A field as the file writes it: between quotes if it has a comma or a quote in it. -/
def csvFieldText (f : Bytes) : Bytes := if f.any (fun b => b = 0x2c#8 || b = 0x22#8) then 0x22#8 :: doubled f ++ [0x22#8] else f

/-- A line as the file writes it. -/
def csvLineText : List Bytes → Bytes
  | [] => []
  | [f] => csvFieldText f
  | f :: fs => csvFieldText f ++ 0x2c#8 :: csvLineText fs

/-- The fields of a record. -/
def csvRowFields (r : DevRow) : List Bytes := [r.domain, r.category, r.sku, r.name]

/-- No line ends in a field. -/
def csvOneLine (f : Bytes) : Bool := f.all (fun b => b ≠ 0x0a#8 && b ≠ 0x0d#8)

theorem csv_lines_match : devcatsLines = devcatRows.map (fun r => csvLineText (csvRowFields r)) := by decide +kernel

theorem rows_csvOneLine : devcatRows.all (fun r => (csvRowFields r).all csvOneLine) = true := by decide +kernel

theorem csvFieldText_writes (f : Bytes) (h : csvOneLine f = true) : WritesField f (csvFieldText f) := by
  have h' : ∀ b ∈ f, b ≠ 0x0a#8 ∧ b ≠ 0x0d#8 := by simpa [csvOneLine] using h
  have ha : 0x0a#8 ∉ f := fun hm => (h' _ hm).1 rfl
  have hd : 0x0d#8 ∉ f := fun hm => (h' _ hm).2 rfl
  unfold csvFieldText
  split
  · exact .quoted hd
  · rename_i hn
    have hn : ∀ b ∈ f, b ≠ 0x2c#8 ∧ b ≠ 0x22#8 := by simpa using hn
    exact .plain ⟨fun hm => (hn _ hm).1 rfl, fun hm => (hn _ hm).2 rfl, ha, hd⟩

theorem csvLineText_writes (f : Bytes) (fs : List Bytes) (h : ∀ g ∈ f :: fs, csvOneLine g = true) : WritesRow (f :: fs) (csvLineText (f :: fs)) := by
  induction fs generalizing f with
  | nil => exact .last (csvFieldText_writes f (h f (by simp)))
  | cons g fs ih => exact .more (csvFieldText_writes f (h f (by simp))) (ih g (fun x hx => h x (by simp at hx ⊢; tauto)))

theorem csv_rows_write (rows : List DevRow) (h : rows.all (fun r => (csvRowFields r).all csvOneLine) = true) :
    WritesTable (rows.map csvRowFields) ((rows.map (fun r => csvLineText (csvRowFields r))).flatMap (fun l => l ++ [0x0d#8, 0x0a#8])) := by
  induction rows with
  | nil => exact .none
  | cons r rows ih =>
    simp only [List.all_cons, Bool.and_eq_true] at h
    refine .row (csvLineText_writes r.domain [r.category, r.sku, r.name] ?_) (.inr rfl) (ih h.2)
    have := h.1
    simpa [csvRowFields] using this

theorem csvRowFields_row (rows : List DevRow) : (rows.map csvRowFields).mapM Csv.row = some rows := by
  induction rows with
  | nil => rfl
  | cons r rows ih =>
    rw [List.map_cons, List.mapM_cons, ih]
    rfl

/-- C216: the file internal/devcats.csv is read as the table of categories. -/
theorem devcats_file_reads : Csv.read devcatsFile = some (.ok (devcatRows.map (fun r => [r.domain, r.category, r.sku, r.name]))) := by
  have h := csv_rows_write devcatRows rows_csvOneLine
  rw [← csv_lines_match] at h
  exact Csv.csv_reads h 4 (by simp) (by omega)

/-- C216: what is made from the file internal/devcats.csv names exactly the categories that devcats.go names. -/
theorem devcats_from_file (other : Bytes → Option Int) (year : Bytes) (hy : 0x0a#8 ∉ year) :
    ∃ out, Csv.devcatsGo other year genDomains devcatsFile = some out ∧
      ∀ (d c : Nat) (t : Bytes), (∃ l, HasLine out l ∧ NamesCategory l d c t) ↔ (d, c, t) ∈ devcatStrings := by
  obtain ⟨out, h1, h2⟩ := devcats_here other year hy
  refine ⟨out, ?_, h2⟩
  have h : Csv.read devcatsFile = some (.ok (devcatRows.map csvRowFields)) := devcats_file_reads
  simp only [Csv.devcatsGo, h, csvRowFields_row, h1]

end Insteon
