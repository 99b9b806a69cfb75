import Mathlib.Tactic.SplitIfs
import Verif.Spec.Output

/-
C213: showing links on a stream that may fail.
-/

namespace Insteon
open Insteon.Spec

variable {σ : Type}

theorem dump_bytes (first : Bool) (bs : Bytes) :
    (dumpBytes first bs).flatten = (if first = true ∨ bs = [] then [] else lit ", ") ++ joinWith (lit ", ") (bs.map fun b => lit "0x" ++ hex2 b) := by
  induction bs generalizing first with
  | nil => simp [dumpBytes, joinWith]
  | cons b bs ih =>
    cases bs with
    | nil => cases first <;> simp [dumpBytes, joinWith]
    | cons c bs =>
      rw [dumpBytes, List.flatten_append, List.flatten_append, ih]
      cases first <;> simp [joinWith]

theorem dump_pieces (links : List LinkRecord) : (dumpPieces links).flatten = dumpLinks links := by
  unfold dumpPieces dumpLinks
  split_ifs with h
  · simp
  · have : ∀ ls : List LinkRecord, (ls.flatMap fun l => [lit "- ["] ++ dumpBytes true l.marshalBinary ++ [lit "]\n"]).flatten = unlines (ls.map dumpLine) := by
      intro ls
      induction ls with
      | nil => rfl
      | cons l ls ih =>
        have hb := dump_bytes true l.marshalBinary
        have hn : lit "]\n" = lit "]" ++ [0x0a#8] := by decide
        rw [List.flatMap_cons, List.flatten_append, ih, List.map_cons, unlines, dumpLine, List.flatten_append, List.flatten_append, hb, hn]
        simp
    rw [List.flatten_cons, this]

theorem print_pieces (links : List LinkRecord) : (printPieces links).flatten = printTemplate links := by
  unfold printPieces printTemplate
  split_ifs with h
  · simp
  · have : ∀ ls : List LinkRecord, (ls.flatMap printRowPieces).flatten = (ls.map fun l => [0x0a#8] ++ printRow l).flatten := by
      intro ls
      induction ls with
      | nil => rfl
      | cons l ls ih =>
        have h1 : lit "\n    " = [0x0a#8] ++ lit "    " := by decide
        have h2 : lit " " = [ch ' '] := rfl
        have h3 : lit "   " = [ch ' ', ch ' ', ch ' '] := rfl
        rw [List.flatMap_cons, List.flatten_append, ih, List.map_cons, List.flatten_cons, printRow, LinkRecord.marshalText, printRowPieces, h1, h2, h3]
        simp
    have hn : lit "\n" = [0x0a#8] := by decide
    rw [List.flatten_cons, List.flatten_cons, List.flatten_append, this, hn]
    simp

theorem execute_arrives (w : OutStream σ) (arrived : σ → Bytes) (h : Arrives w arrived) (ps : List Bytes) : ∀ s,
    ((execute w s ps).2 = none → arrived (execute w s ps).1 = arrived s ++ ps.flatten) ∧
    ∃ p, p <+: ps.flatten ∧ arrived (execute w s ps).1 = arrived s ++ p := by
  induction ps with
  | nil => exact fun s => ⟨fun _ => by simp [execute], [], List.nil_prefix, by simp [execute]⟩
  | cons p ps ih =>
    intro s
    have hall := h.all s p
    obtain ⟨q, hq, hpart⟩ := h.part s p
    unfold execute
    rcases hx : w.write s p with ⟨s1, _ | e⟩ <;> rw [hx] at hall hpart <;> dsimp only at hall hpart ⊢
    · obtain ⟨h1, r, hr, h2⟩ := ih s1
      have ha := hall rfl
      refine ⟨fun hn => by rw [h1 hn, ha]; simp, p ++ r, ?_, by rw [h2, ha]; simp⟩
      rw [List.flatten_cons]
      exact (List.prefix_append_right_inj p).mpr hr
    · refine ⟨fun hn => by simp at hn, q, ?_, hpart⟩
      rw [List.flatten_cons]
      exact hq.trans (List.prefix_append _ _)

theorem execute_watch (w : OutStream σ) (ps : List Bytes) : ∀ s, execute (watchOut w) ⟨s, none, false⟩ ps = (⟨(execute w s ps).1, (execute w s ps).2, false⟩, (execute w s ps).2) := by
  induction ps with
  | nil => exact fun s => rfl
  | cons p ps ih =>
    intro s
    unfold execute
    simp only [watchOut, Option.none_or, Bool.false_or, Option.isSome_none]
    rcases hx : w.write s p with ⟨s1, _ | e⟩ <;> dsimp only
    exact ih s1

theorem report_pieces (sort : List LinkRecord → List LinkRecord) (r : LinkReport) (links : List LinkRecord) :
    ∃ ps : List Bytes, ps.flatten = r.text sort links ∧ ∀ (τ : Type) (w : OutStream τ) (s : τ), r.on sort w s links = execute w s ps := by
  cases r with
  | dump => exact ⟨dumpPieces links, dump_pieces links, fun _ _ _ => rfl⟩
  | print => exact ⟨printPieces (sort links), print_pieces (sort links), fun _ _ _ => rfl⟩

/-- C213: links are printed or dumped to any stream. Without an error the whole text has arrived, and nothing else; with one, a first part of it. The error is that of the first write
that failed, and nothing is written after it. -/
theorem links_output (sort : List LinkRecord → List LinkRecord) (r : LinkReport) (w : OutStream σ) (arrived : σ → List (BitVec 8)) (h : Arrives w arrived) (s : σ)
    (links : List LinkRecord) :
    let t := r.on sort w s links
    (t.2 = none → arrived t.1 = arrived s ++ r.text sort links) ∧ (∃ p, p <+: r.text sort links ∧ arrived t.1 = arrived s ++ p) ∧
    r.on sort (watchOut w) ⟨s, none, false⟩ links = (⟨t.1, t.2, false⟩, t.2) := by
  obtain ⟨ps, h1, h2⟩ := report_pieces sort r links
  dsimp only
  rw [h2, h2, ← h1]
  exact ⟨(execute_arrives w arrived h ps s).1, (execute_arrives w arrived h ps s).2, execute_watch w ps s⟩

/-- C213 for the links of a device: if they cannot be read the error is returned and nothing is written; otherwise it is as for the links that were read. -/
theorem device_links_output (sort : List LinkRecord → List LinkRecord) (r : LinkReport) (w : OutStream σ) (arrived : σ → List (BitVec 8)) (h : Arrives w arrived)
    (d : Linkable σ) (hd : ∀ s, arrived (d.links s).1 = arrived s) (s : σ) :
    let t := r.ofDevice sort w d s
    match d.links s with
    | (s1, _, some e) => t = (s1, some e) ∧ arrived t.1 = arrived s
    | (s1, links, none) => (t.2 = none → arrived t.1 = arrived s ++ r.text sort links) ∧ (∃ p, p <+: r.text sort links ∧ arrived t.1 = arrived s ++ p) ∧
        r.on sort (watchOut w) ⟨s1, none, false⟩ links = (⟨t.1, t.2, false⟩, t.2) := by
  have ha := hd s
  rcases hx : d.links s with ⟨s1, links, _ | e⟩ <;> rw [hx] at ha <;> dsimp only at ha ⊢
  · have := links_output sort r w arrived h s1 links
    have he : r.ofDevice sort w d s = r.on sort w s1 links := by
      cases r <;> simp only [LinkReport.ofDevice, LinkReport.on, dumpLinkDatabaseTo, printLinkDatabaseTo, hx]
    rw [he, ← ha]
    exact this
  · have he : r.ofDevice sort w d s = (s1, some e) := by
      cases r <;> simp only [LinkReport.ofDevice, dumpLinkDatabaseTo, printLinkDatabaseTo, hx]
    rw [he]
    exact ⟨rfl, ha⟩

/-- A disk with room for some bytes: it takes what fits. -/
def fullDisk : OutStream (Nat × Bytes) where
  write s b := if b.length ≤ s.1 then ((s.1 - b.length, s.2 ++ b), none) else ((0, s.2 ++ b.take s.1), some (.other 28))

theorem fullDisk_arrives : Arrives fullDisk Prod.snd where
  all s b h := by
    unfold fullDisk at h ⊢
    dsimp only at h ⊢
    split_ifs at h ⊢ <;> simp at h ⊢
  part s b := by
    unfold fullDisk
    dsimp only
    split_ifs
    · exact ⟨b, List.prefix_refl _, rfl⟩
    · exact ⟨b.take s.1, List.take_prefix _ _, rfl⟩

/-- The hypotheses can be met: a full disk takes the first twenty bytes, and the error is returned; one with room takes everything. -/
example : dumpLinksTo fullDisk (20, []) [⟨0xe2#8, 1#8, 0x8f1c05#32, 3#8, 0x1c#8, 1#8⟩] = ((0, lit "links\n- [0xe2, 0x01,"), some (.other 28)) ∧
    (dumpLinksTo fullDisk (200, []) [⟨0xe2#8, 1#8, 0x8f1c05#32, 3#8, 0x1c#8, 1#8⟩]).2 = none := by decide +kernel

end Insteon
