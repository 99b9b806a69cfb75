import Verif.Props.Generator
import Verif.Spec.CommandNames

/-
C214, the table of this project.
-/

namespace Insteon
open Spec

/-- `Clean`, in one pass. -/
def cleanByte (b : Byte) : Bool := !(b == 0x0a#8) && !(b == 0x22#8) && !(b == 0x5c#8) && !(b == 0x7c#8)

theorem clean_of {s : Bytes} (h : s.all cleanByte = true) : Clean s := by
  rw [List.all_eq_true] at h
  refine ⟨fun m => ?_, fun m => ?_, fun m => ?_, fun m => ?_⟩ <;> exact absurd (h _ m) (by decide)

theorem table_clean : (internalCommands.all fun g => g.name.all cleanByte && g.commands.all fun c => c.comment.all cleanByte && (c.string.all cleanByte && c.notes.all cleanByte)) = true := by
  decide +kernel

theorem table_idents : (internalCommands.all fun g => g.commands.all fun c => !c.name.isEmpty && c.name.all identByte) = true := by
  decide +kernel

theorem commandTable_here : CommandTable internalCommands := by
  have h1 := table_clean
  have h2 := table_idents
  simp only [List.all_eq_true (l := internalCommands), Bool.and_eq_true, List.all_eq_true (α := GenCommand)] at h1 h2
  intro g hg
  refine ⟨clean_of (h1 g hg).1, fun c hc => ?_⟩
  obtain ⟨a1, a2, a3⟩ := (h1 g hg).2 c hc
  obtain ⟨b1, b2⟩ := h2 g hg c hc
  refine ⟨⟨fun e => by simp [e] at b1, List.all_eq_true.mp b2⟩, clean_of a1, clean_of a2, clean_of a3⟩

/-- The table of the project satisfies the hypotheses of the theorems, and the files in the project are those made from it: commands/commands.go names the same values in the same way,
and COMMANDS.md has the same rows. -/
theorem generated_here :
    CommandTable internalCommands ∧ (∀ g ∈ internalCommands, ∀ c ∈ g.commands, NoHtml c.string ∧ NoHtml c.notes) ∧
    (internalCommands.flatMap fun g => g.commands.map fun c => (BitVec.ofNat 64 (g.byte0.toNat * 65536 + c.byte1.toNat * 256 + c.byte2.toNat), c.string)) = cmdStrings ∧
    ((internalCommands.filter fun g => !g.convenience).flatMap fun g => g.commands.map fun c => (g.byte0.toNat, c.byte1.toNat, c.byte2.toNat, c.string)) =
      documentedCommands.map fun r => (r.1.code, r.2.1, r.2.2.1, ascii r.2.2.2) := by
  refine ⟨?_, ?_, ?_, ?_⟩
  · exact commandTable_here
  · decide +kernel
  · decide +kernel
  · decide +kernel

end Insteon
