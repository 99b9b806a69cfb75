import Verif.Model.Generator
import Verif.Spec.LinkText
import Verif.Spec.CommandNames

/-
Specification vocabulary for the files made from the table of commands: what a Go compiler and a reader of COMMANDS.md find in their lines.
-/

namespace Insteon.Spec

/-- A letter, a digit or an underscore. -/
def identByte (b : BitVec 8) : Bool :=
  (decide (65 ≤ b.toNat) && decide (b.toNat ≤ 90)) || (decide (97 ≤ b.toNat) && decide (b.toNat ≤ 122)) || (decide (48 ≤ b.toNat) && decide (b.toNat ≤ 57)) || decide (b.toNat = 95)

/-- The name of a constant. -/
def Ident (name : List (BitVec 8)) : Prop := name ≠ [] ∧ ∀ b ∈ name, identByte b = true

instance (name : List (BitVec 8)) : Decidable (Ident name) := by unfold Ident; infer_instance

/-- `l` is one of the lines of a text. -/
def HasLine (text l : List (BitVec 8)) : Prop := ∃ ls, LinesOf text ls ∧ l ∈ ls

/-- A line that declares a constant with a value of three bytes, written in hexadecimal. -/
def DeclaresConst (l name : List (BitVec 8)) (value : Nat) : Prop :=
  Ident name ∧ ∃ (b0 b1 b2 : Nat) (rest : List (BitVec 8)), b0 < 256 ∧ b1 < 256 ∧ b2 < 256 ∧ value = b0 * 65536 + b1 * 256 + b2 ∧
    l = name ++ ascii " = Command(0x" ++ hexPair b0 ++ hexPair b1 ++ hexPair b2 ++ ascii ")" ++ rest

/-- A line of the map that gives a constant its name. Between the quotes there is neither a quote nor a backslash, so that the text stands for itself. -/
def GivesName (l name text : List (BitVec 8)) : Prop :=
  Ident name ∧ 0x22#8 ∉ text ∧ 0x5c#8 ∉ text ∧ l = ascii "  " ++ name ++ ascii ": \"" ++ text ++ ascii "\","

/-- A row of a table with four columns: the two bytes of the command, its name and notes. -/
def TableRow (l : List (BitVec 8)) (c1 c2 : Nat) (text notes : List (BitVec 8)) : Prop :=
  c1 < 256 ∧ c2 < 256 ∧ 0x7c#8 ∉ text ∧ 0x7c#8 ∉ notes ∧ l = ascii "0x" ++ hexPair c1 ++ ascii "|0x" ++ hexPair c2 ++ ascii "|" ++ text ++ ascii "|" ++ notes

/-- Text without line breaks, quotes, backslashes and columns. -/
def Clean (s : List (BitVec 8)) : Prop := 0x0a#8 ∉ s ∧ 0x22#8 ∉ s ∧ 0x5c#8 ∉ s ∧ 0x7c#8 ∉ s

instance (s : List (BitVec 8)) : Decidable (Clean s) := by unfold Clean; infer_instance

/-- Text without the characters that have a meaning in HTML: `&`, `'`, `+`, `<`, `>` and the byte 0. -/
def NoHtml (s : List (BitVec 8)) : Prop := 0x26#8 ∉ s ∧ 0x27#8 ∉ s ∧ 0x2b#8 ∉ s ∧ 0x3c#8 ∉ s ∧ 0x3e#8 ∉ s ∧ 0x00#8 ∉ s

instance (s : List (BitVec 8)) : Decidable (NoHtml s) := by unfold NoHtml; infer_instance

/-- A table of commands as one would write it: constants have names of letters and digits, and the texts are clean. -/
def CommandTable (groups : List GenGroup) : Prop :=
  ∀ g ∈ groups, Clean g.name ∧ ∀ c ∈ g.commands, Ident c.name ∧ Clean c.comment ∧ Clean c.string ∧ Clean c.notes

end Insteon.Spec
