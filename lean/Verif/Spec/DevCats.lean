import Verif.Model.DevCats
import Verif.Spec.Generator

/-
Specification vocabulary for devcats.go: what a record of the table of categories says and what a Go compiler finds in the lines of the file.
-/

namespace Insteon.Spec

/-- `s` is a number of value `v` written as `0x` and hex digits, possibly after a byte order mark. -/
def MarkedNumber (s : List (BitVec 8)) (v : Nat) : Prop :=
  ∃ ds, HexNumeral ds v ∧ (s = ascii "0x" ++ ds ∨ s = utf8 0xfeff ++ ascii "0x" ++ ds)

/-- `t` is `s` without the white space around it. -/
def Trimmed (s t : List (BitVec 8)) : Prop :=
  (∃ v w, White v ∧ White w ∧ s = v ++ t ++ w) ∧ ∀ c ∈ whiteSpace, ¬ utf8 c <+: t ∧ ¬ utf8 c <:+ t

/-- A record says that category `c` of domain `d` is called `text`. -/
def Lists (r : DevRow) (d c : Nat) (text : List (BitVec 8)) : Prop :=
  d < 256 ∧ c < 256 ∧ MarkedNumber r.domain d ∧ MarkedNumber r.category c ∧ Trimmed r.name text

/-- Text that is the same in a Go string and in HTML. -/
def PlainText (s : List (BitVec 8)) : Prop := 0x0a#8 ∉ s ∧ 0x22#8 ∉ s ∧ 0x5c#8 ∉ s ∧ NoHtml s

instance (s : List (BitVec 8)) : Decidable (PlainText s) := by unfold PlainText; infer_instance

/-- Domains as one would write them: there is one, they have names of letters and digits, and different numbers of one byte. -/
def DomainTable (ds : List GenDomain) : Prop := ds ≠ [] ∧ (∀ d ∈ ds, Ident d.var ∧ d.id < 256) ∧ (ds.map (·.id)).Nodup

instance (ds : List GenDomain) : Decidable (DomainTable ds) := by unfold DomainTable; infer_instance

/-- A line of the map that names a category. Between the quotes there is neither a quote nor a backslash, so that the text stands for itself. -/
def NamesCategory (l : List (BitVec 8)) (d c : Nat) (text : List (BitVec 8)) : Prop :=
  d < 256 ∧ c < 256 ∧ 0x22#8 ∉ text ∧ 0x5c#8 ∉ text ∧ l = ascii "  {0x" ++ hexPair d ++ ascii ", 0x" ++ hexPair c ++ ascii "}: \"" ++ text ++ ascii "\","

/-- A line that declares a constant with the number of a domain. -/
def DeclaresDomain (l name : List (BitVec 8)) (v : Nat) : Prop :=
  Ident name ∧ v < 256 ∧ ∃ w, (∀ b ∈ w, b = 0x20#8) ∧ (l = w ++ name ++ ascii " Domain = 0x" ++ hexPair v ∨ l = w ++ name ++ ascii " = 0x" ++ hexPair v)

end Insteon.Spec
