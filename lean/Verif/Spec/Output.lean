import Verif.Model.Output

/-
Specification vocabulary for output that may fail.
-/

namespace Insteon.Spec

/-- What has arrived behind a stream: all the bytes of a write that succeeds, and some first part of those of one that fails. -/
structure Arrives {σ : Type} (w : OutStream σ) (arrived : σ → List (BitVec 8)) : Prop where
  all : ∀ s b, (w.write s b).2 = none → arrived (w.write s b).1 = arrived s ++ b
  part : ∀ s b, ∃ p, p <+: b ∧ arrived (w.write s b).1 = arrived s ++ p

/-- A world, the first failure of the stream, and whether it was used after that. -/
structure OutWatch (σ : Type) where
  world : σ
  failed : Option Err
  more : Bool

/-- A stream that notes the first failure, and whether it is used again. -/
def watchOut {σ : Type} (w : OutStream σ) : OutStream (OutWatch σ) where
  write x b := (⟨(w.write x.world b).1, x.failed.or (w.write x.world b).2, x.more || x.failed.isSome⟩, (w.write x.world b).2)

/-- The two ways to show links. -/
inductive LinkReport where
  | dump | print
deriving DecidableEq, Repr

namespace LinkReport

/-- The whole text. -/
def text (sort : List LinkRecord → List LinkRecord) : LinkReport → List LinkRecord → List (BitVec 8)
  | dump, links => dumpLinks links
  | print, links => printLinks sort links

/-- Showing links on a stream. -/
def on (sort : List LinkRecord → List LinkRecord) {σ : Type} (w : OutStream σ) (s : σ) (links : List LinkRecord) : LinkReport → σ × Option Err
  | dump => dumpLinksTo w s links
  | print => printLinksTo sort w s links

/-- Showing the links of a device on a stream. -/
def ofDevice (sort : List LinkRecord → List LinkRecord) {σ : Type} (w : OutStream σ) (d : Linkable σ) (s : σ) : LinkReport → σ × Option Err
  | dump => dumpLinkDatabaseTo w d s
  | print => printLinkDatabaseTo sort w d s

end LinkReport

end Insteon.Spec
