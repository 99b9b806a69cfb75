import Verif.Model.Team
import Verif.Model.PlmLinks
import Verif.Model.ModemCmd
import Verif.Spec.ModemDb
import Verif.Spec.Shared

/-
Specification for programs that share a PLM.
-/

namespace Insteon.Spec

/-- A state and the steps still to come. -/
abbrev TeamAhead (α : Type) := Team α × List SharedEv

/-- Everything up to and including the next step of one goroutine, and what that step shows. -/
def teamAdvance {α : Type} (dead : α → Bool) (i : Nat) : Team α → List SharedEv → TeamAhead α × SharedObs
  | s, [] => ((s, []), .none)
  | s, .go j late err :: es =>
    if j = i then (((Team.step dead s (.go j late err)).1, es), (Team.step dead s (.go j late err)).2)
    else teamAdvance dead i (Team.step dead s (.go j late err)).1 es
  | s, e :: es => teamAdvance dead i (Team.step dead s e).1 es

/-- The world as one goroutine sees it: what the modem and the other goroutines do happens between its own accesses. Writing other bytes than
the goroutine did write would be an error. -/
def teamView {α : Type} (dead : α → Bool) (i : Nat) : PlmIO (TeamAhead α) where
  tx := fun h b => match teamAdvance dead i h.1 h.2 with
    | (h, .wrote _ b' err) => (h, if b' = b then err else some (.other 0))
    | (h, _) => (h, some (.other 0))
  rxPacket := fun h => match teamAdvance dead i h.1 h.2 with
    | (h, .tookPkt _ r) => (h, r)
    | (h, _) => (h, .closed)
  rxMsg := fun h => match teamAdvance dead i h.1 h.2 with
    | (h, .tookMsg _ r) => (h, r)
    | (h, _) => (h, .closed)

/-- A call of the library, which works in any world, is a program: it uses the world through its three operations only, and apart from them depends on
nothing but its arguments. -/
def IsProgram {α : Type} (f : (σ : Type) → PlmIO σ → σ → σ × α) : Prop :=
  ∃ P : Prog α, ∀ (σ : Type) (io : PlmIO σ) (s : σ), P.run io s = f σ io s

/-- The same for calls with loops, which are modelled with a bound on the number of rounds and come to nothing when it is used up. -/
def IsLoopProgram {α : Type} (f : (σ : Type) → PlmIO σ → σ → Option (σ × α)) : Prop :=
  ∃ P : Prog (Option α), ∀ (σ : Type) (io : PlmIO σ) (s : σ),
    (∀ s' a, f σ io s = some (s', a) → P.run io s = (s', some a)) ∧ (f σ io s = none → (P.run io s).2 = none)

/-- The modem's answer to get first and get next of its link database, with the number of the record last given: the repeated command and the
record, or a refusal after the last. -/
def linkAnswer (db : List LinkRecord) (at_ : Nat) (b : List (BitVec 8)) : Nat × List Packet :=
  if b = [0x02, 0x69] then
    match db[0]? with
    | some r => (0, [⟨0x69, [], 0x06⟩, ⟨0x57, rawOf r, 0⟩])
    | none => (0, [⟨0x69, [], 0x15⟩])
  else if b = [0x02, 0x6a] then
    match db[at_ + 1]? with
    | some r => (at_ + 1, [⟨0x6a, [], 0x06⟩, ⟨0x57, rawOf r, 0⟩])
    | none => (at_ + 1, [⟨0x6a, [], 0x15⟩])
  else (at_, [])

/-- The packets that arrived in a run are what a modem with these records answers to what was written, in order: `at_` is the number of the record last
given, `due` are the answers that have not arrived yet. -/
def AnsweredBy (db : List LinkRecord) : Nat → List Packet → List SharedObs → Bool
  | _, _, [] => true
  | at_, due, .wrote _ b err :: os =>
    if err = none then AnsweredBy db (linkAnswer db at_ b).1 (due ++ (linkAnswer db at_ b).2) os else AnsweredBy db at_ due os
  | at_, due, .queued p :: os => decide (due.head? = some p) && AnsweredBy db at_ due.tail os
  | _, _, .dropped _ :: _ => false
  | _, _, .tookPkt _ .timeout :: _ => false
  | at_, due, _ :: os => AnsweredBy db at_ due os

/-- The packets one goroutine was given in a run. -/
def packetsTaken (i : Nat) : List SharedObs → List Packet
  | [] => []
  | .tookPkt j (.packet p) :: os => if j = i then p :: packetsTaken i os else packetsTaken i os
  | _ :: os => packetsTaken i os

/-- The records in the record responses among these packets, in order. -/
def recordsIn (ps : List Packet) : List LinkRecord :=
  (ps.filter fun p => p.command = 0x57 ∧ 8 ≤ p.payload.length).map fun p => recordOf p.payload

/-- A panic ends the process. -/
def panicked {α : Type} : Option (Out α) → Bool
  | some .panic => true
  | _ => false

end Insteon.Spec
