import Mathlib.Logic.Function.Basic
import Verif.Model.Timed

/-
`PLM.Reset` (plm/plm.go 217-224) in several goroutines: the field `timeout`, which all calls on a PLM use, is read, set and set back without
a lock.
-/

namespace Insteon

/-- Where a goroutine is in `Reset`: not in it; after `timeout := plm.timeout` (plm/plm.go 218); after `plm.timeout = 20 * time.Second`
(plm/plm.go 219), while the command is sent. What it read is in its variable `timeout`. -/
inductive ResetPhase where
  | out
  | read (kept : Int)
  | under (kept : Int)
deriving DecidableEq, Repr

/-- The field `timeout` of the PLM (plm/plm.go 63) and the goroutines. -/
structure ResetSt where
  timeout : Int
  phase : Nat → ResetPhase

namespace ResetSt

/-- Nobody is in `Reset`. -/
def init (timeout : Int) : ResetSt := ⟨timeout, fun _ => .out⟩

/-- The goroutine with this number comes to its next access of the field: it enters `Reset` and reads the field (plm/plm.go 218), sets it (219), or the
command is over and it sets it back (222). A goroutine may call `Reset` again. Accesses are taken to be atomic; a panic of the command, which
ends the process, is left out. -/
def step (s : ResetSt) (i : Nat) : ResetSt :=
  match s.phase i with
  | .out => { s with phase := Function.update s.phase i (.read s.timeout) }
  | .read t => ⟨20 * PlmCfg.second, Function.update s.phase i (.under t)⟩
  | .under t => ⟨t, Function.update s.phase i .out⟩

/-- A run: the numbers of the goroutines in the order of the accesses. -/
def run (s : ResetSt) (es : List Nat) : ResetSt := es.foldl step s

end ResetSt

end Insteon
