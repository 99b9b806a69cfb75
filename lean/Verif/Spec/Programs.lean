import Verif.Model.Programs
import Verif.Spec.Database

/-
Specification vocabulary for programs that use the same database file, one after the other or at the same time.
-/

namespace Insteon.Spec

/-- The programs open devices and do nothing else with the database. Here: the file works, the address has three bytes and is not 0 (see C67). -/
def Opens {σ : Type} (op : FileOp σ) : Prop :=
  ∃ io fuel s addr filters, op = .openDevice FileFault.none io fuel s addr filters ∧ addr ≠ 0 ∧ addr.toNat < 2 ^ 24

/-- Everything the first content knows the second one knows, too, and says the same about it. -/
def Remembers (c d : Contents) : Prop := ∀ a i, c a = some i → d a = some i

/-- What becomes of a run of a program: it does not start, or it starts and ends with these contents. -/
inductive RunOutcome where
  | refused
  | ran (first last : Contents)

/-- `Runs file runs outcomes file'`: programs are run one after the other, each with its calls (the calls it makes before it ends, for whatever
reason), the first on the file given. -/
inductive Runs {σ : Type} : Option (List (BitVec 8)) → List (List (FileOp σ)) → List RunOutcome → Option (List (BitVec 8)) → Prop
  | done (file) : Runs file [] [] file
  | refused {file ops rest os file'} (h : startProgram file = none) (hr : Runs file rest os file') :
      Runs file (ops :: rest) (.refused :: os) file'
  | ran {file ops rest os file' db db' err} (h : startProgram file = some db) (hops : FileOp.runAll (db, none) ops = some (db', err))
      (hr : Runs db'.file rest os file') : Runs file (ops :: rest) (.ran db.mem.get db'.mem.get :: os) file'

/-- Two programs at the same time: each call is made by one of them (the first if `true`); both use the same file. -/
def together {σ : Type} : FileDb × FileDb → List (Bool × FileOp σ) → Option (FileDb × FileDb)
  | dbs, [] => some dbs
  | (d, e), (true, op) :: ops =>
    match op.run d with
    | none => none
    | some (d', _) => together (d', { e with file := d'.file }) ops
  | (d, e), (false, op) :: ops =>
    match op.run e with
    | none => none
    | some (e', _) => together ({ d with file := e'.file }, e') ops

/-- `KilledIn db op file before after`: a program with the database `db` is killed during the call `op` and leaves `file`; it knew `before` when the
call began, and `after` is what it knew when it was killed. It is killed while it talks to the device, or while it saves the file (or after that). -/
inductive KilledIn {σ : Type} : FileDb → FileOp σ → Option (List (BitVec 8)) → Contents → Contents → Prop
  | talking (db : FileDb) (op : FileOp σ) : KilledIn db op db.file db.mem.get db.mem.get
  | saving (db : FileDb) (io : MsgIO σ) (fuel : Nat) (s s' : σ) (addr : Address) (filters : List (MsgIO σ → MsgIO σ)) (mem : MemDb)
      (dev : Option (DeviceInfo × MsgIO σ)) (file : Option (List (BitVec 8)))
      (h : db.mem.openDevice io fuel s addr [] = some (s', mem, .ok (dev, none))) (hf : file ∈ saveStates db.file mem) :
      KilledIn db (.openDevice FileFault.none io fuel s addr filters) file db.mem.get mem.get

/-- What becomes of a program that may be killed: it does not start, it ends by itself, or it is killed in a call. -/
inductive KillOutcome where
  | refused
  | ended (first last : Contents)
  | killed (first before after : Contents)

/-- `KillRuns file runs outcomes file'`: programs are run one after the other; each makes some calls and then ends by itself, or is killed in one
further call. -/
inductive KillRuns {σ : Type} : Option (List (BitVec 8)) → List (List (FileOp σ) × Option (FileOp σ)) → List KillOutcome →
    Option (List (BitVec 8)) → Prop
  | done (file) : KillRuns file [] [] file
  | refused {file run rest os file'} (h : startProgram file = none) (hr : KillRuns file rest os file') :
      KillRuns file (run :: rest) (.refused :: os) file'
  | ended {file ops rest os file' db db' err} (h : startProgram file = some db) (hops : FileOp.runAll (db, none) ops = some (db', err))
      (hr : KillRuns db'.file rest os file') : KillRuns file ((ops, none) :: rest) (.ended db.mem.get db'.mem.get :: os) file'
  | killed {file ops op rest os file' db db' err left before after} (h : startProgram file = some db)
      (hops : FileOp.runAll (db, none) ops = some (db', err)) (hk : KilledIn db' op left before after)
      (hr : KillRuns left rest os file') : KillRuns file ((ops, some op) :: rest) (.killed db.mem.get before after :: os) file'

/-- Outcomes of programs of which every one knows at its beginning what the one before knew: at its end, or, if that one was killed, before or after
the call it was killed in, until one of them, killed while saving, leaves a file with which no program starts any more. -/
def SurvivesKills : Contents → List KillOutcome → Prop
  | _, [] => True
  | _, .refused :: _ => False
  | c, .ended first last :: os => first = c ∧ Remembers first last ∧ SurvivesKills last os
  | c, .killed first before after :: os => first = c ∧ Remembers first before ∧ Remembers before after ∧
      (SurvivesKills before os ∨ SurvivesKills after os ∨ ∀ o ∈ os, o = .refused)

end Insteon.Spec
