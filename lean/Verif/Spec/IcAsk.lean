import Verif.Spec.IcEnds
import Verif.Spec.IcPlmEnds

/-
Specification vocabulary for the commands of ic for a device that ask the user first.
-/

namespace Insteon.Spec

/-- The program `ic` with this command for the device at `addr`, through a running PLM on a port of which some writes may fail: what is printed, and how it ends. The user
answers `answer` to the question whether to link a device that is not linked; `arrives` says how much the line brings while the program sleeps. -/
def IcCommand.asking (sort : List LinkRecord → List LinkRecord) (f : FileFault) (filters : List (MsgIO Live → MsgIO Live)) (arrives : Nat → Live → Nat)
    (fails : List Bytes → Option Nat) (retries fuel : Nat) (slots : List Bytes) (db : FileDb) (addr : Address) (answer : Bytes → Bool) (c : IcCommand) :
    Option (Live × FileDb × Bytes × Out (Option Err)) :=
  (IcPlm.openAsk f (Live.faultyMsgIO fails retries fuel) fuel (IcModemCommand.sleeping arrives) filters (LinkTimed.Party.modem (Live.faulty fails)) answer db
    (Live.init slots) addr).bind fun o =>
      (IcDev.run (some (o.1, o.2.1, o.2.2.2)) c.init (fun d s => c.exec sort fuel d s)).map fun r => (r.1, r.2.1, o.2.2.1 ++ r.2.2.1, r.2.2.2)

end Insteon.Spec
