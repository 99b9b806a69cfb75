import Verif.Spec.ModemCalls
import Verif.Model.IcPlm

/-
Specification vocabulary for the program ic that ends: its commands for the modem.
-/

namespace Insteon.Spec

/-- The commands of `ic plm`: with the answer to the question of `reset`, and the user's editor. -/
inductive IcModemCommand where
  | setflag (flag : Bytes)
  | clearflag (flag : Bytes)
  | edit (editor : Bytes → Except Err Bytes)
  | info
  | reset (yes : Bool)
  | linkController (group : Group) (devices : List Address)
  | linkResponder (group : Group) (devices : List Address)
  | crosslink (group : Group) (devices : List Address)
  | unlink (devices : List Address)
  | alllink (group : Group)

namespace IcModemCommand

/-- How long the program sleeps does not matter here, only what arrives meanwhile: `arrives` portions of bytes. -/
def sleeping (arrives : Nat → Live → Nat) (time : Nat) (s : Live) : Live := (Live.feed^[arrives time s]) s

/-- A command that opens no devices and prints nothing. -/
def silent (db : FileDb) (r : Live × Out (Option Err)) : Option (Live × FileDb × Bytes × Out (Option Err)) := some (r.1, db, [], r.2)

/-- The command of `ic plm` through a running PLM: what is printed, and how it ends; nothing if it is still waiting after `fuel` packets or messages. -/
def exec (sort : List LinkRecord → List LinkRecord) (f : FileFault) (filters : List (MsgIO Live → MsgIO Live)) (arrives : Nat → Live → Nat)
    (fails : List Bytes → Option Nat) (retries fuel : Nat)
    (db : FileDb) (s : Live) : IcModemCommand → Option (Live × FileDb × Bytes × Out (Option Err))
  | setflag flag => silent db (Ic.flagCmd (Live.faulty fails) retries true flag s)
  | clearflag flag => silent db (Ic.flagCmd (Live.faulty fails) retries false flag s)
  | edit editor => (Ic.plmEdit (Plm.asWriter (Live.faulty fails)) retries fuel editor (s, [])).map fun r => (r.1.1, db, [], r.2)
  | info => (plmInfoCmd sort (Live.faulty fails) retries fuel s []).map fun r => (r.1, db, r.2.1, r.2.2)
  | reset yes => silent db (Ic.resetCmd (Live.faulty fails) retries yes s)
  | linkController g ds =>
    IcPlm.linkCmd f (Live.faultyMsgIO fails retries fuel) fuel (sleeping arrives) filters (LinkTimed.Party.modem (Live.faulty fails)) true false g ds db s
  | linkResponder g ds =>
    IcPlm.linkCmd f (Live.faultyMsgIO fails retries fuel) fuel (sleeping arrives) filters (LinkTimed.Party.modem (Live.faulty fails)) false true g ds db s
  | crosslink g ds =>
    IcPlm.linkCmd f (Live.faultyMsgIO fails retries fuel) fuel (sleeping arrives) filters (LinkTimed.Party.modem (Live.faulty fails)) true true g ds db s
  | unlink ds => IcPlm.unlinkCmd ds db s
  | alllink g => silent db (LinkTimed.modemError (PlmLinks.enterLinkingMode (Plm.asWriter (Live.faulty fails)) s g))

end IcModemCommand

end Insteon.Spec
