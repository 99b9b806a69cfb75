import Verif.Spec.Failures
import Verif.Spec.IcEnds
import Verif.Model.IcPlm

/-
Specification vocabulary for failures reported by the program ic.
-/

namespace Insteon.Spec.IcCommand

/-- The program `ic` with a command for the device at `addr`, over any message writer: what is printed, and how it ends. Asked whether to link a device that is not
linked, the user says no. -/
def over {σ : Type} (sort : List LinkRecord → List LinkRecord) (f : FileFault) (modem : Linkable σ) (linkable : IcDev.Opened σ → Linkable σ)
    (filters : List (MsgIO σ → MsgIO σ)) (io : MsgIO σ) (fuel : Nat) (db : FileDb) (addr : Address) (c : IcCommand) (s : σ) :
    Option (σ × FileDb × Bytes × Out (Option Err)) :=
  IcDev.run (IcDev.openAsk f modem linkable db io fuel s addr true (fun _ => false) filters) c.init (fun d s => c.exec sort fuel d s)

/-- The command that asks for a configuration and then for flags. -/
def AsksTwice : IcCommand → Prop
  | dimmerConfig => True
  | _ => False

/-- The command that has the user edit links. -/
def Edits : IcCommand → Prop
  | edit .. => True
  | _ => False

end Insteon.Spec.IcCommand
