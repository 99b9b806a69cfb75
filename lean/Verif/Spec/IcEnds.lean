import Verif.Spec.Calls
import Verif.Model.IcDevice

/-
Specification vocabulary for the program ic that ends: its commands for devices, switches, dimmers and thermostats.
-/

namespace Insteon.Spec

/-- The commands of ic for one device, with the times of the calls about links and the user's editor; `ic switch on`, `off`, `backlight` and `loadsense` are left
out. -/
inductive IcCommand where
  | version
  | info (now done : Int)
  | dump (now done : Int)
  | device (c : IcDev.DeviceCmd)
  | edit (now done written : Int) (editor : Bytes → Except Err Bytes)
  | switchConfig (now done : Int)
  | switchStatus
  | dimmer (c : IcDev.DimmerCmd)
  | dimmerConfig
  | dimmerStatus
  | thermostatStatus
  | thermostatReports (on : Bool)

namespace IcCommand

/-- The callback of the command the subcommand belongs to (`device`, `switch`, `dimmer` or `thermostat`), given what came of opening the device. -/
def init {σ : Type} : IcCommand → Option (IcDev.Opened σ) × Option Err → Out (Except Err (IcDev.Opened σ))
  | version | info .. | dump .. | device _ | edit .. => IcDev.initDevice
  | switchConfig .. | switchStatus => IcDev.initClass .switch
  | dimmer _ | dimmerConfig | dimmerStatus => IcDev.initClass .dimmer
  | thermostatStatus | thermostatReports _ => IcDev.initClass .thermostat

/-- The command on the device opened: the text printed and the error. -/
def exec {σ : Type} (sort : List LinkRecord → List LinkRecord) (fuel : Nat) (d : IcDev.Opened σ) (s : σ) : IcCommand → Option (σ × Bytes × Out (Option Err))
  | version => some (IcDev.versionCmd d s)
  | info now done => IcDev.printDevInfo sort fuel now done d [] s
  | dump now done => IcDev.dumpCmd fuel now done d s
  | device c => IcDev.quiet (c.exec d s)
  | edit now done written editor => (IcDev.deviceEdit fuel now done written editor d (s, ⟨0, [], []⟩)).map fun r => (r.1.1, [], r.2)
  | switchConfig now done => IcDev.switchConfigCmd sort fuel now done d s
  | switchStatus => some (IcDev.switchStatusCmd d s)
  | dimmer c => IcDev.quiet (c.exec d s)
  | dimmerConfig => IcDev.dimmerConfigCmd fuel d s
  | dimmerStatus => some (IcDev.dimmerStatusCmd d s)
  | thermostatStatus => IcDev.thermStatusCmd fuel d s
  | thermostatReports on => IcDev.quiet (Thermostat.setStatusMessage d.1 d.2 s on)

/-- The commands that read the links of the device. -/
def Downloads : IcCommand → Prop
  | info .. | dump .. | edit .. | switchConfig .. => True
  | _ => False

/-- The program `ic` with this command for the device at `addr`, through a running PLM: what is printed, and how it ends. Asked whether to link a device that is not
linked, the user says no. -/
def program (sort : List LinkRecord → List LinkRecord) (f : FileFault) (modem : Linkable Live) (linkable : IcDev.Opened Live → Linkable Live)
    (filters : List (MsgIO Live → MsgIO Live)) (fails : List Bytes → Option Nat) (retries fuel : Nat) (slots : List Bytes) (db : FileDb) (addr : Address) (c : IcCommand) :
    Option (Live × FileDb × Bytes × Out (Option Err)) :=
  IcDev.run (IcDev.openAsk f modem linkable db (Live.faultyMsgIO fails retries fuel) fuel (Live.init slots) addr true (fun _ => false) filters) c.init
    (fun d s => c.exec sort fuel d s)

end IcCommand

end Insteon.Spec
