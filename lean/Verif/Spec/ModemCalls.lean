import Verif.Spec.Calls
import Verif.Model.ModemCmd

/-
Specification vocabulary for calls on the modem that return: every call a program can make on the modem, alone or among calls on devices.
-/

namespace Insteon.Spec

/-- The calls on the modem: those that are a single command, those about its links (with the links read before), and those that report about it. -/
inductive ModemUse where
  | single (call : ModemCall)
  | address (cached : Address)
  | text (cached : Address)
  | readPacket
  | links (cached : List LinkRecord)
  | writeLinks (cached given : List LinkRecord)
  | linkedDevices (cached : List LinkRecord)
  | report (sort : List LinkRecord → List LinkRecord) (cached : List LinkRecord)

/-- What becomes of a call on the modem over the port `io`; nothing if it is still waiting after `fuel` packets. -/
def ModemUse.run {σ : Type} (io : PlmIO σ) (retries : Nat) (fuel : Nat) (s : σ) : ModemUse → Option (σ × Ended)
  | single c => DeviceCall.once (c.exec io retries s)
  | address cached => DeviceCall.once (Plm.address io retries s cached)
  | text cached => some ((Plm.string io retries s cached).1, ended (Plm.string io retries s cached).2.2)
  | readPacket => some ((Plm.readPacket io s).1, ended (Plm.readPacket io s).2.error)
  | links cached => DeviceCall.waits (PlmLinks.links (Plm.asWriter io) retries fuel s cached)
  | writeLinks cached given => DeviceCall.once (PlmLinks.writeLinks (Plm.asWriter io) s cached given)
  | linkedDevices cached => DeviceCall.waits (PlmLinks.iterateDevices (Plm.asWriter io) retries fuel s cached)
  | report sort cached => (plmInfoCmd sort io retries fuel s cached).map fun r => (r.1, ended r.2.2)

/-- A call of a program: on a device or on the modem. -/
inductive Use where
  | device (info : DeviceInfo) (call : DeviceCall)
  | modem (use : ModemUse)

namespace Use

/-- What becomes of a call through a running PLM on a port of which some writes may fail. -/
def run (fails : List Bytes → Option Nat) (retries : Nat) (fuel : Nat) (s : Live) : Use → Option (Live × Ended)
  | device info call => call.run info (Live.faultyMsgIO fails retries fuel) fuel s
  | modem use => use.run (Live.faulty fails) retries fuel s

/-- Calls one after the other; a crash ends them. -/
def runAll (fails : List Bytes → Option Nat) (retries : Nat) (fuel : Nat) : List Use → Live → Option (Live × List Ended)
  | [], s => some (s, [])
  | c :: cs, s =>
    match c.run fails retries fuel s with
    | none => none
    | some (s, .crashed) => some (s, [.crashed])
    | some (s, .returned) => (runAll fails retries fuel cs s).map fun r => (r.1, .returned :: r.2)

/-- Nothing nonsensical is asked of a device. -/
def Sensible : Use → Prop
  | device _ call => call.Sensible
  | modem _ => True

/-- The calls that may read the links of a device. -/
def Downloads : Use → Prop
  | device _ call => call.Downloads
  | modem _ => False

end Use

end Insteon.Spec
