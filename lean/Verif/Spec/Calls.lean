import Verif.Model.Live
import Verif.Model.DeviceLinks
import Verif.Model.Lighting
import Verif.Model.Thermostat

/-
Specification vocabulary for calls that return: every call a program can make on a device, and what becomes of it.
-/

namespace Insteon.Spec

/-- What becomes of a call that does not go on for ever. -/
inductive Ended where
  | returned
  | crashed
deriving DecidableEq, Repr

/-- A result, with or without an error, or a panic. -/
def ended {α : Type} : Out α → Ended
  | .ok _ => .returned
  | .err _ => .returned
  | .panic => .crashed

/-- The calls on devices: opening one, those of every device, of switches and dimmers, and of thermostats. The calls about links have the list of links read before
(with its index and its age) and the time before and after the call. -/
inductive DeviceCall where
  | openDevice (dst : Address)
  | engineVersion (dst : Address)
  | identification (dst : Address)
  | send (command : Command) (payload : Bytes)
  | sendCommand (command : Command) (payload : Bytes)
  | productData
  | extendedGet (data : Bytes)
  | enterLinkingMode (group : Group)
  | enterUnlinkingMode (group : Group)
  | exitLinkingMode
  | links (ldb : Ldb) (now done : Int)
  | writeLink (ldb : Ldb) (index : Int) (link : LinkRecord)
  | writeLinks (ldb : Ldb) (done : Int) (links : List LinkRecord)
  | updateLinks (ldb : Ldb) (now done : Int) (links : List LinkRecord)
  | addLinks (ldb : Ldb) (now done : Int) (links : List LinkRecord)
  | lightStatus
  | switchConfig
  | operatingFlags
  | setLoadSense (on : Bool)
  | setBacklight (on : Bool)
  | turnOff
  | turnOn (level : Int)
  | dimmerConfig
  | brighten
  | dim
  | startBrighten
  | startDim
  | stopManualChange
  | onFast
  | instantChange (level : Int)
  | setStatus (level : Int)
  | onAtRamp (level rate : Int)
  | offAtRamp (rate : Int)
  | increaseTemp (delta : Int)
  | decreaseTemp (delta : Int)
  | zoneInfo (zone : Int)
  | getMode
  | ambientTemp
  | equipmentState
  | fanSpeed
  | setMode (mode : ThermostatMode)
  | thermostatInfo
  | getTempUnit
  | setTempUnit (unit : Int)
  | setFanSpeed (speed : Int)
  | thermostatStatus
  | setStatusMessage (enabled : Bool)
  | setCoolSetpoint (zone temp : Int)
  | setHeatSetpoint (zone temp : Int)
  | increaseZoneTemp (zone delta : Int)
  | decreaseZoneTemp (zone delta : Int)
  | setZoneCoolSetpoint (zone temp deadband : Int)
  | setZoneHeatSetpoint (zone temp deadband : Int)

namespace DeviceCall
variable {σ : Type}

/-- Of a call that waits at most once for each message, what becomes of it. -/
def once {α : Type} (r : σ × Out α) : Option (σ × Ended) := some (r.1, ended r.2)

/-- The same for calls that wait for certain messages: nothing if `fuel` messages were not enough to end it. -/
def waits {α : Type} (r : Option (σ × Out α)) : Option (σ × Ended) := r.map fun r => (r.1, ended r.2)

/-- The same for calls about links. -/
def keeps {α : Type} (r : Option (σ × Ldb × Out α)) : Option (σ × Ended) := r.map fun r => (r.1, ended r.2.2)

/-- What becomes of a call on the device `info` over the message writer `io`; nothing if it is still waiting after `fuel` messages. -/
def run (info : DeviceInfo) (io : MsgIO σ) (fuel : Nat) (s : σ) : DeviceCall → Option (σ × Ended)
  | openDevice dst => waits (Dev.open io fuel s dst)
  | engineVersion dst => once (Insteon.getEngineVersion io s dst)
  | identification dst => waits (Insteon.idRequest io fuel s dst)
  | send c p => once (Device.send info io s c p)
  | sendCommand c p => once (Device.sendCommand info io s c p)
  | productData => waits (Device.productData info io fuel s)
  | extendedGet data => waits (Device.extendedGet info io fuel s data)
  | enterLinkingMode g => once (Device.enterLinkingMode info io s g)
  | enterUnlinkingMode g => once (Device.enterUnlinkingMode info io s g)
  | exitLinkingMode => once (Device.exitLinkingMode info io s)
  | links ldb now done => keeps (Ldb.getLinks (Device.io info io) fuel now done s ldb)
  | writeLink ldb i l => keeps (some (Ldb.writeLink (Device.io info io) s ldb i l))
  | writeLinks ldb done ls => keeps (some (Ldb.writeLinks (Device.io info io) done s ldb ls))
  | updateLinks ldb now done ls => keeps (Ldb.updateLinks (Device.io info io) fuel now done s ldb ls)
  | addLinks ldb now done ls => keeps (Ldb.addLinks (Device.io info io) fuel now done s ldb ls)
  | lightStatus => once (Switch.status info io s)
  | switchConfig => waits (Switch.config info io fuel s)
  | operatingFlags => once (Switch.operatingFlags info io s)
  | setLoadSense b => once (Switch.setLoadSense info io s b)
  | setBacklight b => once (Switch.setBacklight info io s b)
  | turnOff => once (Switch.turnOff info io s)
  | turnOn level => once (Switch.turnOn info io s level)
  | dimmerConfig => waits (Dimmer.config info io fuel s)
  | brighten => once (Dimmer.brighten info io s)
  | dim => once (Dimmer.dim info io s)
  | startBrighten => once (Dimmer.startBrighten info io s)
  | startDim => once (Dimmer.startDim info io s)
  | stopManualChange => once (Dimmer.stopManualChange info io s)
  | onFast => once (Dimmer.onFast info io s)
  | instantChange level => once (Dimmer.instantChange info io s level)
  | setStatus level => once (Dimmer.setStatus info io s level)
  | onAtRamp level rate => once (Dimmer.onAtRamp info io s level rate)
  | offAtRamp rate => once (Dimmer.offAtRamp info io s rate)
  | increaseTemp d => once (Thermostat.increaseTemp info io s d)
  | decreaseTemp d => once (Thermostat.decreaseTemp info io s d)
  | zoneInfo zone => once (Thermostat.getZoneInfo info io s zone)
  | getMode => once (Thermostat.getMode info io s)
  | ambientTemp => once (Thermostat.getAmbientTemp info io s)
  | equipmentState => once (Thermostat.getEquipmentState info io s)
  | fanSpeed => once (Thermostat.getFanSpeed info io s)
  | setMode mode => once (Thermostat.setMode info io s mode)
  | thermostatInfo => waits (Thermostat.getInfo info io fuel s)
  | getTempUnit => waits (Thermostat.getTempUnit info io fuel s)
  | setTempUnit unit => once (Thermostat.setTempUnit info io s unit)
  | setFanSpeed speed => once (Thermostat.setFanSpeed info io s speed)
  | thermostatStatus => waits (Thermostat.status info io fuel s)
  | setStatusMessage b => once (Thermostat.setStatusMessage info io s b)
  | setCoolSetpoint zone t => once (Thermostat.setCoolSetpoint info io s zone t)
  | setHeatSetpoint zone t => once (Thermostat.setHeatSetpoint info io s zone t)
  | increaseZoneTemp zone d => once (Thermostat.increaseZoneTemp info io s zone d)
  | decreaseZoneTemp zone d => once (Thermostat.decreaseZoneTemp info io s zone d)
  | setZoneCoolSetpoint zone t d => once (Thermostat.setZoneCoolSetpoint info io s zone t d)
  | setZoneHeatSetpoint zone t d => once (Thermostat.setZoneHeatSetpoint info io s zone t d)

/-- Calls one after the other, each on a device of its own; a crash ends them. -/
def runAll (io : MsgIO σ) (fuel : Nat) : List (DeviceInfo × DeviceCall) → σ → Option (σ × List Ended)
  | [], s => some (s, [])
  | c :: cs, s =>
    match c.2.run c.1 io fuel s with
    | none => none
    | some (s, .crashed) => some (s, [.crashed])
    | some (s, .returned) => (runAll io fuel cs s).map fun r => (r.1, .returned :: r.2)

/-- A list of links kept by a device that has not been cut short since it was read: the index has only places that are in it. None of its links says it is the
last one. -/
def Whole (ldb : Ldb) : Prop := (∀ x ∈ ldb.index, x.2 < ldb.links.length) ∧ ∀ l ∈ ldb.links, l.flags.toNat / 2 % 2 = 1

/-- Nothing nonsensical is asked for: no place before the first, no record that says it is the last one among links to be updated, and the list kept has not been
cut short. -/
def Sensible : DeviceCall → Prop
  | writeLink _ index _ => 0 ≤ index
  | updateLinks ldb _ _ given => Whole ldb ∧ ∀ l ∈ given, l.flags.toNat / 2 % 2 = 1
  | addLinks ldb _ _ _ => Whole ldb
  | _ => True

/-- The calls that may read the links of the device. -/
def Downloads : DeviceCall → Prop
  | links .. | updateLinks .. | addLinks .. => True
  | _ => False

end DeviceCall

/-- An extended message that asks for links instead of bringing one: `2f`, and 0 in the second byte of its data. -/
def AsksForLinks (p : Packet) : Prop := p.payload[7]? = some 0x2f#8 ∧ p.payload[10]? = some 0x00#8

end Insteon.Spec
