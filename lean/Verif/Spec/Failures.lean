import Verif.Spec.Calls

/-
Specification vocabulary for failures that are reported: message writers that note what went wrong, and the errors of all calls on devices.
-/

namespace Insteon.Spec

/-- A world, the first error that came of reading or writing a message, and whether anything was read or written after it. -/
structure Watched (σ : Type) where
  world : σ
  failed : Option Err
  more : Bool

/-- The error of an attempt to read or write a message. -/
def errorOf : MRes → Option Err
  | .ret _ e => e
  | .panic => none

/-- A message writer that notes the first error, and whether it is used again. -/
def watch {σ : Type} (io : MsgIO σ) : MsgIO (Watched σ) where
  read w := (⟨(io.read w.world).1, w.failed.or (errorOf (io.read w.world).2), w.more || w.failed.isSome⟩, (io.read w.world).2)
  write w m := (⟨(io.write w.world m).1, w.failed.or (errorOf (io.write w.world m).2), w.more || w.failed.isSome⟩, (io.write w.world m).2)

/-- The error among the results of a call. -/
def errorAmong {α : Type} (err : α → Option Err) : Out α → Out (Option Err)
  | .ok v => .ok (err v)
  | .err e => .ok (some e)
  | .panic => .panic

namespace DeviceCall
variable {σ : Type}

/-- The world after a call and its error. -/
def tells {α : Type} (err : α → Option Err) (r : σ × Out α) : Option (σ × Out (Option Err)) := some (r.1, errorAmong err r.2)

/-- The same for calls that wait for certain messages: nothing if `fuel` messages were not enough to end it. -/
def tellsLate {α : Type} (err : α → Option Err) (r : Option (σ × Out α)) : Option (σ × Out (Option Err)) := r.map fun r => (r.1, errorAmong err r.2)

/-- The same for calls about links. -/
def tellsOf {α : Type} (err : α → Option Err) (r : Option (σ × Ldb × Out α)) : Option (σ × Out (Option Err)) := r.map fun r => (r.1, errorAmong err r.2.2)

/-- The error of a call on the device `info` over the message writer `io`; nothing if it is still waiting after `fuel` messages. -/
def report (info : DeviceInfo) (io : MsgIO σ) (fuel : Nat) (s : σ) : DeviceCall → Option (σ × Out (Option Err))
  | openDevice dst => tellsLate (fun r => r.2.2) (Dev.open io fuel s dst)
  | engineVersion dst => tells Prod.snd (Insteon.getEngineVersion io s dst)
  | identification dst => tellsLate (fun r => r.2.2) (Insteon.idRequest io fuel s dst)
  | send c p => tells Prod.snd (Device.send info io s c p)
  | sendCommand c p => tells id (Device.sendCommand info io s c p)
  | productData => tellsLate Prod.snd (Device.productData info io fuel s)
  | extendedGet data => tellsLate Prod.snd (Device.extendedGet info io fuel s data)
  | enterLinkingMode g => tells id (Device.enterLinkingMode info io s g)
  | enterUnlinkingMode g => tells id (Device.enterUnlinkingMode info io s g)
  | exitLinkingMode => tells id (Device.exitLinkingMode info io s)
  | links ldb now done => tellsOf Prod.snd (Ldb.getLinks (Device.io info io) fuel now done s ldb)
  | writeLink ldb i l => tellsOf id (some (Ldb.writeLink (Device.io info io) s ldb i l))
  | writeLinks ldb done ls => tellsOf id (some (Ldb.writeLinks (Device.io info io) done s ldb ls))
  | updateLinks ldb now done ls => tellsOf id (Ldb.updateLinks (Device.io info io) fuel now done s ldb ls)
  | addLinks ldb now done ls => tellsOf id (Ldb.addLinks (Device.io info io) fuel now done s ldb ls)
  | lightStatus => tells Prod.snd (Switch.status info io s)
  | switchConfig => tellsLate Prod.snd (Switch.config info io fuel s)
  | operatingFlags => tells Prod.snd (Switch.operatingFlags info io s)
  | setLoadSense b => tells id (Switch.setLoadSense info io s b)
  | setBacklight b => tells id (Switch.setBacklight info io s b)
  | turnOff => tells id (Switch.turnOff info io s)
  | turnOn level => tells id (Switch.turnOn info io s level)
  | dimmerConfig => tellsLate Prod.snd (Dimmer.config info io fuel s)
  | brighten => tells id (Dimmer.brighten info io s)
  | dim => tells id (Dimmer.dim info io s)
  | startBrighten => tells id (Dimmer.startBrighten info io s)
  | startDim => tells id (Dimmer.startDim info io s)
  | stopManualChange => tells id (Dimmer.stopManualChange info io s)
  | onFast => tells id (Dimmer.onFast info io s)
  | instantChange level => tells id (Dimmer.instantChange info io s level)
  | setStatus level => tells id (Dimmer.setStatus info io s level)
  | onAtRamp level rate => tells id (Dimmer.onAtRamp info io s level rate)
  | offAtRamp rate => tells id (Dimmer.offAtRamp info io s rate)
  | increaseTemp d => tells id (Thermostat.increaseTemp info io s d)
  | decreaseTemp d => tells id (Thermostat.decreaseTemp info io s d)
  | zoneInfo zone => tells Prod.snd (Thermostat.getZoneInfo info io s zone)
  | getMode => tells Prod.snd (Thermostat.getMode info io s)
  | ambientTemp => tells Prod.snd (Thermostat.getAmbientTemp info io s)
  | equipmentState => tells Prod.snd (Thermostat.getEquipmentState info io s)
  | fanSpeed => tells Prod.snd (Thermostat.getFanSpeed info io s)
  | setMode mode => tells id (Thermostat.setMode info io s mode)
  | thermostatInfo => tellsLate Prod.snd (Thermostat.getInfo info io fuel s)
  | getTempUnit => tellsLate Prod.snd (Thermostat.getTempUnit info io fuel s)
  | setTempUnit unit => tells id (Thermostat.setTempUnit info io s unit)
  | setFanSpeed speed => tells id (Thermostat.setFanSpeed info io s speed)
  | thermostatStatus => tellsLate Prod.snd (Thermostat.status info io fuel s)
  | setStatusMessage b => tells id (Thermostat.setStatusMessage info io s b)
  | setCoolSetpoint zone t => tells id (Thermostat.setCoolSetpoint info io s zone t)
  | setHeatSetpoint zone t => tells id (Thermostat.setHeatSetpoint info io s zone t)
  | increaseZoneTemp zone d => tells id (Thermostat.increaseZoneTemp info io s zone d)
  | decreaseZoneTemp zone d => tells id (Thermostat.decreaseZoneTemp info io s zone d)
  | setZoneCoolSetpoint zone t d => tells id (Thermostat.setZoneCoolSetpoint info io s zone t d)
  | setZoneHeatSetpoint zone t d => tells id (Thermostat.setZoneHeatSetpoint info io s zone t d)

/-- The calls that ask for the engine version: those know that a device refusing with 0xff is not linked, and say so. -/
def AsksEngine : DeviceCall → Prop
  | openDevice _ => True
  | engineVersion _ => True
  | _ => False

/-- The calls that tell what went wrong: `UpdateLinks` may forget it when there are several links. -/
def Remembers : DeviceCall → Prop
  | updateLinks _ _ _ ls => ls.length ≤ 1
  | _ => True

end DeviceCall

end Insteon.Spec
