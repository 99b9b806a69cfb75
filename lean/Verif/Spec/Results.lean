import Verif.Spec.Failures

/-
Specification vocabulary for the results of calls on devices: not only the error, but all the caller gets.
-/

namespace Insteon.Spec

/-- What a call on a device returns. -/
def DeviceCall.Value : DeviceCall → Type
  | openDevice .. => Bool × DeviceInfo × Option Err
  | engineVersion .. => EngineVersion × Option Err
  | identification .. => FirmwareVersion × DevCat × Option Err
  | send .. => Command × Option Err
  | sendCommand .. => Option Err
  | productData => Option ProductData × Option Err
  | extendedGet .. => Bytes × Option Err
  | enterLinkingMode .. => Option Err
  | enterUnlinkingMode .. => Option Err
  | exitLinkingMode => Option Err
  | links .. => List LinkRecord × Option Err
  | writeLink .. => Option Err
  | writeLinks .. => Option Err
  | updateLinks .. => Option Err
  | addLinks .. => Option Err
  | lightStatus => BitVec 64 × Option Err
  | switchConfig => SwitchConfig × Option Err
  | operatingFlags => LightFlags × Option Err
  | setLoadSense .. => Option Err
  | setBacklight .. => Option Err
  | turnOff => Option Err
  | turnOn .. => Option Err
  | dimmerConfig => DimmerConfig × Option Err
  | brighten => Option Err
  | dim => Option Err
  | startBrighten => Option Err
  | startDim => Option Err
  | stopManualChange => Option Err
  | onFast => Option Err
  | instantChange .. => Option Err
  | setStatus .. => Option Err
  | onAtRamp .. => Option Err
  | offAtRamp .. => Option Err
  | increaseTemp .. => Option Err
  | decreaseTemp .. => Option Err
  | zoneInfo .. => ZoneInfo × Option Err
  | getMode => ThermostatMode × Option Err
  | ambientTemp => BitVec 64 × Option Err
  | equipmentState => EquipmentState × Option Err
  | fanSpeed => BitVec 64 × Option Err
  | setMode .. => Option Err
  | thermostatInfo => ThermostatInfo × Option Err
  | getTempUnit => Int × Option Err
  | setTempUnit .. => Option Err
  | setFanSpeed .. => Option Err
  | thermostatStatus => ThermostatStatus × Option Err
  | setStatusMessage .. => Option Err
  | setCoolSetpoint .. => Option Err
  | setHeatSetpoint .. => Option Err
  | increaseZoneTemp .. => Option Err
  | decreaseZoneTemp .. => Option Err
  | setZoneCoolSetpoint .. => Option Err
  | setZoneHeatSetpoint .. => Option Err

namespace DeviceCall
variable {σ : Type}

/-- The world after a call and what it came to; no link database is involved. -/
def full {α : Type} (r : σ × Out α) : Option (σ × Option Ldb × Out α) := some (r.1, none, r.2)

/-- The same for calls that wait for certain messages: nothing if `fuel` messages were not enough to end it. -/
def fullLate {α : Type} (r : Option (σ × Out α)) : Option (σ × Option Ldb × Out α) := r.map fun r => (r.1, none, r.2)

/-- The same for calls about links, which keep what they know of the device's link database. -/
def fullOf {α : Type} (r : Option (σ × Ldb × Out α)) : Option (σ × Option Ldb × Out α) := r.map fun r => (r.1, some r.2.1, r.2.2)

/-- A call on the device `info` over the message writer `io`: what is known of its links afterwards, and what it returns; nothing if it is still waiting after `fuel` messages. -/
def result (info : DeviceInfo) (io : MsgIO σ) (fuel : Nat) (s : σ) : (c : DeviceCall) → Option (σ × Option Ldb × Out c.Value)
  | openDevice dst => fullLate (Dev.open io fuel s dst)
  | engineVersion dst => full (Insteon.getEngineVersion io s dst)
  | identification dst => fullLate (Insteon.idRequest io fuel s dst)
  | send c p => full (Device.send info io s c p)
  | sendCommand c p => full (Device.sendCommand info io s c p)
  | productData => fullLate (Device.productData info io fuel s)
  | extendedGet data => fullLate (Device.extendedGet info io fuel s data)
  | enterLinkingMode g => full (Device.enterLinkingMode info io s g)
  | enterUnlinkingMode g => full (Device.enterUnlinkingMode info io s g)
  | exitLinkingMode => full (Device.exitLinkingMode info io s)
  | links ldb now done => fullOf (Ldb.getLinks (Device.io info io) fuel now done s ldb)
  | writeLink ldb i l => fullOf (some (Ldb.writeLink (Device.io info io) s ldb i l))
  | writeLinks ldb done ls => fullOf (some (Ldb.writeLinks (Device.io info io) done s ldb ls))
  | updateLinks ldb now done ls => fullOf (Ldb.updateLinks (Device.io info io) fuel now done s ldb ls)
  | addLinks ldb now done ls => fullOf (Ldb.addLinks (Device.io info io) fuel now done s ldb ls)
  | lightStatus => full (Switch.status info io s)
  | switchConfig => fullLate (Switch.config info io fuel s)
  | operatingFlags => full (Switch.operatingFlags info io s)
  | setLoadSense b => full (Switch.setLoadSense info io s b)
  | setBacklight b => full (Switch.setBacklight info io s b)
  | turnOff => full (Switch.turnOff info io s)
  | turnOn level => full (Switch.turnOn info io s level)
  | dimmerConfig => fullLate (Dimmer.config info io fuel s)
  | brighten => full (Dimmer.brighten info io s)
  | dim => full (Dimmer.dim info io s)
  | startBrighten => full (Dimmer.startBrighten info io s)
  | startDim => full (Dimmer.startDim info io s)
  | stopManualChange => full (Dimmer.stopManualChange info io s)
  | onFast => full (Dimmer.onFast info io s)
  | instantChange level => full (Dimmer.instantChange info io s level)
  | setStatus level => full (Dimmer.setStatus info io s level)
  | onAtRamp level rate => full (Dimmer.onAtRamp info io s level rate)
  | offAtRamp rate => full (Dimmer.offAtRamp info io s rate)
  | increaseTemp d => full (Thermostat.increaseTemp info io s d)
  | decreaseTemp d => full (Thermostat.decreaseTemp info io s d)
  | zoneInfo zone => full (Thermostat.getZoneInfo info io s zone)
  | getMode => full (Thermostat.getMode info io s)
  | ambientTemp => full (Thermostat.getAmbientTemp info io s)
  | equipmentState => full (Thermostat.getEquipmentState info io s)
  | fanSpeed => full (Thermostat.getFanSpeed info io s)
  | setMode mode => full (Thermostat.setMode info io s mode)
  | thermostatInfo => fullLate (Thermostat.getInfo info io fuel s)
  | getTempUnit => fullLate (Thermostat.getTempUnit info io fuel s)
  | setTempUnit unit => full (Thermostat.setTempUnit info io s unit)
  | setFanSpeed speed => full (Thermostat.setFanSpeed info io s speed)
  | thermostatStatus => fullLate (Thermostat.status info io fuel s)
  | setStatusMessage b => full (Thermostat.setStatusMessage info io s b)
  | setCoolSetpoint zone t => full (Thermostat.setCoolSetpoint info io s zone t)
  | setHeatSetpoint zone t => full (Thermostat.setHeatSetpoint info io s zone t)
  | increaseZoneTemp zone d => full (Thermostat.increaseZoneTemp info io s zone d)
  | decreaseZoneTemp zone d => full (Thermostat.decreaseZoneTemp info io s zone d)
  | setZoneCoolSetpoint zone t d => full (Thermostat.setZoneCoolSetpoint info io s zone t d)
  | setZoneHeatSetpoint zone t d => full (Thermostat.setZoneHeatSetpoint info io s zone t d)

/-- The error among what a call returns. -/
def fault : (c : DeviceCall) → c.Value → Option Err
  | openDevice .. => (fun r => r.2.2)
  | engineVersion .. => Prod.snd
  | identification .. => (fun r => r.2.2)
  | send .. => Prod.snd
  | sendCommand .. => id
  | productData => Prod.snd
  | extendedGet .. => Prod.snd
  | enterLinkingMode .. => id
  | enterUnlinkingMode .. => id
  | exitLinkingMode => id
  | links .. => Prod.snd
  | writeLink .. => id
  | writeLinks .. => id
  | updateLinks .. => id
  | addLinks .. => id
  | lightStatus => Prod.snd
  | switchConfig => Prod.snd
  | operatingFlags => Prod.snd
  | setLoadSense .. => id
  | setBacklight .. => id
  | turnOff => id
  | turnOn .. => id
  | dimmerConfig => Prod.snd
  | brighten => id
  | dim => id
  | startBrighten => id
  | startDim => id
  | stopManualChange => id
  | onFast => id
  | instantChange .. => id
  | setStatus .. => id
  | onAtRamp .. => id
  | offAtRamp .. => id
  | increaseTemp .. => id
  | decreaseTemp .. => id
  | zoneInfo .. => Prod.snd
  | getMode => Prod.snd
  | ambientTemp => Prod.snd
  | equipmentState => Prod.snd
  | fanSpeed => Prod.snd
  | setMode .. => id
  | thermostatInfo => Prod.snd
  | getTempUnit => Prod.snd
  | setTempUnit .. => id
  | setFanSpeed .. => id
  | thermostatStatus => Prod.snd
  | setStatusMessage .. => id
  | setCoolSetpoint .. => id
  | setHeatSetpoint .. => id
  | increaseZoneTemp .. => id
  | decreaseZoneTemp .. => id
  | setZoneCoolSetpoint .. => id
  | setZoneHeatSetpoint .. => id

end DeviceCall

end Insteon.Spec
