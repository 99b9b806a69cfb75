import Verif.Model.Lighting
import Verif.Model.Float

/-
devices/thermostat.go
-/

namespace Insteon

/-- `ZoneInfo` (devices/thermostat.go 27): four Go ints. -/
structure ZoneInfo where
  z0 : Int
  z1 : Int
  z2 : Int
  z3 : Int
deriving DecidableEq, Repr

namespace ZoneInfo
/-- devices/thermostat.go 29-31; Go's `/` rounds towards zero. -/
def temperature (zi : ZoneInfo) : Int := zi.z0.tdiv 2
/-- devices/thermostat.go 33-35. -/
def deadband (zi : ZoneInfo) : Int := zi.z1.tdiv 2
/-- devices/thermostat.go 37-39. -/
def setpoint (zi : ZoneInfo) : Int := zi.z2.tdiv 2
/-- devices/thermostat.go 41-43. -/
def humidity (zi : ZoneInfo) : Int := zi.z3
end ZoneInfo

/-- `ThermostatMode` (devices/thermostat.go 45). -/
abbrev ThermostatMode := Byte

namespace ThermostatMode
/-! devices/thermostat.go 48-56. -/
abbrev off : ThermostatMode := 0x00#8
abbrev heat : ThermostatMode := 0x01#8
abbrev cool : ThermostatMode := 0x02#8
abbrev auto : ThermostatMode := 0x03#8
abbrev fanOn : ThermostatMode := 0x04#8
abbrev programAuto : ThermostatMode := 0x05#8
abbrev programHeat : ThermostatMode := 0x06#8
abbrev programCool : ThermostatMode := 0x07#8
abbrev fanOff : ThermostatMode := 0x08#8
end ThermostatMode

/-- `EquipmentState` (devices/thermostat.go 66). -/
abbrev EquipmentState := Byte
namespace EquipmentState
/-- devices/thermostat.go 68. -/
def coolActive (es : EquipmentState) : Bool := es &&& 0x01#8 == 0x01#8
/-- devices/thermostat.go 69. -/
def heatActive (es : EquipmentState) : Bool := es &&& 0x02#8 == 0x02#8
/-- devices/thermostat.go 70. -/
def programmableOutputAvailable (es : EquipmentState) : Bool := es &&& 0x04#8 == 0x04#8
/-- devices/thermostat.go 71. -/
def programmableOutputState (es : EquipmentState) : Bool := es &&& 0x08#8 == 0x08#8
/-- The list joined with commas by `EquipmentState.String` (devices/thermostat.go 73-88). -/
def values (es : EquipmentState) : List String :=
  (if es.coolActive then ["cooling"] else []) ++ (if es.heatActive then ["heating"] else []) ++
  (if es.programmableOutputAvailable then ["programmable output available"] else []) ++
  (if es.programmableOutputState then ["programmable output state"] else [])
end EquipmentState

/-- `ThermostatFlags` (devices/thermostat.go 109). -/
abbrev ThermostatFlags := Byte
namespace ThermostatFlags
/-- devices/thermostat.go 111. -/
def linkingLock (tf : ThermostatFlags) : Bool := tf &&& 0x01#8 == 0x01#8
/-- devices/thermostat.go 112. -/
def buttonBeep (tf : ThermostatFlags) : Bool := tf &&& 0x02#8 == 0x02#8
/-- devices/thermostat.go 113. -/
def buttonLock (tf : ThermostatFlags) : Bool := tf &&& 0x04#8 == 0x04#8
/-- devices/thermostat.go 114: 0 is Fahrenheit, 1 Celsius. -/
def tempFormat (tf : ThermostatFlags) : Int := ((tf &&& 0x08#8) >>> 3).toNat
/-- devices/thermostat.go 115. -/
def timeFormat (tf : ThermostatFlags) : Int := ((tf &&& 0x10#8) >>> 5).toNat
end ThermostatFlags

/-- `ThermostatInfo` (devices/thermostat.go 117-141). `Temp` is a float32, given by its
value. -/
structure ThermostatInfo where
  temp : Rat
  humidity : Int
  tempOffset : Int
  humidityOffset : Int
  mode : ThermostatMode
  fanMode : Int
  backlightSeconds : Int
  hysteresisMinutes : Int
  flags : ThermostatFlags
  humidityLow : Int
  humidityHigh : Int
  rev : Int
  coolSetPoint : Int
  heatSetPoint : Int
  rfOffset : Int
  energySetbackPoint : Int
  externalTempOffset : Int
  statusReportEnabled : Bool
  externalPower : Bool
  externalTemp : Bool
deriving DecidableEq, Repr

namespace ThermostatInfo
/-- The zero value. -/
def zero : ThermostatInfo := ⟨0, 0, 0, 0, 0, 0, 0, 0, 0, 0, 0, 0, 0, 0, 0, 0, 0, false, false, false⟩

/-- `ThermostatInfo.UnmarshalBinary` (devices/thermostat.go 143-186). -/
def unmarshalBinary (ti : ThermostatInfo) (data : Bytes) : ThermostatInfo × Option Err :=
  if data.length < 14 then (ti, some (.wrapped .bufferTooShort))
  else
    let d := fun i => data.getD i 0
    let n := fun i => ((d i).toNat : Int)
    if d 2 = 0x00#8 then
      let temp : Int := n 13 * 256 + n 3
      let ti := { ti with humidity := n 4, tempOffset := n 5, humidityOffset := n 6, mode := d 7, fanMode := n 8,
                          backlightSeconds := n 9, hysteresisMinutes := n 10, flags := d 12, rev := n 13,
                          temp := f32 (f32 temp / 10) }
      (if ti.flags.tempFormat = 0 then { ti with temp := f32 (f32 (f32 (ti.temp * 9) / 5) + 32) } else ti, none)
    else if d 2 = 0x01#8 then
      ({ ti with humidityLow := n 4, humidityHigh := n 3, rev := n 5, coolSetPoint := n 6, heatSetPoint := n 7,
                 rfOffset := n 8, energySetbackPoint := n 9, externalTempOffset := n 10,
                 statusReportEnabled := d 11 == 0x01#8, externalPower := d 12 == 0x01#8,
                 externalTemp := d 13 == 0x02#8 }, none)
    else (ti, some (.other 2))
end ThermostatInfo

/-- `ThermostatStatus` (devices/thermostat.go 99-107). -/
structure ThermostatStatus where
  temperature : Int
  humidity : Int
  setpoint : Int
  deadband : Int
  unit : Int
  mode : ThermostatMode
  state : EquipmentState
deriving DecidableEq, Repr

namespace Thermostat
variable {σ : Type}

/-- `delta*2` on Go ints. -/
def twice (x : Int) : BitVec 64 := BitVec.ofInt 64 x * 2#64

/-- `Thermostat.IncreaseTemp` (devices/thermostat.go 226-228). -/
def increaseTemp (info : DeviceInfo) (io : MsgIO σ) (s : σ) (delta : Int) : σ × Out (Option Err) :=
  Device.sendCommand info io s (Cmd.increaseTemp.subCommand (twice delta)) []
/-- `Thermostat.DecreaseTemp` (devices/thermostat.go 230-232). -/
def decreaseTemp (info : DeviceInfo) (io : MsgIO σ) (s : σ) (delta : Int) : σ × Out (Option Err) :=
  Device.sendCommand info io s (Cmd.decreaseTemp.subCommand (twice delta)) []

/-- `Thermostat.GetZoneInfo` (devices/thermostat.go 234-250). -/
def getZoneInfo (info : DeviceInfo) (io : MsgIO σ) (s : σ) (zone : Int) : σ × Out (ZoneInfo × Option Err) :=
  let z := BitVec.ofInt 64 zone &&& 0x0f#64
  match Device.askAll info io [Cmd.getZoneInfo.subCommand z, Cmd.getZoneInfo.subCommand (0x10#64 ||| z),
      Cmd.getZoneInfo.subCommand (0x20#64 ||| z), Cmd.getZoneInfo.subCommand (0x30#64 ||| z)] s with
  | (s, .ok (vs, e)) =>
    let v := fun i => (vs.getD i 0).toInt
    (s, .ok (⟨v 0, v 1, v 2, v 3⟩, e))
  | (s, .err e) => (s, .err e)
  | (s, .panic) => (s, .panic)

/-- Command 2 of the answer to one command: `GetMode`, `GetAmbientTemp`, `GetEquipmentState`, `GetFanSpeed`
(devices/thermostat.go 252-266, 295-298, 326-329). With an error the response is the zero command, so
the value is 0 in all four. -/
def ask (info : DeviceInfo) (io : MsgIO σ) (s : σ) (c : Command) : σ × Out (BitVec 64 × Option Err) :=
  match Device.send info io s c [] with
  | (s, .ok (ack, e)) => (s, .ok (ack.command2, e))
  | (s, .err e) => (s, .err e)
  | (s, .panic) => (s, .panic)

/-- `Thermostat.GetMode` (devices/thermostat.go 252-258). -/
def getMode (info : DeviceInfo) (io : MsgIO σ) (s : σ) : σ × Out (ThermostatMode × Option Err) :=
  match ask info io s Cmd.getThermostatMode with
  | (s, .ok (v, e)) => (s, .ok (v.setWidth 8, e))
  | (s, .err e) => (s, .err e)
  | (s, .panic) => (s, .panic)
/-- `Thermostat.GetAmbientTemp` (devices/thermostat.go 260-266). -/
def getAmbientTemp (info : DeviceInfo) (io : MsgIO σ) (s : σ) : σ × Out (BitVec 64 × Option Err) :=
  ask info io s Cmd.getAmbientTemp
/-- `Thermostat.GetEquipmentState` (devices/thermostat.go 295-298). -/
def getEquipmentState (info : DeviceInfo) (io : MsgIO σ) (s : σ) : σ × Out (EquipmentState × Option Err) :=
  match ask info io s Cmd.getEquipmentState with
  | (s, .ok (v, e)) => (s, .ok (v.setWidth 8, e))
  | (s, .err e) => (s, .err e)
  | (s, .panic) => (s, .panic)
/-- `Thermostat.GetFanSpeed` (devices/thermostat.go 326-329). -/
def getFanSpeed (info : DeviceInfo) (io : MsgIO σ) (s : σ) : σ × Out (BitVec 64 × Option Err) :=
  ask info io s Cmd.getFanOnSpeed

/-- The command chosen by `Thermostat.SetMode` (devices/thermostat.go 270-291). -/
def modeCommand (mode : ThermostatMode) : Option Command :=
  if mode = .off then some Cmd.thermOff
  else if mode = .heat then some Cmd.setHeat
  else if mode = .cool then some Cmd.setCool
  else if mode = .auto then some Cmd.setModeAuto
  else if mode = .fanOn then some Cmd.setFan
  else if mode = .fanOff then some Cmd.clearFan
  else if mode = .programAuto then some Cmd.setProgramAuto
  else if mode = .programHeat then some Cmd.setProgramHeat
  else if mode = .programCool then some Cmd.setProgramCool
  else none

/-- `Thermostat.SetMode` (devices/thermostat.go 268-293). -/
def setMode (info : DeviceInfo) (io : MsgIO σ) (s : σ) (mode : ThermostatMode) : σ × Out (Option Err) :=
  match modeCommand mode with
  | none => (s, .ok (some .invalidThermostatMode))
  | some c => Device.sendCommand info io s c []

/-- `Thermostat.GetInfo` (devices/thermostat.go 300-310), the loop body for one data set. -/
def getInfoStep (info : DeviceInfo) (io : MsgIO σ) (fuel : Nat) (s : σ) (ti : ThermostatInfo) (i : Byte) :
    Option (σ × Out (ThermostatInfo × Option Err)) :=
  match Device.extendedGet info io fuel s [0x00#8, 0x00#8, i] with
  | none => none
  | some (s, .panic) => some (s, .panic)
  | some (s, .err e) => some (s, .err e)
  | some (s, .ok (_, some e)) => some (s, .ok (ti, some e))
  | some (s, .ok (buf, none)) => some (s, .ok (ti.unmarshalBinary buf))

/-- `Thermostat.GetInfo` (devices/thermostat.go 300-310). -/
def getInfo (info : DeviceInfo) (io : MsgIO σ) (fuel : Nat) (s : σ) : Option (σ × Out (ThermostatInfo × Option Err)) :=
  match getInfoStep info io fuel s .zero 0#8 with
  | some (s, .ok (ti, none)) => getInfoStep info io fuel s ti 1#8
  | r => r

/-- `Thermostat.GetTempUnit` (devices/thermostat.go 312-315). -/
def getTempUnit (info : DeviceInfo) (io : MsgIO σ) (fuel : Nat) (s : σ) : Option (σ × Out (Int × Option Err)) :=
  match getInfo info io fuel s with
  | none => none
  | some (s, .ok (ti, e)) => some (s, .ok (ti.flags.tempFormat, e))
  | some (s, .err e) => some (s, .err e)
  | some (s, .panic) => some (s, .panic)

/-- `Thermostat.SetTempUnit` (devices/thermostat.go 317-324). -/
def setTempUnit (info : DeviceInfo) (io : MsgIO σ) (s : σ) (unit : Int) : σ × Out (Option Err) :=
  if unit = 1 then Device.sendCommand info io s Cmd.extendedGetSet [0x00#8, 0x04#8, 0x00#8, 0x08#8]
  else if unit = 0 then Device.sendCommand info io s Cmd.extendedGetSet [0x00#8, 0x04#8, 0x00#8, 0x00#8]
  else (s, .ok (some .invalidUnit))

/-- `Thermostat.SetFanSpeen` (devices/thermostat.go 331-344). -/
def setFanSpeed (info : DeviceInfo) (io : MsgIO σ) (s : σ) (speed : Int) : σ × Out (Option Err) :=
  if speed = 1 then Device.sendCommand info io s Cmd.setFanOnLow []
  else if speed = 2 then Device.sendCommand info io s Cmd.setFanOnMed []
  else if speed = 3 then Device.sendCommand info io s Cmd.setFanOnHigh []
  else (s, .ok (some .invalidFanSpeed))

/-- `Thermostat.Status` (devices/thermostat.go 346-364). -/
def status (info : DeviceInfo) (io : MsgIO σ) (fuel : Nat) (s : σ) : Option (σ × Out (ThermostatStatus × Option Err)) :=
  match getZoneInfo info io s 0 with
  | (s, .err e) => some (s, .err e)
  | (s, .panic) => some (s, .panic)
  | (s, .ok (zi, some e)) => some (s, .ok (⟨zi.temperature, zi.humidity, zi.setpoint, zi.deadband, 0, 0, 0⟩, some e))
  | (s, .ok (zi, none)) =>
    match getTempUnit info io fuel s with
    | none => none
    | some (s, .err e) => some (s, .err e)
    | some (s, .panic) => some (s, .panic)
    | some (s, .ok (u, some e)) => some (s, .ok (⟨zi.temperature, zi.humidity, zi.setpoint, zi.deadband, u, 0, 0⟩, some e))
    | some (s, .ok (u, none)) =>
      match getMode info io s with
      | (s, .err e) => some (s, .err e)
      | (s, .panic) => some (s, .panic)
      | (s, .ok (m, some e)) => some (s, .ok (⟨zi.temperature, zi.humidity, zi.setpoint, zi.deadband, u, m, 0⟩, some e))
      | (s, .ok (m, none)) =>
        match getEquipmentState info io s with
        | (s, .err e) => some (s, .err e)
        | (s, .panic) => some (s, .panic)
        | (s, .ok (st, e)) => some (s, .ok (⟨zi.temperature, zi.humidity, zi.setpoint, zi.deadband, u, m, st⟩, e))

/-- `Thermostat.SetStatusMessage` (devices/thermostat.go 366-371). -/
def setStatusMessage (info : DeviceInfo) (io : MsgIO σ) (s : σ) (enabled : Bool) : σ × Out (Option Err) :=
  if enabled then Device.sendCommand info io s Cmd.extendedGetSet [0x00#8, 0x08#8, 0x00#8]
  else Device.sendCommand info io s Cmd.disableStatusMessage []

/-- `Thermostat.SetCoolSetpoint` (devices/thermostat.go 373-375): the zone is not used. -/
def setCoolSetpoint (info : DeviceInfo) (io : MsgIO σ) (s : σ) (_zone temp : Int) : σ × Out (Option Err) :=
  Device.sendCommand info io s (Cmd.setCoolSetpoint.subCommand (twice temp)) []
/-- `Thermostat.SetHeatSetpoint` (devices/thermostat.go 377-379): the zone is not used. -/
def setHeatSetpoint (info : DeviceInfo) (io : MsgIO σ) (s : σ) (_zone temp : Int) : σ × Out (Option Err) :=
  Device.sendCommand info io s (Cmd.setHeatSetpoint.subCommand (twice temp)) []

/-- `Thermostat.IncreaseZoneTemp` (devices/thermostat.go 381-383). -/
def increaseZoneTemp (info : DeviceInfo) (io : MsgIO σ) (s : σ) (zone delta : Int) : σ × Out (Option Err) :=
  Device.sendCommand info io s (Cmd.zoneTempUp.subCommand (BitVec.ofInt 64 zone)) [(twice delta).setWidth 8]
/-- `Thermostat.DecreaseZoneTemp` (devices/thermostat.go 385-387). -/
def decreaseZoneTemp (info : DeviceInfo) (io : MsgIO σ) (s : σ) (zone delta : Int) : σ × Out (Option Err) :=
  Device.sendCommand info io s (Cmd.zoneTempDown.subCommand (BitVec.ofInt 64 zone)) [(twice delta).setWidth 8]
/-- `Thermostat.SetZoneCoolSetpoint` (devices/thermostat.go 389-391). -/
def setZoneCoolSetpoint (info : DeviceInfo) (io : MsgIO σ) (s : σ) (zone temp deadband : Int) : σ × Out (Option Err) :=
  Device.sendCommand info io s (Cmd.setZoneCoolSetpoint.subCommand (BitVec.ofInt 64 zone))
    [(twice temp).setWidth 8, BitVec.ofInt 8 deadband]
/-- `Thermostat.SetZoneHeatSetpoint` (devices/thermostat.go 393-395). -/
def setZoneHeatSetpoint (info : DeviceInfo) (io : MsgIO σ) (s : σ) (zone temp deadband : Int) : σ × Out (Option Err) :=
  Device.sendCommand info io s (Cmd.setZoneHeatSetpoint.subCommand (BitVec.ofInt 64 zone))
    [(twice temp).setWidth 8, BitVec.ofInt 8 deadband]
end Thermostat

end Insteon
