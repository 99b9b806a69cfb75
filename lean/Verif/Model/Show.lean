import Verif.Model.LinkText
import Verif.Model.LinkOps
import Verif.Model.Names
import Verif.Model.Json
import Verif.Model.Thermostat

/-
What is shown to a person: link databases (util/link.go 431-454 with util/dumplinks.tmpl and util/printlinks.tmpl),
devices (devices/basic.go, switch.go, dimmer.go, thermostat.go) and thermostat values
(devices/thermostatmode_string.go). The text is what `Execute` writes to a stream that does not fail; for others see Output.lean.
-/

namespace Insteon

/-! ### Link databases -/

/-- One line of util/dumplinks.tmpl 4: the bytes of `MarshalBinary`. -/
def dumpLine (l : LinkRecord) : Bytes :=
  lit "- [" ++ joinWith (lit ", ") (l.marshalBinary.map fun b => lit "0x" ++ hex2 b) ++ lit "]"

/-- `DumpLinks` (util/link.go 439-441 with util/dumplinks.tmpl). -/
def dumpLinks (links : List LinkRecord) : Bytes :=
  if links.isEmpty then lit "no links\n" else lit "links\n" ++ unlines (links.map dumpLine)

/-- `DumpLinkDatabase` (util/link.go 431-437): the text written and the error. -/
def dumpLinkDatabase {σ : Type} (d : Linkable σ) (s : σ) : σ × Bytes × Option Err :=
  match d.links s with
  | (s, links, none) => (s, dumpLinks links, none)
  | (s, _, some e) => (s, [], some e)

/-- One row of util/printlinks.tmpl 5; its four verbs are those of `MarshalText` (link.go 226). -/
def printRow (l : LinkRecord) : Bytes := lit "    " ++ l.marshalText

/-- util/printlinks.tmpl, executed on sorted links. The line breaks before `{{-` are trimmed, so each row starts
with one and the whole ends with one. -/
def printTemplate (links : List LinkRecord) : Bytes :=
  lit "Link Database:" ++
    (if links.isEmpty then lit "\n    No links defined\n"
     else lit "\n    Flags Group Address    Data"
      ++ (links.map fun l => [0x0a#8] ++ printRow l).flatten ++ [0x0a#8])

/-- `PrintLinks` (util/link.go 451-454). `sort` is what `sort.Sort` makes of the links when compared with
`Links.Less`: it is not stable, so the result is not determined by the comparison alone. -/
def printLinks (sort : List LinkRecord → List LinkRecord) (links : List LinkRecord) : Bytes :=
  printTemplate (sort links)

/-- What the list passed to `PrintLinks` holds afterwards (util/link.go 451-454): it is sorted in place. -/
def printLinksArg (sort : List LinkRecord → List LinkRecord) (links : List LinkRecord) : List LinkRecord := sort links

/-- `PrintLinkDatabase` (util/link.go 443-449): the text written and the error. -/
def printLinkDatabase {σ : Type} (sort : List LinkRecord → List LinkRecord) (d : Linkable σ) (s : σ) :
    σ × Bytes × Option Err :=
  match d.links s with
  | (s, links, none) => (s, printLinks sort links, none)
  | (s, _, some e) => (s, [], some e)

/-! ### Devices -/

/-- `fmt.Sprintf("%d", i)` of a Go int (`FirmwareVersion.String`, insteon.go 51-53). -/
def firmwareVersionString (fv : FirmwareVersion) : Bytes := Json.intText fv.toInt

/-- `BasicDevice.String` (devices/basic.go 182-184). -/
def basicString (info : DeviceInfo) : Bytes :=
  engineVersionString info.engineVersion ++ lit " Device (" ++ info.address.string ++ lit ")"

/-- `String` of the device `New` returns for a category: `BasicDevice.String`, `Dimmer.String` (devices/dimmer.go
145-147), `Switch.String` (devices/switch.go 122-124), which an `Outlet` (devices/outlet.go 3-11) inherits, and
`Thermostat.String` (devices/thermostat.go 397-399). The last prints the address in the field `info`, which
`NewThermostat` (devices/thermostat.go 220-224) leaves zero. -/
def deviceString (info : DeviceInfo) : Bytes :=
  match Dev.lookup info.devCat with
  | .basic => basicString info
  | .dimmer => lit "Dimmer (" ++ info.address.string ++ lit ")"
  | .switch => lit "Switch (" ++ info.address.string ++ lit ")"
  | .outlet => lit "Switch (" ++ info.address.string ++ lit ")"
  | .thermostat => lit "Thermostat (" ++ Address.string 0#32 ++ lit ")"

/-- `BasicDevice.Dump` (devices/basic.go 186-190 with the template at 32-37). All devices inherit it, so `{{.String}}`
is always `BasicDevice.String`. -/
def deviceDump (info : DeviceInfo) : Bytes :=
  unlines [lit "        Device: " ++ basicString info,
    lit "      Category: " ++ devCatString info.devCat.1 info.devCat.2,
    lit "      Firmware: " ++ firmwareVersionString info.firmwareVersion,
    lit "Engine Version: " ++ engineVersionString info.engineVersion]

/-! ### Thermostat values -/

/-- The slice `name[index[i]:index[i+1]]` of a generated `String` method. -/
def stringerSlice (name : Bytes) (index : List Nat) (i : Nat) : Bytes :=
  (name.take (index.getD (i + 1) 0)).drop (index.getD i 0)

/-- `ThermostatMode.String` (devices/thermostatmode_string.go 22-31). -/
def thermostatModeString (m : ThermostatMode) : Bytes :=
  if 9 ≤ m.toNat then lit "ThermostatMode(" ++ decByte m ++ lit ")"
  else stringerSlice (lit "Thermostat OffHeat ModeCool ModeAuto ModeFan OnProgram AutoProgram HeatProgram CoolFan Off")
    [0, 14, 23, 32, 41, 47, 59, 71, 83, 90] m.toNat

/-- `Unit.String` (devices/thermostatmode_string.go 40-49). The degree sign is two bytes. -/
def unitString (u : Int) : Bytes :=
  if u < 0 ∨ 2 ≤ u then lit "Unit(" ++ Json.intText u ++ lit ")"
  else stringerSlice ([0xc2#8, 0xb0#8] ++ lit "F" ++ [0xc2#8, 0xb0#8] ++ lit "C") [0, 3, 6] u.toNat

/-- `FanSpeed.String` (devices/thermostatmode_string.go 60-69). -/
def fanSpeedString (f : Int) : Bytes :=
  if f < 0 ∨ 4 ≤ f then lit "FanSpeed(" ++ Json.intText f ++ lit ")"
  else stringerSlice (lit "Single SpeedLow SpeedMedium SpeedHigh Speed") [0, 12, 21, 33, 43] f.toNat

/-- `EquipmentState.String` (devices/thermostat.go 73-88). -/
def equipmentStateString (es : EquipmentState) : Bytes := joinWith (lit ",") (es.values.map lit)

/-- `fmt`'s `%v` of a bool. -/
def boolText (b : Bool) : Bytes := if b then lit "true" else lit "false"

/-- The lines of `ThermostatInfo.String` (devices/thermostat.go 190-210). -/
def thermostatInfoLines (ti : ThermostatInfo) : List Bytes :=
  [lit "                Temp: " ++ fixed1 ti.temp ++ lit " " ++ unitString ti.flags.tempFormat,
    lit "            Humidity: " ++ Json.intText ti.humidity ++ lit " %",
    lit "          Temp Offset: " ++ Json.intText ti.tempOffset,
    lit "      Humidity Offset: " ++ Json.intText ti.humidityOffset,
    lit "                 Mode: " ++ thermostatModeString ti.mode,
    lit "             Fan Mode: " ++ Json.intText ti.fanMode,
    lit "    Backlight Seconds: " ++ Json.intText ti.backlightSeconds,
    lit "   Hysteresis Minutes: " ++ Json.intText ti.hysteresisMinutes,
    lit " Energy Set Backpoint: " ++ Json.intText ti.energySetbackPoint,
    lit "   Temperature Format: " ++ unitString ti.flags.tempFormat,
    lit "         Humidity Low: " ++ Json.intText ti.humidityLow,
    lit "        Humidity High: " ++ Json.intText ti.humidityHigh,
    lit "                  Rev: " ++ Json.intText ti.rev,
    lit "       Cool Set Point: " ++ Json.intText ti.coolSetPoint,
    lit "       Heat Set Point: " ++ Json.intText ti.heatSetPoint,
    lit "            RF Offset: " ++ Json.intText ti.rfOffset,
    lit " Energy Set Backpoint: " ++ Json.intText ti.energySetbackPoint,
    lit " External Temp Offset: " ++ Json.intText ti.externalTempOffset,
    lit "Status Report Enabled: " ++ boolText ti.statusReportEnabled,
    lit "       External Power: " ++ boolText ti.externalPower,
    lit "        External Temp: " ++ boolText ti.externalTemp]

/-- `ThermostatInfo.String` (devices/thermostat.go 188-213). -/
def thermostatInfoString (ti : ThermostatInfo) : Bytes := unlines (thermostatInfoLines ti)

end Insteon
