import Verif.Model.Names
import Verif.Model.LinkText

/-
The program that writes commands/commands.go and COMMANDS.md: internal/main.go, internal/commands.go and the templates internal/commands.go.tmpl,
internal/COMMANDS.md.tmpl and internal/license.tmpl.
-/

namespace Insteon

/-- `command` (internal/commands.go 17-24). -/
structure GenCommand where
  name : Bytes
  comment : Bytes
  string : Bytes
  byte1 : Byte
  byte2 : Byte
  notes : Bytes
deriving DecidableEq, Repr

/-- `commandGroup` (internal/commands.go 26-31). -/
structure GenGroup where
  name : Bytes
  byte0 : Byte
  convenience : Bool
  commands : List GenCommand
deriving DecidableEq, Repr

/-- How `html/template`, which internal/main.go 21 imports, prints a byte of a string in text: `"`, `&`, `'`, `+`, `<`, `>` and the byte 0 are
replaced (`htmlReplacementTable` of the standard library). -/
def htmlByte (b : Byte) : Bytes :=
  if b = 0x22#8 then lit "&#34;"
  else if b = 0x26#8 then lit "&amp;"
  else if b = 0x27#8 then lit "&#39;"
  else if b = 0x2b#8 then lit "&#43;"
  else if b = 0x3c#8 then lit "&lt;"
  else if b = 0x3e#8 then lit "&gt;"
  else if b = 0x00#8 then [0xef#8, 0xbf#8, 0xbd#8]
  else [b]

/-- How `html/template` prints a string in text. -/
def htmlEscape (s : Bytes) : Bytes := s.flatMap htmlByte

namespace Generator

/-- internal/license.tmpl 1-13, with the year and the owner of internal/main.go 58-59. The year is that of the clock. -/
def license (year : Bytes) : List Bytes := [
  lit "// Copyright " ++ year ++ lit " Andrew Bates",
  lit "// ",
  lit "// Licensed under the Apache License, Version 2.0 (the \"License\");",
  lit "// you may not use this file except in compliance with the License.",
  lit "// You may obtain a copy of the License at",
  lit "// ",
  lit "// http://www.apache.org/licenses/LICENSE-2.0",
  lit "// ",
  lit "// Unless required by applicable law or agreed to in writing, software",
  lit "// distributed under the License is distributed on an \"AS IS\" BASIS,",
  lit "// WITHOUT WARRANTIES OR CONDITIONS OF ANY KIND, either express or implied.",
  lit "// See the License for the specific language governing permissions and",
  lit "// limitations under the License."]

/-- A constant (internal/commands.go.tmpl 7-10). -/
def constant (byte0 : Byte) (c : GenCommand) : Bytes :=
  lit "\n// " ++ htmlEscape c.name ++ lit " " ++ htmlEscape c.comment ++ lit "\n" ++ htmlEscape c.name ++ lit " = Command(0x" ++ hex2 byte0 ++ hex2 c.byte1 ++ hex2 c.byte2 ++
    lit ") // " ++ htmlEscape c.string ++ lit "\n"

/-- A group of constants (internal/commands.go.tmpl 5-11). -/
def constants (g : GenGroup) : Bytes := lit "\n// " ++ htmlEscape g.name ++ lit "\nconst(" ++ g.commands.flatMap (constant g.byte0) ++ lit ")\n"

/-- An entry of the map (internal/commands.go.tmpl 13-14). -/
def entry (c : GenCommand) : Bytes := lit "\n  " ++ htmlEscape c.name ++ lit ": \"" ++ htmlEscape c.string ++ lit "\","

/-- The text made for commands/commands.go (internal/commands.go.tmpl 1-15). Not modelled: `format.Source` (internal/main.go 76), which changes white
space, and errors of the file. -/
def commandsGo (year : Bytes) (groups : List GenGroup) : Bytes :=
  unlines (license year) ++ lit "\n\npackage commands\n\n" ++ groups.flatMap constants ++ lit "\n\nvar cmdStrings = map[Command]string { " ++
    groups.flatMap (fun g => g.commands.flatMap entry) ++ lit "\n}\n"

/-- A row of a table (internal/COMMANDS.md.tmpl 11-12). -/
def row (c : GenCommand) : Bytes :=
  lit "\n0x" ++ hex2 c.byte1 ++ lit "|0x" ++ hex2 c.byte2 ++ lit "|" ++ htmlEscape c.string ++ lit "|" ++ htmlEscape c.notes

/-- A table (internal/COMMANDS.md.tmpl 6-14); convenience commands are left out. -/
def table (g : GenGroup) : Bytes :=
  if g.convenience then []
  else lit "\n\n## " ++ htmlEscape g.name ++ lit "\nCommand 1 | Command 2 | Name | Notes\n----------|-----------|------|------" ++ g.commands.flatMap row

/-- The text made for COMMANDS.md (internal/COMMANDS.md.tmpl). -/
def commandsMd (groups : List GenGroup) : Bytes :=
  lit "\n# Known Insteon Commands\n\nThe following tables outline all the Insteon command combinations that are\nknown in this project." ++
    groups.flatMap table ++ lit "\n\n"

end Generator

/-- `commands` (internal/commands.go 33-192). -/
def internalCommands : List GenGroup := [
  ⟨lit "Standard Direct Commands", 0x00, false, [
    ⟨lit "AssignToAllLinkGroup", lit "Assign to ALL-Link Group", lit "Assign to All-Link Group", 0x01, 0x00, lit ""⟩,
    ⟨lit "DeleteFromAllLinkGroup", lit "Delete from All-Link Group", lit "Delete from All-Link Group", 0x02, 0x00, lit ""⟩,
    ⟨lit "ProductDataReq", lit "Product Data Request", lit "Product Data Request", 0x03, 0x00, lit ""⟩,
    ⟨lit "FxUsernameReq", lit "FX Username Request", lit "Fx Username Request", 0x03, 0x01, lit ""⟩,
    ⟨lit "DeviceTextStringReq", lit "Device Text String Request", lit "Text String Request", 0x03, 0x02, lit ""⟩,
    ⟨lit "ExitLinkingMode", lit "Exit Linking Mode", lit "Exit Linking Mode", 0x08, 0x00, lit ""⟩,
    ⟨lit "EnterLinkingMode", lit "Enter Linking Mode", lit "Enter Linking Mode", 0x09, 0x00, lit ""⟩,
    ⟨lit "EnterUnlinkingMode", lit "Enter Unlinking Mode", lit "Enter Unlinking Mode", 0x0a, 0x00, lit ""⟩,
    ⟨lit "GetEngineVersion", lit "Get Insteon Engine Version", lit "Engine Version", 0x0d, 0x00, lit ""⟩,
    ⟨lit "Ping", lit "Ping Request", lit "Ping Request", 0x0f, 0x00, lit ""⟩,
    ⟨lit "IDRequest", lit "Send ID Request which will prompt the device to respond with a Set Button Pressed Controller/Responder", lit "ID Request", 0x10, 0x00, lit ""⟩,
    ⟨lit "GetOperatingFlags", lit "is used to request a given operating flag", lit "Get Operating Flags", 0x1f, 0x00, lit ""⟩]⟩,
  ⟨lit "Extended Direct Commands", 0x01, false, [
    ⟨lit "ProductDataResp", lit "Product Data Response", lit "Product Data Response", 0x03, 0x00, lit ""⟩,
    ⟨lit "FxUsernameResp", lit "FX Username Response", lit "Fx Username Response", 0x03, 0x01, lit ""⟩,
    ⟨lit "DeviceTextStringResp", lit "Device Text String Response", lit "Text String Response", 0x03, 0x02, lit ""⟩,
    ⟨lit "SetDeviceTextString", lit "sets the device text string", lit "Set Text String", 0x03, 0x03, lit ""⟩,
    ⟨lit "SetAllLinkCommandAlias", lit "sets the command alias to use for all-linking", lit "Set All-Link Command Alias", 0x03, 0x04, lit ""⟩,
    ⟨lit "SetAllLinkCommandAliasData", lit "sets the extended data to be used if the command alias is an extended command", lit "Set All-Link Command Alias Data", 0x03, 0x05, lit ""⟩,
    ⟨lit "ExitLinkingModeExt", lit "Exit Linking Mode", lit "Exit Linking Mode (i2cs)", 0x08, 0x00, lit "Insteon version 2 with checksum devices only respond to extended linking commands"⟩,
    ⟨lit "EnterLinkingModeExt", lit "Enter Linking Mode (extended command for I2CS devices)", lit "Enter Linking Mode (i2cs)", 0x09, 0x00, lit "Insteon version 2 with checksum devices only respond to extended linking commands"⟩,
    ⟨lit "EnterUnlinkingModeExt", lit "Enter Unlinking Mode (extended command for I2CS devices)", lit "Enter Unlinking Mode (i2cs)", 0x0a, 0x00, lit "Insteon version 2 with checksum devices only respond to extended linking commands"⟩,
    ⟨lit "SetOperatingFlags", lit "is used to set a given operating flag", lit "Set Operating Flags", 0x20, 0x00, lit ""⟩,
    ⟨lit "ExtendedGetSet", lit "is used to get and set extended data (ha ha)", lit "Extended Get/Set", 0x2e, 0x00, lit ""⟩,
    ⟨lit "ReadWriteALDB", lit "Read/Write ALDB", lit "Read/Write ALDB", 0x2f, 0x00, lit ""⟩]⟩,
  ⟨lit "All-Link Messages", 0x0c, false, [
    ⟨lit "AllLinkSuccessReport", lit "is an all-link command to report the number of failed cleanups", lit "All-link Success Report", 0x06, 0x00, lit ""⟩,
    ⟨lit "AllLinkRecall", lit "is an all-link command to recall the state assigned to the entry in the all-link database", lit "All-link recall", 0x11, 0x00, lit ""⟩,
    ⟨lit "AllLinkAlias2High", lit "will execute substitute Direct Command", lit "All-link Alias 2 High", 0x12, 0x00, lit ""⟩,
    ⟨lit "AllLinkAlias1Low", lit "will execute substitute Direct Command", lit "All-link Alias 1 Low", 0x13, 0x00, lit ""⟩,
    ⟨lit "AllLinkAlias2Low", lit "will execute substitute Direct Command", lit "All-link Alias 2 Low", 0x14, 0x00, lit ""⟩,
    ⟨lit "AllLinkAlias3High", lit "will execute substitute Direct Command", lit "All-link Alias 3 High", 0x15, 0x00, lit ""⟩,
    ⟨lit "AllLinkAlias3Low", lit "will execute substitute Direct Command", lit "All-link Alias 3 Low", 0x16, 0x00, lit ""⟩,
    ⟨lit "AllLinkAlias4High", lit "will execute substitute Direct Command", lit "All-link Alias 4 High", 0x17, 0x00, lit ""⟩,
    ⟨lit "AllLinkAlias4Low", lit "will execute substitute Direct Command", lit "All-link Alias 4 Low", 0x18, 0x00, lit ""⟩,
    ⟨lit "AllLinkAlias5", lit "will execute substitute Direct Command", lit "All-link Alias 5", 0x21, 0x00, lit ""⟩]⟩,
  ⟨lit "Standard Broadcast Messages", 0x08, false, [
    ⟨lit "SetButtonPressedResponder", lit "Broadcast command indicating the set button has been pressed", lit "Set-button Pressed (responder)", 0x01, 0x00, lit ""⟩,
    ⟨lit "SetButtonPressedController", lit "Broadcast command indicating the set button has been pressed", lit "Set-button Pressed (controller)", 0x02, 0x00, lit ""⟩,
    ⟨lit "TestPowerlinePhase", lit "is used for determining which powerline phase (A/B) to which the device is attached", lit "Test Powerline Phase", 0x03, 0x00, lit ""⟩,
    ⟨lit "Heartbeat", lit "is a broadcast command that is received periodically if it has been set up using the extended get/set command", lit "Heartbeat", 0x04, 0x00, lit ""⟩,
    ⟨lit "BroadCastStatusChange", lit "is sent by a device when its status changes", lit "Broadcast Status Change", 0x27, 0x00, lit ""⟩]⟩,
  ⟨lit "Lighting Standard Direct Messages", 0x00, false, [
    ⟨lit "LightOn", lit "", lit "Light On", 0x11, 0x00, lit ""⟩,
    ⟨lit "LightOnFast", lit "", lit "Light On Fast", 0x12, 0x00, lit ""⟩,
    ⟨lit "LightOff", lit "", lit "Light Off", 0x13, 0x00, lit ""⟩,
    ⟨lit "LightOffFast", lit "", lit "Light Off Fast", 0x14, 0x00, lit ""⟩,
    ⟨lit "LightBrighten", lit "", lit "Brighten Light", 0x15, 0x00, lit ""⟩,
    ⟨lit "LightDim", lit "", lit "Dim Light", 0x16, 0x00, lit ""⟩,
    ⟨lit "LightStopManual", lit "", lit "Manual Light Change Stop", 0x18, 0x00, lit ""⟩,
    ⟨lit "LightStatusRequest", lit "", lit "Status Request", 0x19, 0x00, lit ""⟩,
    ⟨lit "LightInstantChange", lit "", lit "Light Instant Change", 0x21, 0x00, lit ""⟩,
    ⟨lit "LightManualOn", lit "", lit "Manual On", 0x22, 0x01, lit ""⟩,
    ⟨lit "LightManualOff", lit "", lit "Manual Off", 0x23, 0x01, lit ""⟩,
    ⟨lit "TapSetButtonOnce", lit "", lit "Set Button Tap", 0x25, 0x01, lit ""⟩,
    ⟨lit "TapSetButtonTwice", lit "", lit "Set Button Tap Twice", 0x25, 0x02, lit ""⟩,
    ⟨lit "LightSetStatus", lit "", lit "Set Status", 0x27, 0x00, lit ""⟩,
    ⟨lit "LightOnAtRamp", lit "", lit "Light On At Ramp", 0x2e, 0x00, lit "This command is for dimmers with firmware version less than version 67"⟩,
    ⟨lit "LightOnAtRampV67", lit "", lit "Light On At Ramp", 0x34, 0x00, lit "Dimmers running firmware version 67 and higher"⟩,
    ⟨lit "LightOffAtRamp", lit "", lit "Light Off At Ramp", 0x2f, 0x00, lit ""⟩,
    ⟨lit "LightOffAtRampV67", lit "", lit "Light Off At Ramp", 0x35, 0x00, lit ""⟩]⟩,
  ⟨lit "Dimmer Convenience Commands", 0x00, true, [
    ⟨lit "StartBrighten", lit "", lit "Manual Start Brighten", 0x17, 0x01, lit ""⟩,
    ⟨lit "StartDim", lit "", lit "Manual Start Dim", 0x17, 0x00, lit ""⟩,
    ⟨lit "EnableProgramLock", lit "", lit "Enable Program Lock", 0x20, 0x00, lit ""⟩,
    ⟨lit "DisableProgramLock", lit "", lit "Disable Program Lock", 0x20, 0x01, lit ""⟩,
    ⟨lit "EnableTxLED", lit "", lit "Enable Tx LED", 0x20, 0x02, lit ""⟩,
    ⟨lit "DisableTxLED", lit "", lit "Disable Tx LED", 0x20, 0x03, lit ""⟩,
    ⟨lit "EnableResumeDim", lit "", lit "Enable Resume Dim", 0x20, 0x04, lit ""⟩,
    ⟨lit "DisableResumeDim", lit "", lit "Disable Resume Dim", 0x20, 0x05, lit ""⟩,
    ⟨lit "EnableLoadSense", lit "", lit "Enable Load Sense", 0x20, 0x06, lit ""⟩,
    ⟨lit "DisableLoadSense", lit "", lit "Disable Load Sense", 0x20, 0x07, lit ""⟩,
    ⟨lit "DisableLED", lit "", lit "Disable Backlight", 0x20, 0x08, lit ""⟩,
    ⟨lit "EnableLED", lit "", lit "Enable Backlight", 0x20, 0x09, lit ""⟩,
    ⟨lit "SetKeyBeep", lit "", lit "Enable Key Beep", 0x20, 0x0a, lit ""⟩,
    ⟨lit "ClearKeyBeep", lit "", lit "Disable Key Beep", 0x20, 0x0b, lit ""⟩]⟩,
  ⟨lit "Thermostat Standard Direct Messages", 0x00, false, [
    ⟨lit "DecreaseTemp", lit "Decrease Temperature", lit "Decrease Temp", 0x68, 0x00, lit ""⟩,
    ⟨lit "IncreaseTemp", lit "Increase Temperature", lit "Increase Temp", 0x69, 0x00, lit ""⟩,
    ⟨lit "GetZoneInfo", lit "Get Zone Information", lit "Get Zone Info", 0x6a, 0x00, lit ""⟩,
    ⟨lit "GetThermostatMode", lit "Get Mode", lit "Get Mode", 0x6b, 0x02, lit ""⟩,
    ⟨lit "GetAmbientTemp", lit "Get Ambient Temperature", lit "Get Ambient Temp", 0x6b, 0x03, lit ""⟩,
    ⟨lit "SetHeat", lit "Set Heat", lit "Set Heat", 0x6b, 0x04, lit ""⟩,
    ⟨lit "SetCool", lit "Set Cool", lit "Set Cool", 0x6b, 0x05, lit ""⟩,
    ⟨lit "SetModeAuto", lit "Set Mode Auto", lit "Set Auto", 0x6b, 0x06, lit ""⟩,
    ⟨lit "SetFan", lit "Turn Fan On", lit "Turn Fan On", 0x6b, 0x07, lit ""⟩,
    ⟨lit "ClearFan", lit "Turn Fan Off", lit "Turn Fan Off", 0x6b, 0x08, lit ""⟩,
    ⟨lit "ThermOff", lit "Turn Thermostat Off", lit "Turn Thermostat Off", 0x6b, 0x09, lit ""⟩,
    ⟨lit "SetProgramHeat", lit "Set mode to Program Heat", lit "Set Program Heat", 0x6b, 0x0a, lit ""⟩,
    ⟨lit "SetProgramCool", lit "Set mode to Program Cool", lit "Set Program Cool", 0x6b, 0x0b, lit ""⟩,
    ⟨lit "SetProgramAuto", lit "Set mode to Program Auto", lit "Set Program Auto", 0x6b, 0x0c, lit ""⟩,
    ⟨lit "GetEquipmentState", lit "Get Equipment State", lit "Get State", 0x6b, 0x0d, lit ""⟩,
    ⟨lit "SetEquipmentState", lit "Set Equipment State", lit "Set State", 0x6b, 0x0e, lit ""⟩,
    ⟨lit "GetTempUnits", lit "Get Temperature Units", lit "Get Temp Units", 0x6b, 0x0f, lit ""⟩,
    ⟨lit "SetFahrenheit", lit "Set Units to Fahrenheit", lit "Set Units Fahrenheit", 0x6b, 0x10, lit ""⟩,
    ⟨lit "SetCelsius", lit "Set Units to Celsius", lit "Set Units Celsius", 0x6b, 0x11, lit ""⟩,
    ⟨lit "GetFanOnSpeed", lit "Get Fan On-Speed", lit "Get Fan On-Speed", 0x6b, 0x12, lit ""⟩,
    ⟨lit "SetFanOnLow", lit "Set Fan On-Speed to Low", lit "Set Fan-Speed Low", 0x6b, 0x13, lit ""⟩,
    ⟨lit "SetFanOnMed", lit "Set Fan On-Speed to Med", lit "Set Fan-Speed Med", 0x6b, 0x14, lit ""⟩,
    ⟨lit "SetFanOnHigh", lit "Set Fan On-Speed to High", lit "Set Fan-Speed High", 0x6b, 0x15, lit ""⟩,
    ⟨lit "EnableStatusMessage", lit "Enable Status Change Messages", lit "Enable Status Change", 0x6b, 0x16, lit ""⟩,
    ⟨lit "DisableStatusMessage", lit "Disable Status Change Messages", lit "Disable Status Change", 0x6b, 0x17, lit ""⟩,
    ⟨lit "SetCoolSetpoint", lit "Set Cool Set-Point", lit "Set Cool Set-Point", 0x6c, 0x00, lit ""⟩,
    ⟨lit "SetHeatSetpoint", lit "Set Heat Set-Point", lit "Set Heat Set-Point", 0x6d, 0x00, lit ""⟩]⟩,
  ⟨lit "Thermostat Extended Direct Messages", 0x01, false, [
    ⟨lit "ZoneTempUp", lit "Increase Zone Temp", lit "Increase Zone Temp", 0x68, 0x00, lit ""⟩,
    ⟨lit "ZoneTempDown", lit "Decrease Zone Temp", lit "Decrease Zone Temp", 0x69, 0x00, lit ""⟩,
    ⟨lit "SetZoneCoolSetpoint", lit "Set Zone Cooling Set Point", lit "Set Zone Cool Set-Point", 0x6c, 0x00, lit ""⟩,
    ⟨lit "SetZoneHeatSetpoint", lit "Set Zone Heating Set Point", lit "Set Zone Heat Set-Point", 0x6d, 0x00, lit ""⟩]⟩]

end Insteon
