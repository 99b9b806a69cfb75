import Verif.Model.Message
import Verif.Model.Link
import Verif.Model.DeviceLinks
import Verif.Model.Packet

/-
The texts by which the code shows its values to people: commands/commands.go 347-450,
commands/command.go 73-80, message.go 61-84, 160-167, 237-276, insteon.go 33-95,
plm/command_string.go, plm/packet.go 43-79, devices/linkdb.go 42-84.
-/

namespace Insteon

/-- `strings.Join`. -/
def joinWith (sep : Bytes) : List Bytes → Bytes
  | [] => []
  | [x] => x
  | x :: y :: l => x ++ sep ++ joinWith sep (y :: l)

/-- `cmdStrings` (commands/commands.go 347-450). -/
def cmdStrings : List (Command × Bytes) := [
  (Cmd.assignToAllLinkGroup, lit "Assign to All-Link Group"),
  (Cmd.deleteFromAllLinkGroup, lit "Delete from All-Link Group"),
  (Cmd.productDataReq, lit "Product Data Request"),
  (Cmd.fxUsernameReq, lit "Fx Username Request"),
  (Cmd.deviceTextStringReq, lit "Text String Request"),
  (Cmd.exitLinkingMode, lit "Exit Linking Mode"),
  (Cmd.enterLinkingMode, lit "Enter Linking Mode"),
  (Cmd.enterUnlinkingMode, lit "Enter Unlinking Mode"),
  (Cmd.getEngineVersion, lit "Engine Version"),
  (Cmd.ping, lit "Ping Request"),
  (Cmd.idRequest, lit "ID Request"),
  (Cmd.getOperatingFlags, lit "Get Operating Flags"),
  (Cmd.productDataResp, lit "Product Data Response"),
  (Cmd.fxUsernameResp, lit "Fx Username Response"),
  (Cmd.deviceTextStringResp, lit "Text String Response"),
  (Cmd.setDeviceTextString, lit "Set Text String"),
  (Cmd.setAllLinkCommandAlias, lit "Set All-Link Command Alias"),
  (Cmd.setAllLinkCommandAliasData, lit "Set All-Link Command Alias Data"),
  (Cmd.exitLinkingModeExt, lit "Exit Linking Mode (i2cs)"),
  (Cmd.enterLinkingModeExt, lit "Enter Linking Mode (i2cs)"),
  (Cmd.enterUnlinkingModeExt, lit "Enter Unlinking Mode (i2cs)"),
  (Cmd.setOperatingFlags, lit "Set Operating Flags"),
  (Cmd.extendedGetSet, lit "Extended Get/Set"),
  (Cmd.readWriteALDB, lit "Read/Write ALDB"),
  (Cmd.allLinkSuccessReport, lit "All-link Success Report"),
  (Cmd.allLinkRecall, lit "All-link recall"),
  (Cmd.allLinkAlias2High, lit "All-link Alias 2 High"),
  (Cmd.allLinkAlias1Low, lit "All-link Alias 1 Low"),
  (Cmd.allLinkAlias2Low, lit "All-link Alias 2 Low"),
  (Cmd.allLinkAlias3High, lit "All-link Alias 3 High"),
  (Cmd.allLinkAlias3Low, lit "All-link Alias 3 Low"),
  (Cmd.allLinkAlias4High, lit "All-link Alias 4 High"),
  (Cmd.allLinkAlias4Low, lit "All-link Alias 4 Low"),
  (Cmd.allLinkAlias5, lit "All-link Alias 5"),
  (Cmd.setButtonPressedResponder, lit "Set-button Pressed (responder)"),
  (Cmd.setButtonPressedController, lit "Set-button Pressed (controller)"),
  (Cmd.testPowerlinePhase, lit "Test Powerline Phase"),
  (Cmd.heartbeat, lit "Heartbeat"),
  (Cmd.broadCastStatusChange, lit "Broadcast Status Change"),
  (Cmd.lightOn, lit "Light On"),
  (Cmd.lightOnFast, lit "Light On Fast"),
  (Cmd.lightOff, lit "Light Off"),
  (Cmd.lightOffFast, lit "Light Off Fast"),
  (Cmd.lightBrighten, lit "Brighten Light"),
  (Cmd.lightDim, lit "Dim Light"),
  (Cmd.lightStopManual, lit "Manual Light Change Stop"),
  (Cmd.lightStatusRequest, lit "Status Request"),
  (Cmd.lightInstantChange, lit "Light Instant Change"),
  (Cmd.lightManualOn, lit "Manual On"),
  (Cmd.lightManualOff, lit "Manual Off"),
  (Cmd.tapSetButtonOnce, lit "Set Button Tap"),
  (Cmd.tapSetButtonTwice, lit "Set Button Tap Twice"),
  (Cmd.lightSetStatus, lit "Set Status"),
  (Cmd.lightOnAtRamp, lit "Light On At Ramp"),
  (Cmd.lightOnAtRampV67, lit "Light On At Ramp"),
  (Cmd.lightOffAtRamp, lit "Light Off At Ramp"),
  (Cmd.lightOffAtRampV67, lit "Light Off At Ramp"),
  (Cmd.startBrighten, lit "Manual Start Brighten"),
  (Cmd.startDim, lit "Manual Start Dim"),
  (Cmd.enableProgramLock, lit "Enable Program Lock"),
  (Cmd.disableProgramLock, lit "Disable Program Lock"),
  (Cmd.enableTxLED, lit "Enable Tx LED"),
  (Cmd.disableTxLED, lit "Disable Tx LED"),
  (Cmd.enableResumeDim, lit "Enable Resume Dim"),
  (Cmd.disableResumeDim, lit "Disable Resume Dim"),
  (Cmd.enableLoadSense, lit "Enable Load Sense"),
  (Cmd.disableLoadSense, lit "Disable Load Sense"),
  (Cmd.disableLED, lit "Disable Backlight"),
  (Cmd.enableLED, lit "Enable Backlight"),
  (Cmd.setKeyBeep, lit "Enable Key Beep"),
  (Cmd.clearKeyBeep, lit "Disable Key Beep"),
  (Cmd.decreaseTemp, lit "Decrease Temp"),
  (Cmd.increaseTemp, lit "Increase Temp"),
  (Cmd.getZoneInfo, lit "Get Zone Info"),
  (Cmd.getThermostatMode, lit "Get Mode"),
  (Cmd.getAmbientTemp, lit "Get Ambient Temp"),
  (Cmd.setHeat, lit "Set Heat"),
  (Cmd.setCool, lit "Set Cool"),
  (Cmd.setModeAuto, lit "Set Auto"),
  (Cmd.setFan, lit "Turn Fan On"),
  (Cmd.clearFan, lit "Turn Fan Off"),
  (Cmd.thermOff, lit "Turn Thermostat Off"),
  (Cmd.setProgramHeat, lit "Set Program Heat"),
  (Cmd.setProgramCool, lit "Set Program Cool"),
  (Cmd.setProgramAuto, lit "Set Program Auto"),
  (Cmd.getEquipmentState, lit "Get State"),
  (Cmd.setEquipmentState, lit "Set State"),
  (Cmd.getTempUnits, lit "Get Temp Units"),
  (Cmd.setFahrenheit, lit "Set Units Fahrenheit"),
  (Cmd.setCelsius, lit "Set Units Celsius"),
  (Cmd.getFanOnSpeed, lit "Get Fan On-Speed"),
  (Cmd.setFanOnLow, lit "Set Fan-Speed Low"),
  (Cmd.setFanOnMed, lit "Set Fan-Speed Med"),
  (Cmd.setFanOnHigh, lit "Set Fan-Speed High"),
  (Cmd.enableStatusMessage, lit "Enable Status Change"),
  (Cmd.disableStatusMessage, lit "Disable Status Change"),
  (Cmd.setCoolSetpoint, lit "Set Cool Set-Point"),
  (Cmd.setHeatSetpoint, lit "Set Heat Set-Point"),
  (Cmd.zoneTempUp, lit "Increase Zone Temp"),
  (Cmd.zoneTempDown, lit "Decrease Zone Temp"),
  (Cmd.setZoneCoolSetpoint, lit "Set Zone Cool Set-Point"),
  (Cmd.setZoneHeatSetpoint, lit "Set Zone Heat Set-Point")]

/-- Looking a key up in the map literal; its keys are different from each other. -/
def cmdName (cmd : Command) : Option Bytes := (cmdStrings.find? (fun p => p.1 == cmd)).map Prod.snd

/-- `Command.String` (commands/command.go 73-80). The operands of `%d` and `%02x` are
masked to 8 bits by `Command0`, `Command1` and `Command2`. -/
def Command.string (cmd : Command) : Bytes :=
  match cmdName cmd with
  | some str => str
  | none =>
    match cmdName (cmd &&& 0xffff00#64) with
    | some str => str ++ lit "(" ++ decByte (cmd.command2.setWidth 8) ++ lit ")"
    | none =>
      lit "Command(0x" ++ hex2 (cmd.command0.setWidth 8) ++ lit ", 0x" ++ hex2 (cmd.command1.setWidth 8)
        ++ lit ", 0x" ++ hex2 (cmd.command2.setWidth 8) ++ lit ")"

/-- `MessageType.String` (message.go 61-84). -/
def MessageType.string (m : MessageType) : Bytes :=
  if m = .direct then lit "D"
  else if m = .directAck then lit "D Ack"
  else if m = .allLinkCleanup then lit "C"
  else if m = .allLinkCleanupAck then lit "C Ack"
  else if m = .broadcast then lit "B"
  else if m = .directNak then lit "D NAK"
  else if m = .allLinkBroadcast then lit "A"
  else if m = .allLinkCleanupNak then lit "C NAK"
  else lit "unknown"

/-- `Flags.String` (message.go 160-167). -/
def Flags.string (f : Flags) : Bytes :=
  (if f.extended then lit "E" else lit "S") ++ padRight 5 f.type.string ++ lit " " ++ decByte f.maxTTL
    ++ lit ":" ++ decByte f.ttl

/-- `DevCat.String` (insteon.go 93-95) of the two bytes. -/
def devCatString (b0 b1 : Byte) : Bytes := hex2 b0 ++ lit "." ++ hex2 b1

/-- The bytes of a payload, in hexadecimal, joined by a separator (message.go 269-273,
util/snoop.go 118-127). -/
def payloadString (sep : Bytes) (p : Bytes) : Bytes := joinWith sep (p.map hex2)

/-- The addresses part of `Message.String` (message.go 238-249). -/
def Message.stringHead (m : Message) : Bytes :=
  if m.flags.type = .allLinkBroadcast then m.flags.string ++ lit " " ++ m.src.string ++ lit " -> ff.ff.ff"
  else if m.flags.type = .broadcast then
    m.flags.string ++ lit " " ++ m.src.string ++ lit " -> ff.ff.ff DevCat "
      ++ devCatString (byte32 (m.dst >>> 16)) (byte32 (m.dst >>> 8)) ++ lit " Firmware " ++ decByte (byte32 m.dst)
  else if m.flags.type = .allLinkCleanup then
    m.flags.string ++ lit " " ++ m.src.string ++ lit " -> " ++ m.dst.string ++ lit " Cleanup"
  else m.flags.string ++ lit " " ++ m.src.string ++ lit " -> " ++ m.dst.string

/-- The command part of `Message.String` (message.go 258-262). -/
def Message.stringCommand (m : Message) : Bytes :=
  if m.flags.ack then
    decByte (m.command.command1.setWidth 8) ++ lit "." ++ decByte (m.command.command2.setWidth 8)
  else m.command.string

/-- `Message.String` (message.go 237-276). -/
def Message.string (m : Message) : Bytes :=
  m.stringHead ++ lit " " ++ m.stringCommand
    ++ (if m.flags.type = .allLinkBroadcast then lit " Group(" ++ decByte (byte32 m.dst) ++ lit ")" else [])
    ++ (if m.flags.extended then lit " [" ++ payloadString (lit " ") m.payload ++ lit "]" else [])

/-- `EngineVersion.String` (insteon.go 35-45); VerI1, VerI2 and VerI2Cs are 0, 1, 2. -/
def engineVersionString (ev : BitVec 64) : Bytes :=
  if ev = 0#64 then lit "I1" else if ev = 1#64 then lit "I2" else if ev = 2#64 then lit "I2Cs" else lit "unknown"

/-- `ProductKey.String` (insteon.go 59-61). -/
def productKeyString (b0 b1 b2 : Byte) : Bytes := lit "0x" ++ hex2 b0 ++ hex2 b1 ++ hex2 b2

/-- `MemAddress.String` (devices/linkdb.go 42-44). -/
def memAddressString (ma : BitVec 64) : Bytes :=
  hex2 ((ma.sshiftRight 8).setWidth 8) ++ lit "." ++ hex2 ((ma &&& 0xff#64).setWidth 8)

/-- `LinkRequestType.String` (devices/linkdb.go 58-68). -/
def linkRequestTypeString (t : Byte) : Bytes :=
  if t = 0x00#8 then lit "Link Read" else if t = 0x01#8 then lit "Link Resp"
  else if t = 0x02#8 then lit "Link Write" else lit "Unknown"

/-- `LinkRequest.String` (devices/linkdb.go 79-84). `NumRecords` is shown modulo 256; requests decoded
from bytes have no more. -/
def LinkRequest.string (lr : LinkRequest) : Bytes :=
  let head := linkRequestTypeString lr.type ++ lit " " ++ memAddressString lr.memAddress ++ lit " "
    ++ decByte (lr.numRecords.setWidth 8)
  match lr.link with
  | none => head
  | some l => head ++ lit " " ++ l.string

/-- The names of modem commands 80 to 88: the pieces of `_Command_name_1` cut at
`_Command_index_1` (plm/command_string.go 9, 14). -/
def plmNames1 : List Bytes := [
  lit "Std Msg Received", lit "Ext Msg Received", lit "X10 Msg Received", lit "All Link Complete",
  lit "Button Event Report", lit "User Reset Detected", lit "Link Cleanup Report", lit "Link Record Resp",
  lit "Link Cleanup Status"]

/-- The names of modem commands 96 to 115: the pieces of `_Command_name_2` cut at
`_Command_index_2` (plm/command_string.go 10, 15). -/
def plmNames2 : List Bytes := [
  lit "Get Info", lit "Send All Link", lit "Send INSTEON Msg", lit "Send X10 Msg", lit "Start All Link",
  lit "Cancel All Link", lit "Set Host Category", lit "Reset", lit "Set ACK Msg", lit "Get First All Link",
  lit "Get Next All Link", lit "Set Config", lit "Get Sender All Link", lit "LED On", lit "LED Off",
  lit "Manage All Link Record", lit "Set NAK Msg Byte", lit "Set NAK Msg Two Bytes", lit "RF Sleep",
  lit "Get Config"]

/-- `Command.String` of package plm (plm/command_string.go 18-31). -/
def plmCommandString (i : Byte) : Bytes :=
  if i = 21#8 then lit "NAK"
  else if 80 ≤ i.toNat ∧ i.toNat ≤ 88 then (plmNames1[i.toNat - 80]?).getD []
  else if 96 ≤ i.toNat ∧ i.toNat ≤ 115 then (plmNames2[i.toNat - 96]?).getD []
  else lit "Command(" ++ decByte i ++ lit ")"

/-- `Packet.String` (plm/packet.go 68-79), also the `%s` format. -/
def Packet.string (p : Packet) : Bytes :=
  plmCommandString p.command ++ (if p.isACK then lit " ACK" else if p.isNAK then lit " NAK" else [])

/-- The `%v` format of a packet (plm/packet.go 50-59). -/
def Packet.formatV (p : Packet) : Bytes :=
  plmCommandString p.command ++ (if 0 < p.payload.length then lit " " ++ payloadString (lit " ") p.payload else [])
    ++ (if p.isACK then lit " ACK" else if p.isNAK then lit " NAK" else [])

/-- The `%x` format of a packet (plm/packet.go 44-46). -/
def Packet.formatX (p : Packet) : Bytes := hex2 p.command ++ payloadString [] p.payload ++ hex2 p.ack

end Insteon
