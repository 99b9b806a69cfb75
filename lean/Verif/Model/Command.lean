import Verif.Model.Text

/-
commands/command.go and the command constants (commands/commands.go)
-/

namespace Insteon

/-- `type Command int` (commands/command.go 34); `int` is 64 bits wide. -/
abbrev Command := BitVec 64

namespace Command

/-- commands/command.go 37. -/
def standardDirect : Command := 0x000000#64
/-- commands/command.go 38. -/
def extendedDirect : Command := 0x010000#64
/-- commands/command.go 39. -/
def broadcast : Command := 0x080000#64
/-- commands/command.go 40. -/
def allLink : Command := 0x0c0000#64

/-- `Command.SubCommand` (commands/command.go 45-47). The argument is a Go `int`. -/
def subCommand (cmd : Command) (command2 : BitVec 64) : Command :=
  (cmd &&& 0xffff00#64) ||| (0xff#64 &&& command2)

/-- `Command.Command0` (commands/command.go 57-59); `>>` on a signed int is arithmetic. -/
def command0 (cmd : Command) : BitVec 64 := (cmd.sshiftRight 16) &&& 0xff#64

/-- `Command.Command1` (commands/command.go 61-63). -/
def command1 (cmd : Command) : BitVec 64 := (cmd.sshiftRight 8) &&& 0xff#64

/-- `Command.Command2` (commands/command.go 65-67). -/
def command2 (cmd : Command) : BitVec 64 := cmd &&& 0xff#64

/-- `Command.Matches` (commands/command.go 69-71). -/
def matches' (cmd other : Command) : Bool := cmd.command1 == other.command1

/-- `Command.Set` (commands/command.go 49-55): decimal text replaces the low byte. The
parsed number is reduced to 64 bits, as `Command(i)` of an `int` is. -/
def set (cmd : Command) (value : Bytes) : Command × Option Err :=
  match atoi value with
  | none => (cmd, some (.other 1))
  | some i => ((cmd &&& 0xffff00#64) ||| (0xff#64 &&& BitVec.ofInt 64 i), none)

/-- The class bits chosen by `From` (commands/command.go 86-99). -/
def fromClass (flagsByte : Byte) : Command :=
  if flagsByte &&& 0x10#8 = 0x10#8 then extendedDirect
  else if flagsByte.toNat > 0 then
    let f := flagsByte &&& 0xe0#8
    if f = 0x00#8 ∨ f = 0x20#8 then standardDirect
    else if f = 0x80#8 then broadcast
    else if f = 0x40#8 ∨ f = 0x60#8 ∨ f = 0xc0#8 ∨ f = 0xe0#8 then allLink
    else 0#64
  else 0#64

/-- `commands.From` (commands/command.go 82-104). -/
def ofWire (flagsByte cmd1Byte cmd2Byte : Byte) : Command :=
  fromClass flagsByte ||| (cmd1Byte.setWidth 64 <<< 8) ||| cmd2Byte.setWidth 64

end Command

/-! Command constants (commands/commands.go 17-345), all of them. -/

namespace Cmd
/-- commands/commands.go 20. -/
abbrev assignToAllLinkGroup : Command := 0x000100#64
/-- commands/commands.go 23. -/
abbrev deleteFromAllLinkGroup : Command := 0x000200#64
/-- commands/commands.go 26. -/
abbrev productDataReq : Command := 0x000300#64
/-- commands/commands.go 29. -/
abbrev fxUsernameReq : Command := 0x000301#64
/-- commands/commands.go 32. -/
abbrev deviceTextStringReq : Command := 0x000302#64
/-- commands/commands.go 35. -/
abbrev exitLinkingMode : Command := 0x000800#64
/-- commands/commands.go 38. -/
abbrev enterLinkingMode : Command := 0x000900#64
/-- commands/commands.go 41. -/
abbrev enterUnlinkingMode : Command := 0x000a00#64
/-- commands/commands.go 44. -/
abbrev getEngineVersion : Command := 0x000d00#64
/-- commands/commands.go 47. -/
abbrev ping : Command := 0x000f00#64
/-- commands/commands.go 50. -/
abbrev idRequest : Command := 0x001000#64
/-- commands/commands.go 53. -/
abbrev getOperatingFlags : Command := 0x001f00#64
/-- commands/commands.go 59. -/
abbrev productDataResp : Command := 0x010300#64
/-- commands/commands.go 62. -/
abbrev fxUsernameResp : Command := 0x010301#64
/-- commands/commands.go 65. -/
abbrev deviceTextStringResp : Command := 0x010302#64
/-- commands/commands.go 68. -/
abbrev setDeviceTextString : Command := 0x010303#64
/-- commands/commands.go 71. -/
abbrev setAllLinkCommandAlias : Command := 0x010304#64
/-- commands/commands.go 74. -/
abbrev setAllLinkCommandAliasData : Command := 0x010305#64
/-- commands/commands.go 77. -/
abbrev exitLinkingModeExt : Command := 0x010800#64
/-- commands/commands.go 80. -/
abbrev enterLinkingModeExt : Command := 0x010900#64
/-- commands/commands.go 83. -/
abbrev enterUnlinkingModeExt : Command := 0x010a00#64
/-- commands/commands.go 86. -/
abbrev setOperatingFlags : Command := 0x012000#64
/-- commands/commands.go 89. -/
abbrev extendedGetSet : Command := 0x012e00#64
/-- commands/commands.go 92. -/
abbrev readWriteALDB : Command := 0x012f00#64
/-- commands/commands.go 98. -/
abbrev allLinkSuccessReport : Command := 0x0c0600#64
/-- commands/commands.go 101. -/
abbrev allLinkRecall : Command := 0x0c1100#64
/-- commands/commands.go 104. -/
abbrev allLinkAlias2High : Command := 0x0c1200#64
/-- commands/commands.go 107. -/
abbrev allLinkAlias1Low : Command := 0x0c1300#64
/-- commands/commands.go 110. -/
abbrev allLinkAlias2Low : Command := 0x0c1400#64
/-- commands/commands.go 113. -/
abbrev allLinkAlias3High : Command := 0x0c1500#64
/-- commands/commands.go 116. -/
abbrev allLinkAlias3Low : Command := 0x0c1600#64
/-- commands/commands.go 119. -/
abbrev allLinkAlias4High : Command := 0x0c1700#64
/-- commands/commands.go 122. -/
abbrev allLinkAlias4Low : Command := 0x0c1800#64
/-- commands/commands.go 125. -/
abbrev allLinkAlias5 : Command := 0x0c2100#64
/-- commands/commands.go 131. -/
abbrev setButtonPressedResponder : Command := 0x080100#64
/-- commands/commands.go 134. -/
abbrev setButtonPressedController : Command := 0x080200#64
/-- commands/commands.go 137. -/
abbrev testPowerlinePhase : Command := 0x080300#64
/-- commands/commands.go 140. -/
abbrev heartbeat : Command := 0x080400#64
/-- commands/commands.go 143. -/
abbrev broadCastStatusChange : Command := 0x082700#64
/-- commands/commands.go 149. -/
abbrev lightOn : Command := 0x001100#64
/-- commands/commands.go 152. -/
abbrev lightOnFast : Command := 0x001200#64
/-- commands/commands.go 155. -/
abbrev lightOff : Command := 0x001300#64
/-- commands/commands.go 158. -/
abbrev lightOffFast : Command := 0x001400#64
/-- commands/commands.go 161. -/
abbrev lightBrighten : Command := 0x001500#64
/-- commands/commands.go 164. -/
abbrev lightDim : Command := 0x001600#64
/-- commands/commands.go 167. -/
abbrev lightStopManual : Command := 0x001800#64
/-- commands/commands.go 170. -/
abbrev lightStatusRequest : Command := 0x001900#64
/-- commands/commands.go 173. -/
abbrev lightInstantChange : Command := 0x002100#64
/-- commands/commands.go 176. -/
abbrev lightManualOn : Command := 0x002201#64
/-- commands/commands.go 179. -/
abbrev lightManualOff : Command := 0x002301#64
/-- commands/commands.go 182. -/
abbrev tapSetButtonOnce : Command := 0x002501#64
/-- commands/commands.go 185. -/
abbrev tapSetButtonTwice : Command := 0x002502#64
/-- commands/commands.go 188. -/
abbrev lightSetStatus : Command := 0x002700#64
/-- commands/commands.go 191. -/
abbrev lightOnAtRamp : Command := 0x002e00#64
/-- commands/commands.go 194. -/
abbrev lightOnAtRampV67 : Command := 0x003400#64
/-- commands/commands.go 197. -/
abbrev lightOffAtRamp : Command := 0x002f00#64
/-- commands/commands.go 200. -/
abbrev lightOffAtRampV67 : Command := 0x003500#64
/-- commands/commands.go 206. -/
abbrev startBrighten : Command := 0x001701#64
/-- commands/commands.go 209. -/
abbrev startDim : Command := 0x001700#64
/-- commands/commands.go 212. -/
abbrev enableProgramLock : Command := 0x002000#64
/-- commands/commands.go 215. -/
abbrev disableProgramLock : Command := 0x002001#64
/-- commands/commands.go 218. -/
abbrev enableTxLED : Command := 0x002002#64
/-- commands/commands.go 221. -/
abbrev disableTxLED : Command := 0x002003#64
/-- commands/commands.go 224. -/
abbrev enableResumeDim : Command := 0x002004#64
/-- commands/commands.go 227. -/
abbrev disableResumeDim : Command := 0x002005#64
/-- commands/commands.go 230. -/
abbrev enableLoadSense : Command := 0x002006#64
/-- commands/commands.go 233. -/
abbrev disableLoadSense : Command := 0x002007#64
/-- commands/commands.go 236. -/
abbrev disableLED : Command := 0x002008#64
/-- commands/commands.go 239. -/
abbrev enableLED : Command := 0x002009#64
/-- commands/commands.go 242. -/
abbrev setKeyBeep : Command := 0x00200a#64
/-- commands/commands.go 245. -/
abbrev clearKeyBeep : Command := 0x00200b#64
/-- commands/commands.go 251. -/
abbrev decreaseTemp : Command := 0x006800#64
/-- commands/commands.go 254. -/
abbrev increaseTemp : Command := 0x006900#64
/-- commands/commands.go 257. -/
abbrev getZoneInfo : Command := 0x006a00#64
/-- commands/commands.go 260. -/
abbrev getThermostatMode : Command := 0x006b02#64
/-- commands/commands.go 263. -/
abbrev getAmbientTemp : Command := 0x006b03#64
/-- commands/commands.go 266. -/
abbrev setHeat : Command := 0x006b04#64
/-- commands/commands.go 269. -/
abbrev setCool : Command := 0x006b05#64
/-- commands/commands.go 272. -/
abbrev setModeAuto : Command := 0x006b06#64
/-- commands/commands.go 275. -/
abbrev setFan : Command := 0x006b07#64
/-- commands/commands.go 278. -/
abbrev clearFan : Command := 0x006b08#64
/-- commands/commands.go 281. -/
abbrev thermOff : Command := 0x006b09#64
/-- commands/commands.go 284. -/
abbrev setProgramHeat : Command := 0x006b0a#64
/-- commands/commands.go 287. -/
abbrev setProgramCool : Command := 0x006b0b#64
/-- commands/commands.go 290. -/
abbrev setProgramAuto : Command := 0x006b0c#64
/-- commands/commands.go 293. -/
abbrev getEquipmentState : Command := 0x006b0d#64
/-- commands/commands.go 296. -/
abbrev setEquipmentState : Command := 0x006b0e#64
/-- commands/commands.go 299. -/
abbrev getTempUnits : Command := 0x006b0f#64
/-- commands/commands.go 302. -/
abbrev setFahrenheit : Command := 0x006b10#64
/-- commands/commands.go 305. -/
abbrev setCelsius : Command := 0x006b11#64
/-- commands/commands.go 308. -/
abbrev getFanOnSpeed : Command := 0x006b12#64
/-- commands/commands.go 311. -/
abbrev setFanOnLow : Command := 0x006b13#64
/-- commands/commands.go 314. -/
abbrev setFanOnMed : Command := 0x006b14#64
/-- commands/commands.go 317. -/
abbrev setFanOnHigh : Command := 0x006b15#64
/-- commands/commands.go 320. -/
abbrev enableStatusMessage : Command := 0x006b16#64
/-- commands/commands.go 323. -/
abbrev disableStatusMessage : Command := 0x006b17#64
/-- commands/commands.go 326. -/
abbrev setCoolSetpoint : Command := 0x006c00#64
/-- commands/commands.go 329. -/
abbrev setHeatSetpoint : Command := 0x006d00#64
/-- commands/commands.go 335. -/
abbrev zoneTempUp : Command := 0x016800#64
/-- commands/commands.go 338. -/
abbrev zoneTempDown : Command := 0x016900#64
/-- commands/commands.go 341. -/
abbrev setZoneCoolSetpoint : Command := 0x016c00#64
/-- commands/commands.go 344. -/
abbrev setZoneHeatSetpoint : Command := 0x016d00#64
end Cmd

end Insteon
