import Verif.Model.DeviceLinks
import Verif.Model.Lighting
import Verif.Model.Names
import Verif.Model.Show

/-
The project's own unit tests for the package devices, carried over to the model (see Tests/Insteon.lean).
-/

namespace Insteon.Tests
open Insteon

/-- `testWriter` (devices/connection_test.go 25-31): messages to be read, the answers and the error returned with
them, what was written; `readErr` is nil in all tests. -/
structure TestWriter where
  rx : List Message
  acks : List Message
  ackErr : Option Err
  written : List Message
deriving DecidableEq

/-- The methods of `testWriter` (devices/connection_test.go 33-50). -/
def testWriter : MsgIO TestWriter where
  read s :=
    match s.rx with
    | m :: rest => ({ s with rx := rest }, .ret (some m) none)
    | [] => (s, .ret none (some .eof))
  write s m :=
    let s := { s with written := s.written ++ [m] }
    match s.acks with
    | a :: rest => ({ s with acks := rest }, .ret (some a) s.ackErr)
    | [] => (s, .ret (some ⟨m.dst, m.src, 0x2a, 0, []⟩) s.ackErr)

/-- A `testWriter` with nothing in it. -/
def tw0 : TestWriter := ⟨[], [], none, []⟩

/-- A message with only a command. -/
def cmdMsg (c : Command) : Message := ⟨0, 0, 0, c, []⟩

/-- A message with only a source. -/
def srcMsg (a : Address) : Message := ⟨a, 0, 0, 0, []⟩

/-! devices/connection_test.go 52-83 -/
example : (idRequest testWriter 5 ⟨[⟨0x030405, 0x074f2a, 0x8a, Cmd.setButtonPressedController, []⟩], [], none, []⟩ 0).map Prod.snd = some (.ok (42, (7, 79), none)) := by decide +kernel
/-! devices/connection_test.go 85-111 -/
example : (getEngineVersion testWriter ⟨[], [⟨0, 0, 0x2a, Cmd.getEngineVersion.subCommand 42, []⟩], none, []⟩ 0).2 = .ok (42, none) := by decide +kernel
example : (getEngineVersion testWriter ⟨[], [⟨0, 0, 0xaa, Cmd.getEngineVersion.subCommand 0xff, []⟩], some .devNak, []⟩ 0).2 = .ok (verI2Cs, some .notLinked) := by decide +kernel
example : (match (getEngineVersion testWriter ⟨[], [⟨0, 0, 0xaa, Cmd.getEngineVersion.subCommand 0xfd, []⟩], some .devNak, []⟩ 0).2 with | .ok (_, e) => e | _ => none) = some .devNak := by decide +kernel
/-! devices/connection_test.go 113-151 -/
/-- Commands of the messages read until an error. -/
def readCmds (matcher : Matcher) : Nat → TestWriter → List Command
  | 0, _ => []
  | n + 1, s =>
    match Dev.read testWriter matcher 10 s with
    | some (s, .ret (some m) none) => m.command :: readCmds matcher n s
    | _ => []
example : readCmds (fun m => m.command.toNat % 2 == 0) 10 ⟨[cmdMsg 1, cmdMsg 2, cmdMsg 3, cmdMsg 4], [], none, []⟩ = [2, 4] := by decide +kernel
/-! devices/basic_test.go 31-59 -/
example : let r := Device.write ⟨0, (0, 0), 0, 0⟩ testWriter tw0 ⟨0, 0, 0, 0, []⟩
    r.1.written.map (·.payload) = [[]] ∧ (match r.2 with | .ret _ e => e == none | .panic => false) = true := by decide +kernel
example : let r := Device.write ⟨0, (0, 0), 0, 0⟩ testWriter tw0 ⟨0, 0, 0, 0, [0x00, 0x00, 0x00, 0x00, 0x00, 0x00, 0x00, 0x00, 0x00, 0x00, 0x00, 0x00, 0x00, 0x00]⟩
    r.1.written.map (·.payload) = [[0x00, 0x00, 0x00, 0x00, 0x00, 0x00, 0x00, 0x00, 0x00, 0x00, 0x00, 0x00, 0x00, 0x00]] ∧ (match r.2 with | .ret _ e => e == none | .panic => false) = true := by decide +kernel
example : let r := Device.write ⟨0, (0, 0), 0, verI2Cs⟩ testWriter tw0 ⟨0, 0, 0, 0, []⟩
    r.1.written.map (·.payload) = [[]] ∧ (match r.2 with | .ret _ e => e == none | .panic => false) = true := by decide +kernel
example : let r := Device.write ⟨0, (0, 0), 0, verI2Cs⟩ testWriter tw0 ⟨0, 0, 0, 0, [0x2f, 0x00, 0x00, 0x00, 0x0f, 0xff, 0x01, 0x00, 0x00, 0x00, 0x00, 0x00, 0x00, 0x00, 0x00]⟩
    r.1.written.map (·.payload) = [[0x2f, 0x00, 0x00, 0x00, 0x0f, 0xff, 0x01, 0x00, 0x00, 0x00, 0x00, 0x00, 0x00, 0x00, 0xc2]] ∧ (match r.2 with | .ret _ e => e == none | .panic => false) = true := by decide +kernel
example : let r := Device.write ⟨0, (0, 0), 0, verI2Cs⟩ testWriter tw0 ⟨0, 0, 0, 0, [0x2e, 0x00, 0x01]⟩
    r.1.written.map (·.payload) = [[0x2e, 0x00, 0x01, 0x00, 0x00, 0x00, 0x00, 0x00, 0x00, 0x00, 0x00, 0x00, 0x00, 0xd1]] ∧ (match r.2 with | .ret _ e => e == none | .panic => false) = true := by decide +kernel
/-! devices/basic_test.go 61-92 -/
example : Device.errLookup ⟨0, (0, 0), 0, 0⟩ ⟨0, 0, 0xaa, 0x000000, []⟩ (none) = none := by decide +kernel
example : Device.errLookup ⟨0, (0, 0), 0, 0⟩ ⟨0, 0, 0xaa, 0x0000fd, []⟩ (some .devNak) = some .unknownCommand := by decide +kernel
example : Device.errLookup ⟨0, (0, 0), 0, 0⟩ ⟨0, 0, 0xaa, 0x0000fe, []⟩ (some .devNak) = some .noLoadDetected := by decide +kernel
example : Device.errLookup ⟨0, (0, 0), 0, 0⟩ ⟨0, 0, 0xaa, 0x0000ff, []⟩ (some .devNak) = some .notLinked := by decide +kernel
example : Device.errLookup ⟨0, (0, 0), 0, 0⟩ ⟨0, 0, 0xaa, 0x0000fc, []⟩ (some .devNak) = some .unexpectedResponse := by decide +kernel
example : Device.errLookup ⟨0, (0, 0), 0, verI2Cs⟩ ⟨0, 0, 0xaa, 0x000000, []⟩ (none) = none := by decide +kernel
example : Device.errLookup ⟨0, (0, 0), 0, verI2Cs⟩ ⟨0, 0, 0xaa, 0x0000fb, []⟩ (some .devNak) = some .illegalValue := by decide +kernel
example : Device.errLookup ⟨0, (0, 0), 0, verI2Cs⟩ ⟨0, 0, 0xaa, 0x0000fc, []⟩ (some .devNak) = some .preNak := by decide +kernel
example : Device.errLookup ⟨0, (0, 0), 0, verI2Cs⟩ ⟨0, 0, 0xaa, 0x0000fd, []⟩ (some .devNak) = some .incorrectChecksum := by decide +kernel
example : Device.errLookup ⟨0, (0, 0), 0, verI2Cs⟩ ⟨0, 0, 0xaa, 0x0000fe, []⟩ (some .devNak) = some .noLoadDetected := by decide +kernel
example : Device.errLookup ⟨0, (0, 0), 0, verI2Cs⟩ ⟨0, 0, 0xaa, 0x0000ff, []⟩ (some .devNak) = some .notLinked := by decide +kernel
example : Device.errLookup ⟨0, (0, 0), 0, verI2Cs⟩ ⟨0, 0, 0xaa, 0x0000fa, []⟩ (some .devNak) = some .unexpectedResponse := by decide +kernel
/-! devices/basic_test.go 94-115 -/
example : let c : Command := (Flags.standardDirectMessage.setWidth 64 <<< 16) ||| 0x0102
    (Device.sendCommand ⟨0, (0, 0), 0, 0⟩ testWriter tw0 c []).1.written.map (·.command) = [c] := by decide +kernel
/-! devices/basic_test.go 117-148 -/
example : (Device.productData ⟨0, (0, 0), 0, 0⟩ testWriter 5 ⟨[⟨0x010203, 0x030405, Flags.extendedDirectMessage, Cmd.productDataResp, copyPad 14 (ProductData.marshalBinary ⟨(1, 2, 3), (4, 5)⟩)⟩], [], none, []⟩).map Prod.snd =
    some (.ok (some ⟨(1, 2, 3), (4, 5)⟩, none)) := by decide +kernel
/-! devices/basic_test.go 150-163 -/
example : deviceDump ⟨0x010203, (5, 6), 42, 2⟩ = lit "        Device: I2Cs Device (01.02.03)\n      Category: 05.06\n      Firmware: 42\nEngine Version: I2Cs\n" := by decide +kernel
/-! devices/basic_test.go 165-201 -/
example : (Device.enterLinkingMode ⟨0, (0, 0), 0, 1⟩ testWriter tw0 40).1.written.map (fun m => (m.command, m.payload)) = [(Cmd.enterLinkingMode.subCommand 40, [])] := by decide +kernel
example : (Device.enterLinkingMode ⟨0, (0, 0), 0, verI2Cs⟩ testWriter tw0 40).1.written.map (fun m => (m.command, m.payload)) = [(Cmd.enterLinkingModeExt.subCommand 40, setChecksum (Cmd.enterLinkingModeExt.subCommand 40) [0x00, 0x00, 0x00, 0x00, 0x00, 0x00, 0x00, 0x00, 0x00, 0x00, 0x00, 0x00, 0x00, 0x00])] := by decide +kernel
example : (Device.enterUnlinkingMode ⟨0, (0, 0), 0, 1⟩ testWriter tw0 41).1.written.map (fun m => (m.command, m.payload)) = [(Cmd.enterUnlinkingMode.subCommand 41, [])] := by decide +kernel
example : (Device.enterUnlinkingMode ⟨0, (0, 0), 0, verI2Cs⟩ testWriter tw0 41).1.written.map (fun m => (m.command, m.payload)) = [(Cmd.enterUnlinkingMode.subCommand 41, setChecksum (Cmd.enterUnlinkingMode.subCommand 41) [0x00, 0x00, 0x00, 0x00, 0x00, 0x00, 0x00, 0x00, 0x00, 0x00, 0x00, 0x00, 0x00, 0x00])] := by decide +kernel
example : (Device.exitLinkingMode ⟨0, (0, 0), 0, 1⟩ testWriter tw0).1.written.map (fun m => (m.command, m.payload)) = [(Cmd.exitLinkingMode, [])] := by decide +kernel
/-! devices/basic_test.go 203-221 -/
example : let r := Device.extendedGet ⟨0, (0, 0), 0, 0⟩ testWriter 5 ⟨[⟨0, 0, 0, Cmd.extendedGetSet, [0x01, 0x02, 0x03, 0x04, 0x05, 0x06, 0x07, 0x08, 0x09, 0x0a, 0x0b, 0x0c, 0x0d, 0x0e]⟩], [], none, []⟩ [0x00, 0x00, 0x00, 0x00, 0x00, 0x00, 0x00, 0x00, 0x00, 0x00, 0x00, 0x00, 0x00, 0x00]
    r.map (fun r => (r.1.written.map (·.command), r.2)) = some ([Cmd.extendedGetSet], .ok ([0x01, 0x02, 0x03, 0x04, 0x05, 0x06, 0x07, 0x08, 0x09, 0x0a, 0x0b, 0x0c, 0x0d, 0x0e], none)) := by decide +kernel
/-! devices/util_test.go 9-42 -/
example : checksum 0x2e00 [0x01, 0x00, 0x00, 0x00, 0x00, 0x00, 0x00, 0x00, 0x00, 0x00, 0x00, 0x00, 0x00] = 0xd1 := by decide +kernel
example : checksum 0x2f00 [0x00, 0x00, 0x0f, 0xff, 0x01, 0x00, 0x00, 0x00, 0x00, 0x00, 0x00, 0x00, 0x00] = 0xc2 := by decide +kernel
example : checksum 0x2f00 [0x01, 0x01, 0x0f, 0xff, 0x00, 0xa2, 0x00, 0x19, 0x70, 0x1a, 0xff, 0x1f, 0x01] = 0x5d := by decide +kernel
example : checksum 0x2f00 [0x00, 0x00, 0x0f, 0xf7, 0x01, 0x00, 0x00, 0x00, 0x00, 0x00, 0x00, 0x00, 0x00] = 0xca := by decide +kernel
example : checksum 0x2f00 [0x01, 0x01, 0x0f, 0xf7, 0x00, 0xe2, 0x01, 0x19, 0x70, 0x1a, 0xff, 0x1f, 0x01] = 0x24 := by decide +kernel
example : checksum 0x2f00 [0x00, 0x00, 0x0f, 0xef, 0x01, 0x00, 0x00, 0x00, 0x00, 0x00, 0x00, 0x00, 0x00] = 0xd2 := by decide +kernel
example : checksum 0x2f00 [0x01, 0x01, 0x0f, 0xef, 0x00, 0x00, 0x00, 0x00, 0x00, 0x00, 0x00, 0x00, 0x00] = 0xd1 := by decide +kernel
example : checksum 0x2f00 [0x01, 0x02, 0x0f, 0xff, 0x08, 0xe2, 0x01, 0x08, 0xb6, 0xea, 0x00, 0x1b, 0x01] = 0x11 := by decide +kernel
example : checksum 0x0901 [0x00, 0x00, 0x00, 0x00, 0x00, 0x00, 0x00, 0x00, 0x00, 0x00, 0x00, 0x00, 0x00] = 0xf6 := by decide +kernel
example : checksum 0x2f00 [0x00, 0x02, 0x0f, 0xff, 0x08, 0xe2, 0x01, 0x08, 0xb6, 0xea, 0x00, 0x1b, 0x01] = 0x12 := by decide +kernel
/-! devices/device_test.go 39-75 -/
example : ProductData.zero.unmarshalBinary [0, 1, 2, 3, 4, 5, 255, 0, 0, 0, 0, 0, 0, 0] = (⟨(1, 2, 3), (4, 5)⟩, none) ∧ ProductData.marshalBinary ⟨(1, 2, 3), (4, 5)⟩ = [0, 1, 2, 3, 4, 5, 255] := by decide +kernel
example : (match (ProductData.zero.unmarshalBinary []).2 with | some e => e.is .bufferTooShort | none => false) = true := by decide +kernel
/-! devices/device_test.go 77-137 -/
example : let r := Switch.turnOn ⟨0, (0, 0), 0, 0⟩ testWriter tw0 42
    r.1.written.map (fun m => (m.command, m.payload)) = [(Cmd.lightOn.subCommand 42, [])] ∧ r.2 = .ok none := by decide +kernel
example : let r := Switch.turnOff ⟨0, (0, 0), 0, 0⟩ testWriter tw0
    r.1.written.map (fun m => (m.command, m.payload)) = [(Cmd.lightOff, [])] ∧ r.2 = .ok none := by decide +kernel
example : let r := Switch.setBacklight ⟨0, (0, 0), 0, 0⟩ testWriter tw0 true
    r.1.written.map (fun m => (m.command, m.payload)) = [(Cmd.enableLED, [0x00, 0x00, 0x00, 0x00, 0x00, 0x00, 0x00, 0x00, 0x00, 0x00, 0x00, 0x00, 0x00, 0x00])] ∧ r.2 = .ok none := by decide +kernel
example : let r := Switch.setBacklight ⟨0, (0, 0), 0, 0⟩ testWriter tw0 false
    r.1.written.map (fun m => (m.command, m.payload)) = [(Cmd.disableLED, [0x00, 0x00, 0x00, 0x00, 0x00, 0x00, 0x00, 0x00, 0x00, 0x00, 0x00, 0x00, 0x00, 0x00])] ∧ r.2 = .ok none := by decide +kernel
example : let r := Switch.setLoadSense ⟨0, (0, 0), 0, 0⟩ testWriter tw0 true
    r.1.written.map (fun m => (m.command, m.payload)) = [(Cmd.enableLoadSense, [0x00, 0x00, 0x00, 0x00, 0x00, 0x00, 0x00, 0x00, 0x00, 0x00, 0x00, 0x00, 0x00, 0x00])] ∧ r.2 = .ok none := by decide +kernel
example : let r := Switch.setLoadSense ⟨0, (0, 0), 0, 0⟩ testWriter tw0 false
    r.1.written.map (fun m => (m.command, m.payload)) = [(Cmd.disableLoadSense, [0x00, 0x00, 0x00, 0x00, 0x00, 0x00, 0x00, 0x00, 0x00, 0x00, 0x00, 0x00, 0x00, 0x00])] ∧ r.2 = .ok none := by decide +kernel
example : let r := Dimmer.brighten ⟨0, (0, 0), 0, 0⟩ testWriter tw0
    r.1.written.map (fun m => (m.command, m.payload)) = [(Cmd.lightBrighten, [])] ∧ r.2 = .ok none := by decide +kernel
example : let r := Dimmer.dim ⟨0, (0, 0), 0, 0⟩ testWriter tw0
    r.1.written.map (fun m => (m.command, m.payload)) = [(Cmd.lightDim, [])] ∧ r.2 = .ok none := by decide +kernel
example : let r := Dimmer.startBrighten ⟨0, (0, 0), 0, 0⟩ testWriter tw0
    r.1.written.map (fun m => (m.command, m.payload)) = [(Cmd.startBrighten, [])] ∧ r.2 = .ok none := by decide +kernel
example : let r := Dimmer.startDim ⟨0, (0, 0), 0, 0⟩ testWriter tw0
    r.1.written.map (fun m => (m.command, m.payload)) = [(Cmd.startDim, [])] ∧ r.2 = .ok none := by decide +kernel
example : let r := Dimmer.stopManualChange ⟨0, (0, 0), 0, 0⟩ testWriter tw0
    r.1.written.map (fun m => (m.command, m.payload)) = [(Cmd.lightStopManual, [])] ∧ r.2 = .ok none := by decide +kernel
example : let r := Dimmer.onFast ⟨0, (0, 0), 0, 0⟩ testWriter tw0
    r.1.written.map (fun m => (m.command, m.payload)) = [(Cmd.lightOnFast, [])] ∧ r.2 = .ok none := by decide +kernel
example : let r := Dimmer.instantChange ⟨0, (0, 0), 0, 0⟩ testWriter tw0 42
    r.1.written.map (fun m => (m.command, m.payload)) = [(Cmd.lightInstantChange.subCommand 42, [])] ∧ r.2 = .ok none := by decide +kernel
example : let r := Dimmer.setStatus ⟨0, (0, 0), 0, 0⟩ testWriter tw0 42
    r.1.written.map (fun m => (m.command, m.payload)) = [(Cmd.lightSetStatus.subCommand 42, [])] ∧ r.2 = .ok none := by decide +kernel
example : let r := Dimmer.onAtRamp ⟨0, (0, 0), 0, 0⟩ testWriter tw0 4 2
    r.1.written.map (fun m => (m.command, m.payload)) = [(Cmd.lightOnAtRamp.subCommand 0x42, [])] ∧ r.2 = .ok none := by decide +kernel
example : let r := Dimmer.onAtRamp ⟨0, (0, 0), 0x43, 0⟩ testWriter tw0 4 2
    r.1.written.map (fun m => (m.command, m.payload)) = [(Cmd.lightOnAtRampV67.subCommand 0x42, [])] ∧ r.2 = .ok none := by decide +kernel
example : let r := Dimmer.offAtRamp ⟨0, (0, 0), 0, 0⟩ testWriter tw0 15
    r.1.written.map (fun m => (m.command, m.payload)) = [(Cmd.lightOffAtRamp.subCommand 15, [])] ∧ r.2 = .ok none := by decide +kernel
example : let r := Dimmer.offAtRamp ⟨0, (0, 0), 0x43, 0⟩ testWriter tw0 15
    r.1.written.map (fun m => (m.command, m.payload)) = [(Cmd.lightOffAtRampV67.subCommand 15, [])] ∧ r.2 = .ok none := by decide +kernel
/-! devices/device_test.go 139-185 -/
example : (match Dev.open testWriter 5 ⟨[⟨0, (0x02 <<< 16) ||| (1 <<< 8) ||| 59, 0, Cmd.setButtonPressedResponder, []⟩], [cmdMsg 0x01], none, []⟩ 0 with | some (_, .ok (_, i, e)) => some (i, e) | _ => none) = some (⟨0, (0x02, 1), 59, 1⟩, none) := by decide +kernel
example : (match Dev.open testWriter 5 ⟨[⟨0, (0x02 <<< 16) ||| (1 <<< 8) ||| 59, 0, Cmd.setButtonPressedResponder, []⟩], [⟨0, 0, 0xaa, 0x00ff, []⟩], some .devNak, []⟩ 0 with | some (_, .ok (_, i, e)) => some (i, e) | _ => none) = some (⟨0, (0, 0), 0, verI2Cs⟩, some .notLinked) := by decide +kernel
/-! devices/device_test.go 187-209 -/
example : Dev.lookup (0x02, 0) = .switch ∧ Dev.lookup (0x01, 0) = .dimmer ∧ Dev.lookup (0x02, 0x08) = .outlet ∧ Dev.lookup (0x05, 0) = .thermostat := by decide +kernel
/-! devices/device_test.go 211-232; the model has the strings of a switch and of a dimmer by category -/
example : deviceString ⟨0x010203, (0, 0), 0, 0⟩ = lit "I1 Device (01.02.03)" ∧ deviceString ⟨0x010203, (2, 0), 0, 0⟩ = lit "Switch (01.02.03)" ∧ deviceString ⟨0x010203, (1, 0), 0, 0⟩ = lit "Dimmer (01.02.03)" := by decide +kernel
example : LinkRequest.string ⟨0, baseLinkDBAddress, 2, none⟩ = lit "Link Read 0f.ff 2" := by decide +kernel
example : LinkRequest.string ⟨0, baseLinkDBAddress, 2, some ⟨0xd0, 1, 0x010203, 4, 5, 6⟩⟩ = lit "Link Read 0f.ff 2 UC 1 01.02.03 0x04 0x05 0x06" := by decide +kernel
/-! devices/filters_test.go 11-34: what is written and what is read are remembered, in order -/
example : let w := DupFilter.write testWriter (DupFilter.init ⟨[srcMsg 0x090807], [], none, []⟩) (srcMsg 0x010203)
    let r := DupFilter.cacheRead testWriter w.1
    w.1.cache.msgs.map Prod.snd = [srcMsg 0x010203] ∧ r.1.cache.msgs.map Prod.snd = [srcMsg 0x010203, srcMsg 0x090807] ∧
    (match r.2 with | .ok (some o, none) => o.2 == srcMsg 0x090807 | _ => false) = true := by decide +kernel
/-! devices/filters_test.go 36-73 -/
example : (match (Cache.new 3 [1, 2, 3]).push (some 4) with
    | .ok c => c.msgs == [4, 2, 3] && (match c.push (some 1) with
      | .ok c => (match c.push none with | .ok c => c.msgs == [4, 1, 3] | _ => false)
      | _ => false)
    | _ => false) = true := by decide +kernel
/-! devices/filters_test.go 75-143 -/
example : Cache.lookup { Cache.new 0 [] with i := 1 } (Matcher.src 0x010203) 10 |>.map (fun r => match r with | .ok o => o.isSome | _ => false) |> (· = some false) := by decide +kernel
example : Cache.lookup { Cache.new 2 [srcMsg 0x000102, srcMsg 0x010203] with i := 1 } (Matcher.src 0x010203) 10 |>.map (fun r => match r with | .ok o => o.isSome | _ => false) |> (· = some true) := by decide +kernel
example : Cache.lookup { Cache.new 2 [srcMsg 0x000102, srcMsg 0x010203] with i := 1 } (Matcher.src 0x030405) 10 |>.map (fun r => match r with | .ok o => o.isSome | _ => false) |> (· = some false) := by decide +kernel
example : Cache.lookup { Cache.new 4 [srcMsg 0x000102, srcMsg 0x010203, srcMsg 0x040102, srcMsg 0x030507] with i := 0 } (Matcher.src 0x010203) 10 |>.map (fun r => match r with | .ok o => o.isSome | _ => false) |> (· = some true) := by decide +kernel
example : Cache.lookup { Cache.new 1 [⟨0, 0x000102, Flags.make .direct true 2 2, Cmd.readWriteALDB, [0x00, 0x00, 0x00, 0x00, 0x00, 0x00, 0x00, 0x00, 0x00, 0x00, 0x00, 0x00, 0x00, 0x00]⟩] with i := 0 } (Matcher.matchAck ⟨0x000102, 0, Flags.make .directAck false 2 2, Cmd.readWriteALDB, []⟩) 10 |>.map (fun r => match r with | .ok o => o.isSome | _ => false) |> (· = some true) := by decide +kernel
/-! devices/filters_test.go 145-169 -/
example : ((ttlFilter 1 testWriter).write tw0 ⟨0, 0, 0, 0, []⟩).1.written.map (fun m => (m.flags.ttl, m.flags.maxTTL)) = [(1, 1)] := by decide +kernel
example : ((ttlFilter 2 testWriter).write tw0 ⟨0, 0, 0, 0, []⟩).1.written.map (fun m => (m.flags.ttl, m.flags.maxTTL)) = [(2, 2)] := by decide +kernel
example : ((ttlFilter 3 testWriter).write tw0 ⟨0, 0, 0, 0, []⟩).1.written.map (fun m => (m.flags.ttl, m.flags.maxTTL)) = [(3, 3)] := by decide +kernel
/-! devices/filters_test.go 171-210 -/
/-- Messages read through the filter until an error. -/
def readDup : Nat → DupSt TestWriter → List Message
  | 0, _ => []
  | n + 1, s =>
    match DupFilter.read testWriter 10 s with
    | some (s, .ret (some m) none) => m :: readDup n s
    | _ => []
example : readDup 10 (DupFilter.init ⟨[srcMsg 0x010203, srcMsg 0x010204, srcMsg 0x010205], [], none, []⟩) = [srcMsg 0x010203, srcMsg 0x010204, srcMsg 0x010205] := by decide +kernel
example : readDup 10 (DupFilter.init ⟨[⟨0x010203, 0, Flags.make .direct false 3 3, 0, []⟩, ⟨0x010203, 0, Flags.make .direct false 2 3, 0, []⟩, srcMsg 0x010204, srcMsg 0x010205], [], none, []⟩) = [⟨0x010203, 0, Flags.make .direct false 3 3, 0, []⟩, srcMsg 0x010204, srcMsg 0x010205] := by decide +kernel
/-! devices/matcher_test.go 24-76 -/
example : Matcher.ack ⟨0, 0, 0x2a, 0, []⟩ = true := by decide +kernel
example : Matcher.ack ⟨0x010303, 0x030405, Flags.standardDirectMessage, Cmd.ping, []⟩ = false := by decide +kernel
example : Matcher.ack ⟨0, 0, 0xaa, 0, []⟩ = true := by decide +kernel
example : Matcher.ack ⟨0x010203, 0x030405, 0xaa, 0x000f00, []⟩ = true := by decide +kernel
example : Matcher.cmd Cmd.ping ⟨0x010303, 0x030405, Flags.standardDirectMessage, Cmd.ping, []⟩ = true := by decide +kernel
example : Matcher.cmd Cmd.ping (cmdMsg 0) = false := by decide +kernel
example : Matcher.and [(fun _ => true), (fun _ => true)] (cmdMsg 0) = true := by decide +kernel
example : Matcher.and [(fun _ => false), (fun _ => true)] (cmdMsg 0) = false := by decide +kernel
example : Matcher.and [(fun _ => false), (fun _ => false)] (cmdMsg 0) = false := by decide +kernel
example : Matcher.or [(fun _ => true), (fun _ => true)] (cmdMsg 0) = true := by decide +kernel
example : Matcher.or [(fun _ => false), (fun _ => true)] (cmdMsg 0) = true := by decide +kernel
example : Matcher.or [(fun _ => false), (fun _ => false)] (cmdMsg 0) = false := by decide +kernel
example : Matcher.not Matcher.ack ⟨0, 0, 0x2a, 0, []⟩ = false := by decide +kernel
example : Matcher.not Matcher.ack (cmdMsg 0) = true := by decide +kernel
example : Matcher.src 0x010203 (srcMsg 0x010203) = true := by decide +kernel
example : Matcher.src 0x030405 (srcMsg 0x010203) = false := by decide +kernel
example : Matcher.allLink ⟨0, 0, 0xca, 0, []⟩ = true := by decide +kernel
example : Matcher.allLink ⟨0, 0, 0x2a, 0, []⟩ = false := by decide +kernel
example : DupFilter.dupMatcher (0, ⟨0, 0, Flags.make .direct false 3 3, 0, []⟩) (1, ⟨0, 0, Flags.make .direct false 2 3, 0, []⟩) = true := by decide +kernel
example : DupFilter.dupMatcher (0, ⟨0, 0, Flags.make .direct false 3 3, 0, []⟩) (1, ⟨0, 0, Flags.make .direct true 2 3, 0, []⟩) = true := by decide +kernel
example : Matcher.matchAck ⟨0, 0x030405, Flags.make .directAck false 0 1, 0x010203, []⟩ ⟨0x030405, 0, Flags.make .direct false 0 1, 0x010205, []⟩ = true := by decide +kernel
example : Matcher.matchAck ⟨0x030405, 0, Flags.make .directAck false 0 1, 0x010203, []⟩ ⟨0x010203, 0, Flags.make .direct false 0 1, 0x010205, []⟩ = false := by decide +kernel
/-! devices/linkdb_test.go 29-68 -/
example : memAddressString 0xffff = lit "ff.ff" := by decide +kernel
example : memAddressString 0x0fff = lit "0f.ff" := by decide +kernel
example : memAddressString 0x0f00 = lit "0f.00" := by decide +kernel
example : linkRequestTypeString 0 = lit "Link Read" := by decide +kernel
example : linkRequestTypeString 1 = lit "Link Resp" := by decide +kernel
example : linkRequestTypeString 2 = lit "Link Write" := by decide +kernel
example : linkRequestTypeString 3 = lit "Unknown" := by decide +kernel
/-! devices/linkdb_test.go 70-116 -/
example : (match (LinkRequest.zero.unmarshalBinary []).2 with | some e => e.is .bufferTooShort | none => false) = true := by decide +kernel
example : LinkRequest.zero.unmarshalBinary [0x00, 0x00, 0x0f, 0xff, 0x01, 0x00, 0x00, 0x00, 0x00, 0x00, 0x00, 0x00, 0x00, 0x00] = (⟨0, 0x0fff, 1, none⟩, none) := by decide +kernel
example : LinkRequest.zero.unmarshalBinary [0x00, 0x01, 0x0f, 0xff, 0x00, 0xd0, 0x01, 0x01, 0x02, 0x03, 0x04, 0x05, 0x06, 0x00] = (⟨1, 0x0fff, 0, some ⟨0xd0, 1, 0x010203, 4, 5, 6⟩⟩, none) := by decide +kernel
example : LinkRequest.zero.unmarshalBinary [0x00, 0x02, 0x0f, 0xff, 0x01, 0xd0, 0x01, 0x01, 0x02, 0x03, 0x04, 0x05, 0x06, 0x00] = (⟨2, 0x0fff, 1, some ⟨0xd0, 1, 0x010203, 4, 5, 6⟩⟩, none) := by decide +kernel
example : (LinkRequest.zero.unmarshalBinary [0xff, 0xf9, 0xe7, 0x8b, 0x20, 0xaa, 0x01, 0xb6, 0xd5, 0x1a, 0x07, 0xe3, 0xfd, 0xb8]).2 = some .invalidResponse := by decide +kernel
/-! devices/linkdb_test.go 118-146 -/
example : LinkRequest.marshalBinary ⟨0, 0x0fff, 1, none⟩ = .ok [0x00, 0x00, 0x0f, 0xff, 0x01, 0x00, 0x00, 0x00, 0x00, 0x00, 0x00, 0x00, 0x00, 0x00] := by decide +kernel
example : LinkRequest.marshalBinary ⟨1, 0x0fff, 1, some ⟨0xd0, 1, 0x010203, 4, 5, 6⟩⟩ = .ok [0x00, 0x01, 0x0f, 0xff, 0x00, 0xd0, 0x01, 0x01, 0x02, 0x03, 0x04, 0x05, 0x06, 0x00] := by decide +kernel
example : LinkRequest.marshalBinary ⟨2, 0x0fff, 1, some ⟨0xd0, 1, 0x010203, 4, 5, 6⟩⟩ = .ok [0x00, 0x02, 0x0f, 0xff, 0x08, 0xd0, 0x01, 0x01, 0x02, 0x03, 0x04, 0x05, 0x06, 0x00] := by decide +kernel
/-! devices/linkdb_test.go 148-159; the model has the maximum age of the program, an hour, not that of the test -/
example : Ldb.old 1700000000 ⟨0, [], []⟩ = true ∧ Ldb.old 1700000000 ⟨1700000010, [], []⟩ = false := by decide +kernel
/-! devices/linkdb_test.go 161-206; in the model a database is older than an hour, not than a millisecond -/
/-- The answers of a device with these links (devices/linkdb_test.go 184-191). -/
def linkAnswers : MemAddress → List LinkRecord → List Message
  | _, [] => []
  | a, l :: ls =>
    match (⟨LinkRequest.linkResponse, a, 0, some l⟩ : LinkRequest).marshalBinary with
    | .ok buf => ⟨0, 0, Flags.extendedDirectMessage, Cmd.readWriteALDB, copyPad 14 buf⟩ :: linkAnswers (a - linkRecordSize) ls
    | _ => []

/-- `Links` on a database of the given age, at 10000 s. -/
def linksAt (age : Int) (ls : List LinkRecord) : Option (Out (List LinkRecord × Option Err)) :=
  (Ldb.getLinks testWriter 10 10000 10000 ⟨linkAnswers baseLinkDBAddress (ls ++ [LinkRecord.zero]), [⟨0, 0, 0x2a, Cmd.readWriteALDB, []⟩,
    ⟨0, 0, 0xaa, Cmd.readWriteALDB, []⟩], none, []⟩ ⟨age, [], []⟩).map (·.2.2)

example : linksAt 13600 [] = some (.ok ([], none)) := by decide +kernel
example : linksAt 0 [LinkRecord.controllerLink 1 0x010203] = some (.ok ([LinkRecord.controllerLink 1 0x010203], none)) := by decide +kernel
example : linksAt 0 [LinkRecord.controllerLink 1 0x040506, LinkRecord.controllerLink 1 0x010203] = some (.ok ([LinkRecord.controllerLink 1 0x040506, LinkRecord.controllerLink 1 0x010203], none)) := by decide +kernel
example : linksAt 0 [] = some (.ok ([], none)) := by decide +kernel
/-! devices/linkdb_test.go 208-294 -/
/-- Type and memory address of each request written. -/
def requests (s : TestWriter) : List (Byte × MemAddress) :=
  s.written.map fun m => ((LinkRequest.zero.unmarshalBinary m.payload).1.type, (LinkRequest.zero.unmarshalBinary m.payload).1.memAddress)

example : (Ldb.writeLink testWriter tw0 ⟨0, [], []⟩ 1 LinkRecord.zero).2.2 = .ok (some .linkIndexOutOfRange) := by decide +kernel
example : let r := Ldb.writeLink testWriter tw0 ⟨0, [], []⟩ 0 (LinkRecord.controllerLink 1 0x010203)
    requests r.1 = [(2, baseLinkDBAddress - linkRecordSize * 0)] ∧ r.2.1.links = [LinkRecord.controllerLink 1 0x010203] ∧ r.2.2 = .ok none := by decide +kernel
example : let r := Ldb.writeLink testWriter tw0 ⟨0, [LinkRecord.controllerLink 1 0x010203, LinkRecord.responderLink 1 0x010203, LinkRecord.controllerLink 1 0x040506], []⟩ 2 ⟨0xfc, 0, 0, 0, 0, 0⟩
    requests r.1 = [(2, baseLinkDBAddress - linkRecordSize * 2)] ∧ r.2.1.links = [LinkRecord.controllerLink 1 0x010203, LinkRecord.responderLink 1 0x010203] ∧ r.2.2 = .ok none := by decide +kernel
example : let r := Ldb.writeLink testWriter tw0 ⟨0, [LinkRecord.controllerLink 1 0x010203, LinkRecord.responderLink 1 0x010203, LinkRecord.controllerLink 1 0x040506], []⟩ 1 (LinkRecord.responderLink 43 0x0b0c0d)
    requests r.1 = [(2, baseLinkDBAddress - linkRecordSize * 1)] ∧ r.2.1.links = [LinkRecord.controllerLink 1 0x010203, LinkRecord.responderLink 43 0x0b0c0d, LinkRecord.controllerLink 1 0x040506] ∧ r.2.2 = .ok none := by decide +kernel
/-! devices/linkdb_test.go 296-345 -/
example : let r := Ldb.writeLinks testWriter 10000 tw0 ⟨0, [], []⟩ []
    requests r.1 = [(2, baseLinkDBAddress - linkRecordSize * 0)] ∧ r.2.1.age = 10000 ∧
    r.2.1.links = [] ∧ (r.1.written.getLast?.map fun m => (LinkRequest.zero.unmarshalBinary m.payload).1.link.map (·.flags.lastRecord)) = some (some true) := by decide +kernel
example : let r := Ldb.writeLinks testWriter 10000 tw0 ⟨0, [], []⟩ [LinkRecord.controllerLink 1 0x010203]
    requests r.1 = [(2, baseLinkDBAddress - linkRecordSize * 0), (2, baseLinkDBAddress - linkRecordSize * 1)] ∧ r.2.1.age = 10000 ∧
    r.2.1.links = [LinkRecord.controllerLink 1 0x010203] ∧ (r.1.written.getLast?.map fun m => (LinkRequest.zero.unmarshalBinary m.payload).1.link.map (·.flags.lastRecord)) = some (some true) := by decide +kernel
example : let r := Ldb.writeLinks testWriter 10000 tw0 ⟨0, [], []⟩ [LinkRecord.controllerLink 1 0x010203, LinkRecord.controllerLink 1 0x040506]
    requests r.1 = [(2, baseLinkDBAddress - linkRecordSize * 0), (2, baseLinkDBAddress - linkRecordSize * 1), (2, baseLinkDBAddress - linkRecordSize * 2)] ∧ r.2.1.age = 10000 ∧
    r.2.1.links = [LinkRecord.controllerLink 1 0x010203, LinkRecord.controllerLink 1 0x040506] ∧ (r.1.written.getLast?.map fun m => (LinkRequest.zero.unmarshalBinary m.payload).1.link.map (·.flags.lastRecord)) = some (some true) := by decide +kernel
/-! devices/linkdb_test.go 347-406 -/
example : (Ldb.updateLinks testWriter 10 10000 10000 tw0 ⟨13600, [], []⟩ [LinkRecord.controllerLink 1 0x010203]).map (fun r => requests r.1) = some [(2, baseLinkDBAddress - linkRecordSize * 0), (2, baseLinkDBAddress - linkRecordSize * 1)] := by decide +kernel
example : (Ldb.updateLinks testWriter 10 10000 10000 tw0 ⟨13600, [LinkRecord.controllerLink 1 0x010203], [((LinkRecord.controllerLink 1 0x010203 : LinkRecord).id, 0)]⟩ [LinkRecord.controllerLink 1 0x010203]).map (fun r => requests r.1) = some [] := by decide +kernel
example : (Ldb.updateLinks testWriter 10 10000 10000 tw0 ⟨13600, [⟨0x40, 1, 0x010203, 0, 0, 0⟩], [((⟨0x40, 1, 0x010203, 0, 0, 0⟩ : LinkRecord).id, 0)]⟩ [LinkRecord.controllerLink 1 0x010203]).map (fun r => requests r.1) = some [(2, baseLinkDBAddress - linkRecordSize * 0)] := by decide +kernel
example : (Ldb.updateLinks testWriter 10 10000 10000 tw0 ⟨13600, [⟨0x40, 1, 0x010203, 0, 0, 0⟩, LinkRecord.controllerLink 1 0x040506], [((⟨0x40, 1, 0x010203, 0, 0, 0⟩ : LinkRecord).id, 0), ((LinkRecord.controllerLink 1 0x040506 : LinkRecord).id, 1)]⟩ [LinkRecord.controllerLink 1 0x060708, LinkRecord.responderLink 1 0x050607]).map (fun r => requests r.1) = some [(2, baseLinkDBAddress - linkRecordSize * 0), (2, baseLinkDBAddress - linkRecordSize * 2), (2, baseLinkDBAddress - linkRecordSize * 3)] := by decide +kernel
/-! devices/dimmer_test.go 11-57, devices/switch_test.go 11-42 -/
example : DimmerConfig.zero.unmarshalBinary [0x00, 0x00, 0x00, 0x00, 0x04, 0x05, 0x06, 0x07, 0x08, 0x00, 0x00, 0x00, 0x00, 0x00] = (⟨4, 5, 6, 7, 8⟩, none) ∧ DimmerConfig.marshalBinary ⟨4, 5, 6, 7, 8⟩ = [0x00, 0x00, 0x00, 0x00, 0x04, 0x05, 0x06, 0x07, 0x08, 0x00, 0x00, 0x00, 0x00, 0x00] ∧ (DimmerConfig.zero.unmarshalBinary []).2 = some .bufferTooShort := by decide +kernel
example : SwitchConfig.zero.unmarshalBinary [0x00, 0x00, 0x00, 0x00, 0x04, 0x05, 0x00, 0x00, 0x00, 0x00, 0x00, 0x00, 0x00, 0x00] = (⟨4, 5⟩, none) ∧ SwitchConfig.marshalBinary ⟨4, 5⟩ = [0x00, 0x00, 0x00, 0x00, 0x04, 0x05, 0x00, 0x00, 0x00, 0x00, 0x00, 0x00, 0x00, 0x00] ∧ (SwitchConfig.zero.unmarshalBinary []).2 = some .bufferTooShort := by decide +kernel
/-! devices/dimmer_test.go 59-77, devices/switch_test.go 77-94 -/
example : (Dimmer.config ⟨0, (0, 0), 67, 0⟩ testWriter 5 ⟨[⟨0, 0, 0, Cmd.extendedGetSet, DimmerConfig.marshalBinary ⟨31, 42, 15, 27, 4⟩⟩], [], none, []⟩).map Prod.snd = some (.ok (⟨31, 42, 15, 27, 4⟩, none)) := by decide +kernel
example : (Switch.config ⟨0, (0, 0), 0, 0⟩ testWriter 5 ⟨[⟨0, 0, 0, Cmd.extendedGetSet, SwitchConfig.marshalBinary ⟨31, 42⟩⟩], [], none, []⟩).map Prod.snd = some (.ok (⟨31, 42⟩, none)) := by decide +kernel
/-! devices/switch_test.go 44-75 -/
example : LightFlags.programLock ⟨1, 0, 0, 0, 0⟩ = true := by decide +kernel
example : LightFlags.programLock ⟨0, 0, 0, 0, 0⟩ = false := by decide +kernel
example : LightFlags.txLED ⟨2, 0, 0, 0, 0⟩ = true := by decide +kernel
example : LightFlags.txLED ⟨0, 0, 0, 0, 0⟩ = false := by decide +kernel
example : LightFlags.resumeDim ⟨4, 0, 0, 0, 0⟩ = true := by decide +kernel
example : LightFlags.resumeDim ⟨0, 0, 0, 0, 0⟩ = false := by decide +kernel
example : LightFlags.led ⟨0, 0, 0, 16, 0⟩ = true := by decide +kernel
example : LightFlags.led ⟨0, 0, 0, 0, 0⟩ = false := by decide +kernel
example : LightFlags.loadSense ⟨0, 0, 0, 0, 32⟩ = true := by decide +kernel
example : LightFlags.loadSense ⟨0, 0, 0, 0, 0⟩ = false := by decide +kernel
example : LightFlags.dbDelta ⟨16, 22, 0, 0, 0⟩ = 22 := by decide +kernel
example : LightFlags.snr ⟨16, 22, 42, 0, 0⟩ = 42 := by decide +kernel
example : LightFlags.x10Enabled ⟨16, 22, 42, 31, 0⟩ = true := by decide +kernel
example : LightFlags.x10Enabled ⟨16, 22, 42, 31, 1⟩ = false := by decide +kernel
example : LightFlags.errorBlink ⟨16, 22, 42, 31, 2⟩ = true := by decide +kernel
example : LightFlags.errorBlink ⟨16, 22, 42, 31, 1⟩ = false := by decide +kernel
example : LightFlags.cleanupReport ⟨16, 22, 42, 31, 4⟩ = true := by decide +kernel
example : LightFlags.cleanupReport ⟨16, 22, 42, 31, 1⟩ = false := by decide +kernel
/-! devices/switch_test.go 96-128 -/
example : (Switch.operatingFlags ⟨0, (0, 0), 0, 0⟩ testWriter ⟨[], [3, 4, 5, 6, 7].map (fun k => cmdMsg (Cmd.getOperatingFlags.subCommand k)), none, []⟩).2 = .ok (⟨3, 4, 5, 6, 7⟩, none) := by decide +kernel
example : (Switch.status ⟨0, (0, 0), 0, 0⟩ testWriter ⟨[], [cmdMsg (Cmd.lightStatusRequest.subCommand 43)], none, []⟩).2 = .ok (43, none) := by decide +kernel

end Insteon.Tests
