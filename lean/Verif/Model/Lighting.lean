import Verif.Model.Device

/-
devices/switch.go, devices/dimmer.go, devices/outlet.go
-/

namespace Insteon

/-- `SwitchConfig` (devices/switch.go 27-33); the fields are Go ints. -/
structure SwitchConfig where
  houseCode : Int
  unitCode : Int
deriving DecidableEq, Repr

namespace SwitchConfig
/-- `SwitchConfig.UnmarshalBinary` (devices/switch.go 37-44). -/
def unmarshalBinary (sc : SwitchConfig) (buf : Bytes) : SwitchConfig × Option Err :=
  if buf.length < 14 then (sc, some .bufferTooShort)
  else (⟨(buf.getD 4 0).toNat, (buf.getD 5 0).toNat⟩, none)
/-- `SwitchConfig.MarshalBinary` (devices/switch.go 47-52); `byte(x)` of an int keeps the low 8 bits. -/
def marshalBinary (sc : SwitchConfig) : Bytes :=
  ((List.replicate 14 (0#8)).set 4 (BitVec.ofInt 8 sc.houseCode)).set 5 (BitVec.ofInt 8 sc.unitCode)
/-- The zero value. -/
def zero : SwitchConfig := ⟨0, 0⟩
end SwitchConfig

/-- `DimmerConfig` (devices/dimmer.go 26-41). -/
structure DimmerConfig where
  houseCode : Int
  unitCode : Int
  ramp : Int
  onLevel : Int
  snt : Int
deriving DecidableEq, Repr

namespace DimmerConfig
/-- `DimmerConfig.UnmarshalBinary` (devices/dimmer.go 44-54). -/
def unmarshalBinary (dc : DimmerConfig) (buf : Bytes) : DimmerConfig × Option Err :=
  if buf.length < 14 then (dc, some .bufferTooShort)
  else (⟨(buf.getD 4 0).toNat, (buf.getD 5 0).toNat, (buf.getD 6 0).toNat, (buf.getD 7 0).toNat,
    (buf.getD 8 0).toNat⟩, none)
/-- `DimmerConfig.MarshalBinary` (devices/dimmer.go 57-65). -/
def marshalBinary (dc : DimmerConfig) : Bytes :=
  let buf := List.replicate 14 (0#8)
  let buf := buf.set 4 (BitVec.ofInt 8 dc.houseCode)
  let buf := buf.set 5 (BitVec.ofInt 8 dc.unitCode)
  let buf := buf.set 6 (BitVec.ofInt 8 dc.ramp)
  let buf := buf.set 7 (BitVec.ofInt 8 dc.onLevel)
  buf.set 8 (BitVec.ofInt 8 dc.snt)
/-- The zero value. -/
def zero : DimmerConfig := ⟨0, 0, 0, 0, 0⟩
end DimmerConfig

/-- `LightFlags` (devices/switch.go 55): five bytes. -/
structure LightFlags where
  b0 : Byte
  b1 : Byte
  b2 : Byte
  b3 : Byte
  b4 : Byte
deriving DecidableEq, Repr

namespace LightFlags
/-- devices/switch.go 58 (the mask is the octal literal `01`). -/
def programLock (lf : LightFlags) : Bool := lf.b0 &&& 0x01#8 == 0x01#8
/-- devices/switch.go 61. -/
def txLED (lf : LightFlags) : Bool := lf.b0 &&& 0x02#8 == 0x02#8
/-- devices/switch.go 65. -/
def resumeDim (lf : LightFlags) : Bool := lf.b0 &&& 0x04#8 == 0x04#8
/-- devices/switch.go 68. -/
def led (lf : LightFlags) : Bool := lf.b3 &&& 0x10#8 == 0x10#8
/-- devices/switch.go 72. -/
def loadSense (lf : LightFlags) : Bool := lf.b4 &&& 0x20#8 == 0x20#8
/-- devices/switch.go 76. -/
def dbDelta (lf : LightFlags) : Int := lf.b1.toNat
/-- devices/switch.go 79. -/
def snr (lf : LightFlags) : Int := lf.b2.toNat
/-- devices/switch.go 82. -/
def x10Enabled (lf : LightFlags) : Bool := lf.b4 &&& 0x01#8 != 0x01#8
/-- devices/switch.go 86. -/
def errorBlink (lf : LightFlags) : Bool := lf.b4 &&& 0x02#8 == 0x02#8
/-- devices/switch.go 91. -/
def cleanupReport (lf : LightFlags) : Bool := lf.b4 &&& 0x04#8 == 0x04#8
end LightFlags

/-- Command 2 of the answers to a list of commands, each sent without payload, up to the first error: the loops of
`Switch.OperatingFlags` (devices/switch.go 147-153) and `Thermostat.GetZoneInfo` (devices/thermostat.go
242-248). A nil answer without error is dereferenced. -/
def Device.askAll {σ : Type} (info : DeviceInfo) (io : MsgIO σ) : List Command → σ → σ × Out (List (BitVec 64) × Option Err)
  | [], s => (s, .ok ([], none))
  | c :: cs, s =>
    match Device.write info io s ⟨0, 0, 0, c, []⟩ with
    | (s, .panic) => (s, .panic)
    | (s, .ret _ (some e)) => (s, .ok ([], some e))
    | (s, .ret none none) => (s, .panic)
    | (s, .ret (some ack) none) =>
      match askAll info io cs s with
      | (s, .ok (vs, e)) => (s, .ok (ack.command.command2 :: vs, e))
      | r => r

namespace Switch
variable {σ : Type}

/-- `Switch.Status` (devices/switch.go 114-120). -/
def status (info : DeviceInfo) (io : MsgIO σ) (s : σ) : σ × Out (BitVec 64 × Option Err) :=
  match Device.send info io s Cmd.lightStatusRequest [] with
  | (s, .ok (ack, none)) => (s, .ok (ack.command2, none))
  | (s, .ok (_, some e)) => (s, .ok (0, some e))
  | (s, .err e) => (s, .err e)
  | (s, .panic) => (s, .panic)

/-- `Switch.Config` (devices/switch.go 126-136). -/
def config (info : DeviceInfo) (io : MsgIO σ) (fuel : Nat) (s : σ) : Option (σ × Out (SwitchConfig × Option Err)) :=
  match Device.query info io fuel s Cmd.extendedGetSet [0x01#8, 0x00#8] Cmd.extendedGetSet with
  | none => none
  | some (s, .panic) => some (s, .panic)
  | some (s, .err e) => some (s, .err e)
  | some (s, .ok (.error e)) => some (s, .ok (SwitchConfig.zero, some e))
  | some (s, .ok (.ok payload)) => some (s, .ok (SwitchConfig.zero.unmarshalBinary payload))

/-- `Switch.OperatingFlags` (devices/switch.go 138-155): flags not asked for stay zero. -/
def operatingFlags (info : DeviceInfo) (io : MsgIO σ) (s : σ) : σ × Out (LightFlags × Option Err) :=
  match Device.askAll info io [Cmd.getOperatingFlags.subCommand 0x01#64, Cmd.getOperatingFlags.subCommand 0x02#64,
      Cmd.getOperatingFlags.subCommand 0x04#64, Cmd.getOperatingFlags.subCommand 0x10#64,
      Cmd.getOperatingFlags.subCommand 0x20#64] s with
  | (s, .ok (vs, e)) =>
    let b := fun i => (vs.getD i 0).setWidth 8
    (s, .ok (⟨b 0, b 1, b 2, b 3, b 4⟩, e))
  | (s, .err e) => (s, .err e)
  | (s, .panic) => (s, .panic)

/-- `Switch.SetLoadSense` (devices/switch.go 157-162). -/
def setLoadSense (info : DeviceInfo) (io : MsgIO σ) (s : σ) (on : Bool) : σ × Out (Option Err) :=
  if on then Device.sendCommand info io s Cmd.enableLoadSense (List.replicate 14 0#8)
  else Device.sendCommand info io s Cmd.disableLoadSense (List.replicate 14 0#8)

/-- `Switch.SetBacklight` (devices/switch.go 164-169). -/
def setBacklight (info : DeviceInfo) (io : MsgIO σ) (s : σ) (on : Bool) : σ × Out (Option Err) :=
  if on then Device.sendCommand info io s Cmd.enableLED (List.replicate 14 0#8)
  else Device.sendCommand info io s Cmd.disableLED (List.replicate 14 0#8)

/-- `Switch.TurnOff` (devices/switch.go 171-173). -/
def turnOff (info : DeviceInfo) (io : MsgIO σ) (s : σ) : σ × Out (Option Err) :=
  Device.sendCommand info io s Cmd.lightOff []

/-- `Switch.TurnOn` (devices/switch.go 175-177). -/
def turnOn (info : DeviceInfo) (io : MsgIO σ) (s : σ) (level : Int) : σ × Out (Option Err) :=
  Device.sendCommand info io s (Cmd.lightOn.subCommand (BitVec.ofInt 64 level)) []
end Switch

namespace Dimmer
variable {σ : Type}

/-- `Dimmer.Config` (devices/dimmer.go 78-92). -/
def config (info : DeviceInfo) (io : MsgIO σ) (fuel : Nat) (s : σ) : Option (σ × Out (DimmerConfig × Option Err)) :=
  match Device.query info io fuel s Cmd.extendedGetSet [0x01#8, 0x00#8] Cmd.extendedGetSet with
  | none => none
  | some (s, .panic) => some (s, .panic)
  | some (s, .err e) => some (s, .err e)
  | some (s, .ok (.error e)) => some (s, .ok (DimmerConfig.zero, some e))
  | some (s, .ok (.ok payload)) => some (s, .ok (DimmerConfig.zero.unmarshalBinary payload))

/-- `Dimmer.Brighten` (devices/dimmer.go 94-96). -/
def brighten (info : DeviceInfo) (io : MsgIO σ) (s : σ) : σ × Out (Option Err) :=
  Device.sendCommand info io s Cmd.lightBrighten []
/-- `Dimmer.Dim` (devices/dimmer.go 98-100). -/
def dim (info : DeviceInfo) (io : MsgIO σ) (s : σ) : σ × Out (Option Err) :=
  Device.sendCommand info io s Cmd.lightDim []
/-- `Dimmer.StartBrighten` (devices/dimmer.go 102-104). -/
def startBrighten (info : DeviceInfo) (io : MsgIO σ) (s : σ) : σ × Out (Option Err) :=
  Device.sendCommand info io s Cmd.startBrighten []
/-- `Dimmer.StartDim` (devices/dimmer.go 106-108). -/
def startDim (info : DeviceInfo) (io : MsgIO σ) (s : σ) : σ × Out (Option Err) :=
  Device.sendCommand info io s Cmd.startDim []
/-- `Dimmer.StopManualChange` (devices/dimmer.go 110-112). -/
def stopManualChange (info : DeviceInfo) (io : MsgIO σ) (s : σ) : σ × Out (Option Err) :=
  Device.sendCommand info io s Cmd.lightStopManual []
/-- `Dimmer.OnFast` (devices/dimmer.go 114-116). -/
def onFast (info : DeviceInfo) (io : MsgIO σ) (s : σ) : σ × Out (Option Err) :=
  Device.sendCommand info io s Cmd.lightOnFast []
/-- `Dimmer.InstantChange` (devices/dimmer.go 118-120). -/
def instantChange (info : DeviceInfo) (io : MsgIO σ) (s : σ) (level : Int) : σ × Out (Option Err) :=
  Device.sendCommand info io s (Cmd.lightInstantChange.subCommand (BitVec.ofInt 64 level)) []
/-- `Dimmer.SetStatus` (devices/dimmer.go 122-124). -/
def setStatus (info : DeviceInfo) (io : MsgIO σ) (s : σ) (level : Int) : σ × Out (Option Err) :=
  Device.sendCommand info io s (Cmd.lightSetStatus.subCommand (BitVec.ofInt 64 level)) []

/-- `Dimmer.OnAtRamp` (devices/dimmer.go 126-135); versions compare as signed ints. -/
def onAtRamp (info : DeviceInfo) (io : MsgIO σ) (s : σ) (level rate : Int) : σ × Out (Option Err) :=
  let levelRate : Byte := (BitVec.ofInt 8 level <<< 4) ||| (BitVec.ofInt 8 rate &&& 0x0f#8)
  let cmd := if BitVec.sle 0x43#64 info.firmwareVersion then Cmd.lightOnAtRampV67 else Cmd.lightOnAtRamp
  Device.sendCommand info io s (cmd.subCommand (levelRate.setWidth 64)) []

/-- `Dimmer.OffAtRamp` (devices/dimmer.go 137-143). -/
def offAtRamp (info : DeviceInfo) (io : MsgIO σ) (s : σ) (rate : Int) : σ × Out (Option Err) :=
  let cmd := if BitVec.sle 0x43#64 info.firmwareVersion then Cmd.lightOffAtRampV67 else Cmd.lightOffAtRamp
  Device.sendCommand info io s (cmd.subCommand (0x0f#64 &&& BitVec.ofInt 64 rate)) []
end Dimmer

end Insteon
