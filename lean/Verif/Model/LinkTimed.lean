import Verif.Model.Device
import Verif.Model.PlmLinks
import Verif.Model.Timed

/-
Linking with a clock: the waits in `devices/basic.go` 27-30, 191-221 and the order of calls in `util/link.go` 295-326, 387-404.
-/

namespace Insteon

namespace LinkTimed
variable {σ : Type}

/-- `LinkingModeWaitTime` (devices/basic.go 27-30) in nanoseconds. -/
def linkingModeWaitTime : Nat := 500 * 1000000 + propagationDelay 3#8 14

/-- `BasicDevice.linkingMode` (devices/basic.go 191-198) with its sleep. -/
def linkingMode (info : DeviceInfo) (io : MsgIO σ) (sleep : Nat → σ → σ) (s : σ) (cmd : Command) (payload : Bytes) : σ × Out (Option Err) :=
  match Device.sendCommand info io s cmd payload with
  | (s, .ok none) => (sleep linkingModeWaitTime s, .ok none)
  | r => r

/-- `BasicDevice.EnterLinkingMode` (devices/basic.go 200-209). -/
def enterLinkingMode (info : DeviceInfo) (io : MsgIO σ) (sleep : Nat → σ → σ) (s : σ) (group : Group) : σ × Out (Option Err) :=
  if info.engineVersion = verI2Cs then
    linkingMode info io sleep s (Cmd.enterLinkingModeExt.subCommand (group.setWidth 64)) (List.replicate 14 0#8)
  else linkingMode info io sleep s (Cmd.enterLinkingMode.subCommand (group.setWidth 64)) []

/-- `BasicDevice.EnterUnlinkingMode` (devices/basic.go 211-217). -/
def enterUnlinkingMode (info : DeviceInfo) (io : MsgIO σ) (sleep : Nat → σ → σ) (s : σ) (group : Group) : σ × Out (Option Err) :=
  linkingMode info io sleep s (Cmd.enterUnlinkingMode.subCommand (group.setWidth 64))
    (if info.engineVersion = verI2Cs then List.replicate 14 0#8 else [])

/-- What `ForceLink` and `Unlink` call on a `devices.Linkable` (devices/device.go), which is a device or a modem. -/
structure Party (σ : Type) where
  enterLinkingMode : σ → Group → σ × Out (Option Err)
  enterUnlinkingMode : σ → Group → σ × Out (Option Err)
  exitLinkingMode : σ → σ × Out (Option Err)

/-- A device as a party. -/
def Party.device (info : DeviceInfo) (io : MsgIO σ) (sleep : Nat → σ → σ) : Party σ where
  enterLinkingMode := LinkTimed.enterLinkingMode info io sleep
  enterUnlinkingMode := LinkTimed.enterUnlinkingMode info io sleep
  exitLinkingMode := Device.exitLinkingMode info io

/-- The error of a call to the modem. -/
def modemError : σ × PRes → σ × Out (Option Err)
  | (s, .ret _ e) => (s, .ok e)
  | (s, .panic) => (s, .panic)

/-- A modem as a party (plm/linkdb.go 216-233, promoted through the embedded `linkdb`, plm/plm.go 57-69): it does not sleep. -/
def Party.modem (io : PlmIO σ) : Party σ where
  enterLinkingMode := fun s g => modemError (PlmLinks.enterLinkingMode (Plm.asWriter io) s g)
  enterUnlinkingMode := fun s g => modemError (PlmLinks.enterUnlinkingMode (Plm.asWriter io) s g)
  exitLinkingMode := fun s => modemError (PlmLinks.exitLinkingMode (Plm.asWriter io) s)

/-- The rest of `ForceLink` and `Unlink` once the controller has entered its mode (util/link.go 316-325, 395-403): a panic ends it. -/
def session (group : Group) (controller responder : Party σ) (s : σ) : σ × Out (Option Err) :=
  match responder.enterLinkingMode s group with
  | (s, .ok err) =>
    match controller.exitLinkingMode s with
    | (s, .ok _) =>
      match responder.exitLinkingMode s with
      | (s, .ok _) => (s, .ok err)
      | r => r
    | r => r
  | r => r

/-- `ForceLink` (util/link.go 298-326). -/
def forceLink (group : Group) (controller responder : Party σ) (s : σ) : σ × Out (Option Err) :=
  match controller.enterLinkingMode s group with
  | (s, .ok none) => session group controller responder s
  | r => r

/-- `Unlink` (util/link.go 390-404). -/
def unlink (group : Group) (controller responder : Party σ) (s : σ) : σ × Out (Option Err) :=
  match controller.enterUnlinkingMode s group with
  | (s, .ok none) => session group controller responder s
  | r => r

/-- What `plm link controller` (true, false), `plm link responder` (false, true) and `plm crosslink` (true, true) do with the first device they have opened
(cmd/ic/plm.go 136-144); they return afterwards. -/
def linkBoth (controller responder : Bool) (group : Group) (modem device : Party σ) (s : σ) : σ × Out (Option Err) :=
  let r : σ × Out (Option Err) := if controller then forceLink group modem device s else (s, .ok none)
  match r with
  | (s, .ok none) => if responder then forceLink group device modem s else (s, .ok none)
  | r => r

end LinkTimed

end Insteon
