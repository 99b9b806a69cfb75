import Verif.Model.Database
import Verif.Model.DeviceLinks
import Verif.Model.Ic
import Verif.Model.LinkOps
import Verif.Model.PlmLinks
import Verif.Model.Show
import Verif.Model.Thermostat

/-
cmd/ic/main.go `open`, cmd/ic/device.go, cmd/ic/switch.go, cmd/ic/dimmer.go, cmd/ic/thermostat.go and cmd/iwalk/main.go: the command
line programs that work on one device, and the one that visits all of them. What the library github.com/abates/cli does with the
arguments is not modelled: commands take their arguments as values.
-/

namespace Insteon

namespace IcDev
variable {σ : Type}

/-- A device as `Open` returns it: what is known about it and the writer it uses. -/
abbrev Opened (σ : Type) := DeviceInfo × MsgIO σ

/-! ### cmd/ic/main.go -/

/-- The question `open` puts (cmd/ic/main.go 112). -/
def question (addr : Address) : Bytes :=
  lit "Device " ++ addr.string ++ lit " is not linked to the PLM.  Link now? (y/n) "

/-- `pc.link(true, false)(1, {addr})` (cmd/ic/plm.go 127-157, called at cmd/ic/main.go 115) for one address: `modem` is the modem and
`linkable` a device seen as `devices.Linkable`. A failure to open the device is only printed. Text printed is left out. -/
def linkOne (f : FileFault) (modem : Linkable σ) (linkable : Opened σ → Linkable σ) (db : FileDb) (io : MsgIO σ) (fuel : Nat) (s : σ)
    (addr : Address) (filters : List (MsgIO σ → MsgIO σ)) : Option (σ × FileDb × Out (Option Err)) :=
  match db.openDevice f io fuel s addr filters with
  | none => none
  | some (s, db, .panic) => some (s, db, .panic)
  | some (s, db, .err e) => some (s, db, .err e)
  | some (s, db, .ok (device, err)) =>
    if err = none ∨ err = some .notLinked then
      match device with
      | none => some (s, db, .panic)
      | some device =>
        let r := LinkOps.forceLink 1#8 modem (linkable device) s
        some (r.1, db, .ok r.2)
    else some (s, db, .ok none)

/-- `open` (cmd/ic/main.go 103-119). `answer` is what the user types when asked (`cli.Query`): whether it is y. -/
def openAsk (f : FileFault) (modem : Linkable σ) (linkable : Opened σ → Linkable σ) (db : FileDb) (io : MsgIO σ) (fuel : Nat) (s : σ)
    (addr : Address) (askLink : Bool) (answer : Bytes → Bool) (filters : List (MsgIO σ → MsgIO σ)) :
    Option (σ × FileDb × Out (Option (Opened σ) × Option Err)) :=
  match db.openDevice f io fuel s addr filters with
  | none => none
  | some (s, db, .panic) => some (s, db, .panic)
  | some (s, db, .err e) => some (s, db, .err e)
  | some (s, db, .ok (device, err)) =>
    if err = some .notLinked ∧ askLink = true then
      if answer (question addr) then
        match linkOne f modem linkable db io fuel s addr filters with
        | none => none
        | some (s, db, .panic) => some (s, db, .panic)
        | some (s, db, .err e) => some (s, db, .err e)
        | some (s, db, .ok err) => some (s, db, .ok (device, err))
      else some (s, db, .ok (device, err))
    else some (s, db, .ok (device, err))

/-! ### The `init` callbacks -/

/-- `device.init` (cmd/ic/device.go 57-63) on the result of `open`: the device the command will use. Copying from the nil device panics. -/
def initDevice : Option (Opened σ) × Option Err → Out (Except Err (Opened σ))
  | (_, some e) => .ok (.error e)
  | (none, none) => .panic
  | (some d, none) => .ok (.ok d)

/-- `swtch.init` (cmd/ic/switch.go 49-60), `dimmer.init` (cmd/ic/dimmer.go 62-73) and `thermostat.init` (cmd/ic/thermostat.go 47-58): the
type `Lookup` gives for the category must be the one wanted. `Lookup` of the nil device panics. -/
def initClass (want : DeviceClass) : Option (Opened σ) × Option Err → Out (Except Err (Opened σ))
  | (_, some e) => .ok (.error e)
  | (none, none) => .panic
  | (some d, none) => if Dev.lookup d.1.devCat = want then .ok (.ok d) else .ok (.error (.other 60))

/-- Running a command of the programs: the callback of the command, then that of its subcommand, only if the first reported no error (the
library does that). The subcommand gets the device and returns the text it prints and its error. -/
def run (opened : Option (σ × FileDb × Out (Option (Opened σ) × Option Err)))
    (init : Option (Opened σ) × Option Err → Out (Except Err (Opened σ)))
    (sub : Opened σ → σ → Option (σ × Bytes × Out (Option Err))) : Option (σ × FileDb × Bytes × Out (Option Err)) :=
  match opened with
  | none => none
  | some (s, db, .panic) => some (s, db, [], .panic)
  | some (s, db, .err e) => some (s, db, [], .err e)
  | some (s, db, .ok r) =>
    match init r with
    | .panic => some (s, db, [], .panic)
    | .err e => some (s, db, [], .err e)
    | .ok (.error e) => some (s, db, [], .ok (some e))
    | .ok (.ok d) =>
      match sub d s with
      | none => none
      | some (s, text, r) => some (s, db, text, r)

/-- A subcommand that only returns an error. -/
def quiet (r : σ × Out (Option Err)) : Option (σ × Bytes × Out (Option Err)) := some (r.1, [], r.2)

/-! ### cmd/ic/device.go -/

/-- The subcommands of `ic device` that send one command (cmd/ic/device.go 44-46, 50-51). -/
inductive DeviceCmd where
  | link (group : Group)
  | unlink (group : Group)
  | exitlink
  | send (cmd : Command)
  | esend (cmd : Command) (data : Bytes)

/-- Those subcommands (cmd/ic/device.go 44-46, 117-123). -/
def DeviceCmd.exec (c : DeviceCmd) (d : Opened σ) (s : σ) : σ × Out (Option Err) :=
  match c with
  | .link g => Device.enterLinkingMode d.1 d.2 s g
  | .unlink g => Device.enterUnlinkingMode d.1 d.2 s g
  | .exitlink => Device.exitLinkingMode d.1 d.2 s
  | .send c => Device.sendCommand d.1 d.2 s c []
  | .esend c data => Device.sendCommand d.1 d.2 s c data

/-- `versionCmd` (cmd/ic/device.go 91-94). -/
def versionCmd (d : Opened σ) (s : σ) : σ × Bytes × Out (Option Err) :=
  (s, lit "Device version: " ++ firmwareVersionString d.1.firmwareVersion ++ lit "\n", .ok none)

/-- `printDevInfo` (cmd/ic/device.go 73-89) of the device `Lookup` returns, or of a `swtch`: text and error. The links are read through a
new link database, so they are asked for. -/
def printDevInfo (sort : List LinkRecord → List LinkRecord) (fuel : Nat) (now done : Int) (d : Opened σ) (extra : Bytes) (s : σ) :
    Option (σ × Bytes × Out (Option Err)) :=
  let text := lit "       Device: " ++ deviceString d.1 ++ lit "\n" ++
    lit "       Engine: " ++ engineVersionString d.1.engineVersion ++ lit "\n" ++
    lit "     Category: " ++ devCatString d.1.devCat.1 d.1.devCat.2 ++ lit "\n" ++
    lit "     Firmware: " ++ firmwareVersionString d.1.firmwareVersion ++ lit "\n" ++
    (if extra ≠ [] then extra ++ lit "\n" else [])
  match Ldb.getLinks (Device.io d.1 d.2) fuel now done s ⟨0, [], []⟩ with
  | none => none
  | some (s, _, .panic) => some (s, text, .panic)
  | some (s, _, .err e) => some (s, text, .err e)
  | some (s, _, .ok (links, none)) => some (s, text ++ printLinks sort links, .ok none)
  | some (s, _, .ok (_, some e)) => some (s, text, .ok (some e))

/-- `dumpCmd` (cmd/ic/device.go 65-67 with `DumpLinkDatabase`, util/link.go 431-437): text and error. -/
def dumpCmd (fuel : Nat) (now done : Int) (d : Opened σ) (s : σ) : Option (σ × Bytes × Out (Option Err)) :=
  match Ldb.getLinks (Device.io d.1 d.2) fuel now done s ⟨0, [], []⟩ with
  | none => none
  | some (s, _, .panic) => some (s, [], .panic)
  | some (s, _, .err e) => some (s, [], .err e)
  | some (s, _, .ok (links, none)) => some (s, dumpLinks links, .ok none)
  | some (s, _, .ok (_, some e)) => some (s, [], .ok (some e))

/-- `device.editCmd` (cmd/ic/device.go 96-98): the state is the world and the link database of the device. The times are those of the
call, of the end of the download and of the end of the rewrite. -/
def deviceEdit (fuel : Nat) (now done written : Int) (edit : Bytes → Except Err Bytes) (d : Opened σ) (s : σ × Ldb) :
    Option ((σ × Ldb) × Out (Option Err)) :=
  Ic.editLinks
    (fun s => match Ldb.getLinks (Device.io d.1 d.2) fuel now done s.1 s.2 with
      | none => none
      | some (t, ldb, r) => some ((t, ldb), r))
    (fun s ls =>
      let r := Ldb.writeLinks (Device.io d.1 d.2) written s.1 s.2 ls
      some ((r.1, r.2.1), r.2.2))
    edit s

/-! ### cmd/ic/switch.go -/

/-- `%02x.%02x` of two Go ints from 0 to 255 (cmd/ic/switch.go 65, cmd/ic/dimmer.go 78); the configuration is read from bytes. -/
def x10Text (house unit : Int) : Bytes := hex2 (BitVec.ofInt 8 house) ++ lit "." ++ hex2 (BitVec.ofInt 8 unit)

/-- `switchConfigCmd` (cmd/ic/switch.go 62-68). -/
def switchConfigCmd (sort : List LinkRecord → List LinkRecord) (fuel : Nat) (now done : Int) (d : Opened σ) (s : σ) :
    Option (σ × Bytes × Out (Option Err)) :=
  match Switch.config d.1 d.2 fuel s with
  | none => none
  | some (s, .panic) => some (s, [], .panic)
  | some (s, .err e) => some (s, [], .err e)
  | some (s, .ok (_, some e)) => some (s, [], .ok (some e))
  | some (s, .ok (c, none)) => printDevInfo sort fuel now done d (lit "  X10 Address: " ++ x10Text c.houseCode c.unitCode) s

/-- `switchStatusCmd` (cmd/ic/switch.go 70-80). -/
def switchStatusCmd (d : Opened σ) (s : σ) : σ × Bytes × Out (Option Err) :=
  match Switch.status d.1 d.2 s with
  | (s, .panic) => (s, [], .panic)
  | (s, .err e) => (s, [], .err e)
  | (s, .ok (_, some e)) => (s, [], .ok (some e))
  | (s, .ok (level, none)) => (s, if level = 0#64 then lit "Switch is off\n" else lit "Switch is on\n", .ok none)

/-- The other subcommands of `ic switch` (cmd/ic/switch.go 40-43). -/
inductive SwitchCmd where
  | on (level : Int)
  | off
  | backlight (on : Bool)
  | loadsense (on : Bool)

/-- Those subcommands as they are registered: the methods are bound when the program starts, to the `*devices.Switch` that is nil at that time
(cmd/ic/switch.go 29, 40-43). The one `init` stores later is not used. Each method goes through the nil pointer (devices/switch.go 157-177). -/
def SwitchCmd.exec (_c : SwitchCmd) (_d : Opened σ) (s : σ) : σ × Out (Option Err) := (s, .panic)

/-! ### cmd/ic/dimmer.go -/

/-- `statusCmd` (cmd/ic/dimmer.go 100-112). -/
def dimmerStatusCmd (d : Opened σ) (s : σ) : σ × Bytes × Out (Option Err) :=
  match Switch.status d.1 d.2 s with
  | (s, .panic) => (s, [], .panic)
  | (s, .err e) => (s, [], .err e)
  | (s, .ok (_, some e)) => (s, [], .ok (some e))
  | (s, .ok (level, none)) =>
    (s, if level = 0#64 then lit "Dimer is off\n" else if level = 255#64 then lit "Dimer is on\n"
      else lit "Dimer is on at level " ++ Json.intText level.toInt ++ lit "\n", .ok none)

/-- What `configCmd` prints of the configuration (cmd/ic/dimmer.go 78-81). -/
def dimmerConfigText (c : DimmerConfig) : Bytes :=
  unlines [lit "           X10 Address: " ++ x10Text c.houseCode c.unitCode,
    lit "          Default Ramp: " ++ Json.intText c.ramp,
    lit "         Default Level: " ++ Json.intText c.onLevel,
    lit "                   SNR: " ++ Json.intText c.snt]

/-- What `configCmd` prints of the flags (cmd/ic/dimmer.go 86-95). -/
def lightFlagsText (lf : LightFlags) : Bytes :=
  unlines [lit "          Program Lock: " ++ boolText lf.programLock,
    lit "             LED on Tx: " ++ boolText lf.txLED,
    lit "            Resume Dim: " ++ boolText lf.resumeDim,
    lit "                LED On: " ++ boolText lf.led,
    lit "         Load Sense On: " ++ boolText lf.loadSense,
    lit "              DB Delta: " ++ Json.intText lf.dbDelta,
    lit "                   SNR: " ++ Json.intText lf.snr,
    lit "           X10 Enabled: " ++ boolText lf.x10Enabled,
    lit "        Blink on Error: " ++ boolText lf.errorBlink,
    lit "Cleanup Report Enabled: " ++ boolText lf.cleanupReport]

/-- `configCmd` (cmd/ic/dimmer.go 75-98): the error of `Config` is overwritten by that of `OperatingFlags`. -/
def dimmerConfigCmd (fuel : Nat) (d : Opened σ) (s : σ) : Option (σ × Bytes × Out (Option Err)) :=
  match Dimmer.config d.1 d.2 fuel s with
  | none => none
  | some (s, .panic) => some (s, [], .panic)
  | some (s, .err e) => some (s, [], .err e)
  | some (s, .ok (c, err)) =>
    let text := if err = none then dimmerConfigText c else []
    match Switch.operatingFlags d.1 d.2 s with
    | (s, .panic) => some (s, text, .panic)
    | (s, .err e) => some (s, text, .err e)
    | (s, .ok (_, some e)) => some (s, text, .ok (some e))
    | (s, .ok (lf, none)) => some (s, text ++ lightFlagsText lf, .ok none)

/-- The other subcommands of `ic dimmer` (cmd/ic/dimmer.go 42-55). -/
inductive DimmerCmd where
  | on (level : Int)
  | off
  | backlight (on : Bool)
  | loadsense (on : Bool)
  | brighten
  | dim
  | startBrighten
  | startDim
  | stopChange
  | onfast
  | instantChange (level : Int)
  | setstatus (level : Int)
  | onramp (level rate : Int)
  | offramp (rate : Int)

/-- Those subcommands (cmd/ic/dimmer.go 42-55): methods of the `Dimmer` whose switch `init` fills in (cmd/ic/dimmer.go 30-32, 67). -/
def DimmerCmd.exec (c : DimmerCmd) (d : Opened σ) (s : σ) : σ × Out (Option Err) :=
  match c with
  | .on level => Switch.turnOn d.1 d.2 s level
  | .off => Switch.turnOff d.1 d.2 s
  | .backlight b => Switch.setBacklight d.1 d.2 s b
  | .loadsense b => Switch.setLoadSense d.1 d.2 s b
  | .brighten => Dimmer.brighten d.1 d.2 s
  | .dim => Dimmer.dim d.1 d.2 s
  | .startBrighten => Dimmer.startBrighten d.1 d.2 s
  | .startDim => Dimmer.startDim d.1 d.2 s
  | .stopChange => Dimmer.stopManualChange d.1 d.2 s
  | .onfast => Dimmer.onFast d.1 d.2 s
  | .instantChange level => Dimmer.instantChange d.1 d.2 s level
  | .setstatus level => Dimmer.setStatus d.1 d.2 s level
  | .onramp level rate => Dimmer.onAtRamp d.1 d.2 s level rate
  | .offramp rate => Dimmer.offAtRamp d.1 d.2 s rate

/-! ### cmd/ic/thermostat.go -/

/-- What `thermStatusCmd` prints (cmd/ic/thermostat.go 70-75). -/
def thermStatusText (st : ThermostatStatus) : Bytes :=
  unlines [lit "Temperature: " ++ Json.intText st.temperature ++ lit " " ++ unitString st.unit,
    lit "   Humidity: " ++ Json.intText st.humidity ++ lit "%",
    lit "   Setpoint: " ++ Json.intText st.setpoint ++ lit " " ++ unitString st.unit,
    lit "   Deadband: " ++ Json.intText st.deadband,
    lit "       Mode: " ++ thermostatModeString st.mode,
    lit "      State: " ++ equipmentStateString st.state]

/-- `thermStatusCmd` (cmd/ic/thermostat.go 60-78): the unit is set first. -/
def thermStatusCmd (fuel : Nat) (d : Opened σ) (s : σ) : Option (σ × Bytes × Out (Option Err)) :=
  match Thermostat.setTempUnit d.1 d.2 s 0 with
  | (s, .panic) => some (s, [], .panic)
  | (s, .err e) => some (s, [], .err e)
  | (s, .ok (some e)) => some (s, [], .ok (some e))
  | (s, .ok none) =>
    match Thermostat.status d.1 d.2 fuel s with
    | none => none
    | some (s, .panic) => some (s, [], .panic)
    | some (s, .err e) => some (s, [], .err e)
    | some (s, .ok (_, some e)) => some (s, [], .ok (some e))
    | some (s, .ok (st, none)) => some (s, thermStatusText st, .ok none)

end IcDev

/-! ### cmd/iwalk/main.go -/

namespace Iwalk
variable {σ : Type}

/-- What is logged about one device (cmd/iwalk/main.go 80-88): it could not be opened, or it was, and its links could be read or not. -/
inductive Entry where
  | failed (e : Err)
  | opened (info : DeviceInfo) (links : Except Err (List LinkRecord))
deriving DecidableEq, Repr

/-- The callback (cmd/iwalk/main.go 78-90) for one address. The links read are printed to nowhere; they are kept here to tell what was
read. Printing the links of a nil device panics. `fileDB.Open` drops the filters. -/
def visit (f : FileFault) (io : MsgIO σ) (fuel : Nat) (now done : Int) (filters : List (MsgIO σ → MsgIO σ)) (s : σ) (db : FileDb)
    (addr : Address) : Option (σ × FileDb × Out Entry) :=
  match db.openDevice f io fuel s addr filters with
  | none => none
  | some (s, db, .panic) => some (s, db, .panic)
  | some (s, db, .err e) => some (s, db, .err e)
  | some (s, db, .ok (_, some e)) => some (s, db, .ok (.failed e))
  | some (s, db, .ok (none, none)) => some (s, db, .panic)
  | some (s, db, .ok (some d, none)) =>
    match Ldb.getLinks (Device.io d.1 d.2) fuel now done s ⟨0, [], []⟩ with
    | none => none
    | some (s, _, .panic) => some (s, db, .panic)
    | some (s, _, .err e) => some (s, db, .err e)
    | some (s, _, .ok (_, some e)) => some (s, db, .ok (.opened d.1 (.error e)))
    | some (s, _, .ok (links, none)) => some (s, db, .ok (.opened d.1 (.ok links)))

/-- The callback for each address in turn (cmd/iwalk/main.go 78-90). `clock` gives the times of the visits. -/
def visitAll (f : FileFault) (io : MsgIO σ) (fuel : Nat) (clock : Address → Int × Int) (filters : List (MsgIO σ → MsgIO σ)) :
    List Address → σ → FileDb → Option (σ × FileDb × Out (List (Address × Entry)))
  | [], s, db => some (s, db, .ok [])
  | a :: rest, s, db =>
    match visit f io fuel (clock a).1 (clock a).2 filters s db a with
    | none => none
    | some (s, db, .panic) => some (s, db, .panic)
    | some (s, db, .err e) => some (s, db, .err e)
    | some (s, db, .ok entry) =>
      match visitAll f io fuel clock filters rest s db with
      | some (s, db, .ok log) => some (s, db, .ok ((a, entry) :: log))
      | r => r

/-- The walk (cmd/iwalk/main.go 77-94): the modem's links, then the visits. The error is the one the program ends with. The callback is
called while `IterateDevices` goes through the links it has already read (plm/linkdb.go 197-210), so the visits come after it. -/
def walk (w : PacketWriter σ) (retries : Int) (f : FileFault) (io : MsgIO σ) (fuel : Nat) (clock : Address → Int × Int)
    (filters : List (MsgIO σ → MsgIO σ)) (s : σ) (db : FileDb) :
    Option (σ × FileDb × Out (List (Address × Entry) × Option Err)) :=
  match PlmLinks.iterateDevices w retries fuel s [] with
  | none => none
  | some (s, .panic) => some (s, db, .panic)
  | some (s, .err e) => some (s, db, .err e)
  | some (s, .ok (addrs, err)) =>
    match visitAll f io fuel clock filters addrs s db with
    | none => none
    | some (s, db, .panic) => some (s, db, .panic)
    | some (s, db, .err e) => some (s, db, .err e)
    | some (s, db, .ok log) => some (s, db, .ok (log, err))

end Iwalk

end Insteon
