import Verif.Model.Message
import Verif.Spec.IcDevice

/-
The commands the project knows, as documented.
-/

namespace Insteon.Spec

/-- The sections of COMMANDS.md by kind of message. -/
inductive MsgKind where
  | direct
  | extended
  | broadcast
  | allLink
deriving DecidableEq, Repr

/-- The kind of a message by its flags: bit 4 says that it is extended; the upper three bits are 0, 1 and 5 for direct messages, their acknowledgements
and refusals, 4 for broadcasts, and 2, 3, 6 and 7 for all-link cleanups, their acknowledgements, all-link broadcasts and refused cleanups. -/
def kindOf (flags : Nat) : MsgKind :=
  if flags / 16 % 2 = 1 then .extended
  else match flags / 32 with
    | 0 => .direct
    | 1 => .direct
    | 5 => .direct
    | 4 => .broadcast
    | _ => .allLink

/-- The number of a kind, as shown for commands without a name. -/
def MsgKind.code : MsgKind → Nat
  | .direct => 0
  | .extended => 1
  | .broadcast => 8
  | .allLink => 12

/-- The tables of COMMANDS.md: kind, command 1, command 2 and name. -/
def documentedCommands : List (MsgKind × Nat × Nat × String) := [
  (.direct, 0x01, 0x00, "Assign to All-Link Group"),
  (.direct, 0x02, 0x00, "Delete from All-Link Group"),
  (.direct, 0x03, 0x00, "Product Data Request"),
  (.direct, 0x03, 0x01, "Fx Username Request"),
  (.direct, 0x03, 0x02, "Text String Request"),
  (.direct, 0x08, 0x00, "Exit Linking Mode"),
  (.direct, 0x09, 0x00, "Enter Linking Mode"),
  (.direct, 0x0a, 0x00, "Enter Unlinking Mode"),
  (.direct, 0x0d, 0x00, "Engine Version"),
  (.direct, 0x0f, 0x00, "Ping Request"),
  (.direct, 0x10, 0x00, "ID Request"),
  (.direct, 0x1f, 0x00, "Get Operating Flags"),
  (.extended, 0x03, 0x00, "Product Data Response"),
  (.extended, 0x03, 0x01, "Fx Username Response"),
  (.extended, 0x03, 0x02, "Text String Response"),
  (.extended, 0x03, 0x03, "Set Text String"),
  (.extended, 0x03, 0x04, "Set All-Link Command Alias"),
  (.extended, 0x03, 0x05, "Set All-Link Command Alias Data"),
  (.extended, 0x08, 0x00, "Exit Linking Mode (i2cs)"),
  (.extended, 0x09, 0x00, "Enter Linking Mode (i2cs)"),
  (.extended, 0x0a, 0x00, "Enter Unlinking Mode (i2cs)"),
  (.extended, 0x20, 0x00, "Set Operating Flags"),
  (.extended, 0x2e, 0x00, "Extended Get/Set"),
  (.extended, 0x2f, 0x00, "Read/Write ALDB"),
  (.allLink, 0x06, 0x00, "All-link Success Report"),
  (.allLink, 0x11, 0x00, "All-link recall"),
  (.allLink, 0x12, 0x00, "All-link Alias 2 High"),
  (.allLink, 0x13, 0x00, "All-link Alias 1 Low"),
  (.allLink, 0x14, 0x00, "All-link Alias 2 Low"),
  (.allLink, 0x15, 0x00, "All-link Alias 3 High"),
  (.allLink, 0x16, 0x00, "All-link Alias 3 Low"),
  (.allLink, 0x17, 0x00, "All-link Alias 4 High"),
  (.allLink, 0x18, 0x00, "All-link Alias 4 Low"),
  (.allLink, 0x21, 0x00, "All-link Alias 5"),
  (.broadcast, 0x01, 0x00, "Set-button Pressed (responder)"),
  (.broadcast, 0x02, 0x00, "Set-button Pressed (controller)"),
  (.broadcast, 0x03, 0x00, "Test Powerline Phase"),
  (.broadcast, 0x04, 0x00, "Heartbeat"),
  (.broadcast, 0x27, 0x00, "Broadcast Status Change"),
  (.direct, 0x11, 0x00, "Light On"),
  (.direct, 0x12, 0x00, "Light On Fast"),
  (.direct, 0x13, 0x00, "Light Off"),
  (.direct, 0x14, 0x00, "Light Off Fast"),
  (.direct, 0x15, 0x00, "Brighten Light"),
  (.direct, 0x16, 0x00, "Dim Light"),
  (.direct, 0x18, 0x00, "Manual Light Change Stop"),
  (.direct, 0x19, 0x00, "Status Request"),
  (.direct, 0x21, 0x00, "Light Instant Change"),
  (.direct, 0x22, 0x01, "Manual On"),
  (.direct, 0x23, 0x01, "Manual Off"),
  (.direct, 0x25, 0x01, "Set Button Tap"),
  (.direct, 0x25, 0x02, "Set Button Tap Twice"),
  (.direct, 0x27, 0x00, "Set Status"),
  (.direct, 0x2e, 0x00, "Light On At Ramp"),
  (.direct, 0x34, 0x00, "Light On At Ramp"),
  (.direct, 0x2f, 0x00, "Light Off At Ramp"),
  (.direct, 0x35, 0x00, "Light Off At Ramp"),
  (.direct, 0x68, 0x00, "Decrease Temp"),
  (.direct, 0x69, 0x00, "Increase Temp"),
  (.direct, 0x6a, 0x00, "Get Zone Info"),
  (.direct, 0x6b, 0x02, "Get Mode"),
  (.direct, 0x6b, 0x03, "Get Ambient Temp"),
  (.direct, 0x6b, 0x04, "Set Heat"),
  (.direct, 0x6b, 0x05, "Set Cool"),
  (.direct, 0x6b, 0x06, "Set Auto"),
  (.direct, 0x6b, 0x07, "Turn Fan On"),
  (.direct, 0x6b, 0x08, "Turn Fan Off"),
  (.direct, 0x6b, 0x09, "Turn Thermostat Off"),
  (.direct, 0x6b, 0x0a, "Set Program Heat"),
  (.direct, 0x6b, 0x0b, "Set Program Cool"),
  (.direct, 0x6b, 0x0c, "Set Program Auto"),
  (.direct, 0x6b, 0x0d, "Get State"),
  (.direct, 0x6b, 0x0e, "Set State"),
  (.direct, 0x6b, 0x0f, "Get Temp Units"),
  (.direct, 0x6b, 0x10, "Set Units Fahrenheit"),
  (.direct, 0x6b, 0x11, "Set Units Celsius"),
  (.direct, 0x6b, 0x12, "Get Fan On-Speed"),
  (.direct, 0x6b, 0x13, "Set Fan-Speed Low"),
  (.direct, 0x6b, 0x14, "Set Fan-Speed Med"),
  (.direct, 0x6b, 0x15, "Set Fan-Speed High"),
  (.direct, 0x6b, 0x16, "Enable Status Change"),
  (.direct, 0x6b, 0x17, "Disable Status Change"),
  (.direct, 0x6c, 0x00, "Set Cool Set-Point"),
  (.direct, 0x6d, 0x00, "Set Heat Set-Point"),
  (.extended, 0x68, 0x00, "Increase Zone Temp"),
  (.extended, 0x69, 0x00, "Decrease Zone Temp"),
  (.extended, 0x6c, 0x00, "Set Zone Cool Set-Point"),
  (.extended, 0x6d, 0x00, "Set Zone Heat Set-Point")]

/-- The commands under "Dimmer Convenience Commands" in commands/commands.go 203-246, which COMMANDS.md does not list. -/
def convenienceCommands : List (MsgKind × Nat × Nat × String) := [
  (.direct, 0x17, 0x01, "Manual Start Brighten"),
  (.direct, 0x17, 0x00, "Manual Start Dim"),
  (.direct, 0x20, 0x00, "Enable Program Lock"),
  (.direct, 0x20, 0x01, "Disable Program Lock"),
  (.direct, 0x20, 0x02, "Enable Tx LED"),
  (.direct, 0x20, 0x03, "Disable Tx LED"),
  (.direct, 0x20, 0x04, "Enable Resume Dim"),
  (.direct, 0x20, 0x05, "Disable Resume Dim"),
  (.direct, 0x20, 0x06, "Enable Load Sense"),
  (.direct, 0x20, 0x07, "Disable Load Sense"),
  (.direct, 0x20, 0x08, "Disable Backlight"),
  (.direct, 0x20, 0x09, "Enable Backlight"),
  (.direct, 0x20, 0x0a, "Enable Key Beep"),
  (.direct, 0x20, 0x0b, "Disable Key Beep")]

/-- All commands with a name. -/
def namedCommands : List (MsgKind × Nat × Nat × String) := documentedCommands ++ convenienceCommands

/-- The name of a command. -/
def nameOf (kind : MsgKind) (c1 c2 : Nat) : Option String :=
  (namedCommands.find? fun r => r.1 == kind && r.2.1 == c1 && r.2.2.1 == c2).map (·.2.2.2)

/-- How a command is shown: by its name; if it has none, by that of the command with second byte 0, with the second byte in parentheses; if that has
none either, by numbers. -/
def commandText (kind : MsgKind) (c1 c2 : Nat) : List (BitVec 8) :=
  match nameOf kind c1 c2 with
  | some n => ascii n
  | none =>
    match nameOf kind c1 0 with
    | some n => ascii n ++ ascii "(" ++ decimal c2 ++ ascii ")"
    | none => ascii "Command(0x" ++ hexPair kind.code ++ ascii ", 0x" ++ hexPair c1 ++ ascii ", 0x" ++ hexPair c2 ++ ascii ")"

end Insteon.Spec
