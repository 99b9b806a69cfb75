import Verif.Spec.Calls

/-
Specification vocabulary for what calls on devices send: message writers that keep a record, and for every call its addressee, its vocabulary and its length.
-/

namespace Insteon.Spec

/-- A world and the messages sent into it. -/
structure Recorded (σ : Type) where
  world : σ
  sent : List Message

/-- A message writer that keeps a record of what is sent. -/
def record {σ : Type} (io : MsgIO σ) : MsgIO (Recorded σ) where
  read w := (⟨(io.read w.world).1, w.sent⟩, (io.read w.world).2)
  write w m := (⟨(io.write w.world m).1, w.sent ++ [m]⟩, (io.write w.world m).2)

/-- The first and the second command byte of a message. -/
def opcode (m : Message) : Nat := m.command.toNat / 256 % 256
def operand (m : Message) : Nat := m.command.toNat % 256

/-- The messages that ask and change nothing, by the Insteon documentation: for product data, engine version, identification, light status, operating flags and zone
information; of the thermostat's 6b for the mode, the temperature, the equipment and the fan; of the extended 2e and 2f those whose second byte is 0 (read). -/
def IsQuestion (m : Message) : Prop :=
  opcode m ∈ [0x03, 0x0d, 0x10, 0x19, 0x1f, 0x6a] ∨ (opcode m = 0x6b ∧ operand m ∈ [0x02, 0x03, 0x0d, 0x12]) ∨
    (opcode m ∈ [0x2e, 0x2f] ∧ m.payload[1]? = some 0x00#8)

namespace DeviceCall

/-- The device a call is about. -/
def target (info : DeviceInfo) : DeviceCall → Address
  | openDevice dst => dst
  | engineVersion dst => dst
  | identification dst => dst
  | _ => info.address

/-- The first command bytes a call may send. -/
def vocabulary : DeviceCall → List Nat
  | openDevice _ => [0x0d, 0x10]
  | engineVersion _ => [0x0d]
  | identification _ => [0x10]
  | send c _ => [c.toNat / 256 % 256]
  | sendCommand c _ => [c.toNat / 256 % 256]
  | productData => [0x03]
  | extendedGet _ => [0x2e]
  | enterLinkingMode _ => [0x09]
  | enterUnlinkingMode _ => [0x0a]
  | exitLinkingMode => [0x08]
  | links .. => [0x2f]
  | writeLink .. => [0x2f]
  | writeLinks .. => [0x2f]
  | updateLinks .. => [0x2f]
  | addLinks .. => [0x2f]
  | lightStatus => [0x19]
  | switchConfig => [0x2e]
  | operatingFlags => [0x1f]
  | setLoadSense _ => [0x20]
  | setBacklight _ => [0x20]
  | turnOff => [0x13]
  | turnOn _ => [0x11]
  | dimmerConfig => [0x2e]
  | brighten => [0x15]
  | dim => [0x16]
  | startBrighten => [0x17]
  | startDim => [0x17]
  | stopManualChange => [0x18]
  | onFast => [0x12]
  | instantChange _ => [0x21]
  | setStatus _ => [0x27]
  | onAtRamp .. => [0x2e, 0x34]
  | offAtRamp _ => [0x2f, 0x35]
  | increaseTemp _ => [0x68, 0x69]
  | decreaseTemp _ => [0x68, 0x69]
  | zoneInfo _ => [0x6a]
  | getMode => [0x6b]
  | ambientTemp => [0x6b]
  | equipmentState => [0x6b]
  | fanSpeed => [0x6b]
  | setMode _ => [0x6b]
  | thermostatInfo => [0x2e]
  | getTempUnit => [0x2e]
  | setTempUnit _ => [0x2e]
  | setFanSpeed _ => [0x6b]
  | thermostatStatus => [0x2e, 0x6a, 0x6b]
  | setStatusMessage _ => [0x2e, 0x6b]
  | setCoolSetpoint .. => [0x6c]
  | setHeatSetpoint .. => [0x6d]
  | increaseZoneTemp .. => [0x68, 0x69]
  | decreaseZoneTemp .. => [0x68, 0x69]
  | setZoneCoolSetpoint .. => [0x6c]
  | setZoneHeatSetpoint .. => [0x6d]

/-- How many messages a call may send. -/
def most : DeviceCall → Nat
  | openDevice _ => 2
  | writeLinks _ _ ls => ls.length + 1
  | updateLinks _ _ _ ls => ls.length + 2
  | addLinks _ _ _ ls => ls.length + 1
  | operatingFlags => 5
  | zoneInfo _ => 4
  | thermostatInfo => 2
  | getTempUnit => 2
  | thermostatStatus => 8
  | _ => 1

/-- The calls that only ask. -/
def Asks : DeviceCall → Prop
  | openDevice _ | engineVersion _ | identification _ | productData | links .. | lightStatus | switchConfig | operatingFlags | dimmerConfig | zoneInfo _ | getMode |
    ambientTemp | equipmentState | fanSpeed | thermostatInfo | getTempUnit | thermostatStatus => True
  | _ => False

end DeviceCall

end Insteon.Spec
