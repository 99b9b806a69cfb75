import Verif.Model.Text
import Verif.Model.Message
import Verif.Model.Link
import Verif.Model.Device
import Verif.Model.DeviceLinks
import Verif.Model.Lighting
import Verif.Model.Thermostat
import Verif.Model.PlmLinks

/-
Model of the texts of errors: error.go, devices/error.go, plm/plm.go, util/link.go, util/database.go, and the errors of decoders that are given too few bytes.
-/

namespace Insteon

/-- The text of an error: error.go 24-69, devices/error.go 7-47, plm/plm.go 32-42, 187 and 201, util/link.go 30-36, util/database.go 164-167, and Go's io and bufio. Nothing
for errors whose text depends on more than which error it is (those with numbers, see `Decoder.text`) and those of the environment. -/
def Err.text : Err → Option Bytes
  | .bufferTooShort => some (lit "Buffer is too short")
  | .insReadTimeout => some (lit "Read Timeout")
  | .insNotImplemented => some (lit "Command is not yet implemented")
  | .unknownCommand => some (lit "Unknown command")
  | .preNak => some (lit "Database search took too long")
  | .addrFormat => some (lit "address format is xx.xx.xx (digits in hex)")
  | .devReadTimeout => some (lit "Read Timeout")
  | .notLinked => some (lit "Not in All-Link group")
  | .unexpectedResponse => some (lit "Unexpected response from device")
  | .noLoadDetected => some (lit "No load detected")
  | .illegalValue => some (lit "Illegal value in command")
  | .incorrectChecksum => some (lit "I2CS invalid checksum")
  | .linkIndexOutOfRange => some (lit "Link index is beyond the bounds of the link database")
  | .invalidThermostatMode => some (lit "invalid mode")
  | .invalidUnit => some (lit "Invalid temperature unit")
  | .invalidFanSpeed => some (lit "Invalid fan speed")
  | .invalidResponse => some (lit "Invalid response received")
  | .devNak => some (lit "NAK received")
  | .plmReadTimeout => some (lit "Timeout reading from plm")
  | .noSync => some (lit "No sync byte received")
  | .plmNotImplemented => some (lit "IM command not implemented")
  | .noAck => some (lit "Received non-ack packet after transmit")
  | .wrongAck => some (lit "Command in ACK does not match TX packet")
  | .wrongPayload => some (lit "Payload in ACK does not match TX packet")
  | .plmNak => some (lit "PLM responded with a NAK.  Resend command")
  | .alreadyLinked => some (lit "Responder already linked to controller")
  | .linkNotFound => some (lit "Link was not found in the database")
  | .notSaveable => some (lit "Database is not saveable")
  | .notLoadable => some (lit "Database is not loadable")
  | .eof => some (lit "EOF")
  | .unexpectedEOF => some (lit "unexpected EOF")
  | .invalidUnread => some (lit "bufio: invalid use of UnreadByte")
  | .wrapped .plmReadTimeout => some (lit "PLM ACK Timeout reading from plm")
  | .wrapped .insReadTimeout => some (lit "Device ACK Read Timeout")
  | .wrapped _ => none
  | .other _ => none

/-- What `main` of `ic` prints for an error (cmd/ic/main.go 121-127). -/
def Ic.printed (e : Err) : Option Bytes := e.text.map (· ++ lit "\n")

/-- The decoders whose errors say how many bytes they want. -/
inductive Decoder where
  | message | record | request | thermostat | product | allLink
deriving DecidableEq, Repr

namespace Decoder

/-- The error of decoding into a fresh value: message.go 197-215, link.go 232-241, devices/linkdb.go 87-113, devices/thermostat.go 143-186, devices/device.go 33-41,
plm/linkdb.go 69-77. -/
def error : Decoder → Bytes → Option Err
  | message, b => (Message.unmarshalBinary Message.zero b).2
  | record, b => (LinkRecord.unmarshalBinary LinkRecord.zero b).2
  | request, b => (LinkRequest.unmarshalBinary LinkRequest.zero b).2
  | thermostat, b => (ThermostatInfo.unmarshalBinary ThermostatInfo.zero b).2
  | product, b => (ProductData.unmarshalBinary ProductData.zero b).2
  | allLink, b => match parseAllLinkReq b with
    | .ok _ => none
    | .error e => some e

/-- The numbers in the error, bytes wanted and bytes got: message.go 199-201 and 208-210, link.go 233-235, devices/linkdb.go 88-90 and, for the record in a request, 107-109,
devices/thermostat.go 144-146, devices/device.go 34-36, plm/linkdb.go 70-71. -/
def complaint : Decoder → Bytes → Option (Nat × Nat)
  | message, b =>
    if b.length < 9 then some (9, b.length)
    else if Flags.extended (b.getD 6 0#8) then (if b.length < 23 then some (23, b.length) else none)
    else none
  | record, b => if b.length < 8 then some (8, b.length) else none
  | request, b =>
    if b.length < 5 then some (6, b.length)
    else if b.getD 1 0#8 = 0x01#8 ∨ b.getD 1 0#8 = 0x02#8 then (if (b.drop 5).length < 8 then some (8, (b.drop 5).length) else none)
    else none
  | thermostat, b => if b.length < 14 then some (14, b.length) else none
  | product, b => if b.length < 14 then some (14, b.length) else none
  | allLink, b => if b.length < 2 then some (2, b.length) else none

/-- The text of the error: message.go 200 and 209, link.go 234, devices/linkdb.go 89, devices/thermostat.go 145; devices/device.go 35; plm/linkdb.go 71. -/
def text (d : Decoder) (c : Nat × Nat) : Bytes :=
  match d with
  | product => lit ("Buffer is too short wanted " ++ toString c.1 ++ " bytes got " ++ toString c.2)
  | allLink => lit ("Buffer is too short wanted " ++ toString c.1 ++ " got " ++ toString c.2)
  | _ => lit ("Buffer is too short: wanted " ++ toString c.1 ++ " bytes got " ++ toString c.2)

end Decoder

end Insteon
