import Verif.Model.Names
import Verif.Model.Database
import Verif.Model.Logs
import Verif.Model.Show

/-
The project's own unit tests for the packages insteon and commands, carried over to the model: the inputs and expected results are those of the tables in
/repo. They say nothing about other inputs and no claim rests on them; they check the model against what the authors say the code does.
Where the test ignores something (which error, what is left of the receiver) so do the examples.
-/

namespace Insteon.Tests
open Insteon

/-- `make([]byte, n)` after some bytes (message_test.go 29-31). -/
def mkPayload (b : Bytes) : Bytes := b ++ List.replicate (14 - b.length) 0#8

/-! address_test.go 22-60 -/
example : Address.set 0 (lit "01.02.03") = (0x010203, none) ∧ Address.marshalText 0x010203 = lit "01.02.03" := by decide +kernel
example : Address.set 0 (lit "a1.b2.c3") = (0xa1b2c3, none) ∧ Address.marshalText 0xa1b2c3 = lit "a1.b2.c3" := by decide +kernel
example : Address.set 0 (lit "D1.E2.F3") = (0xd1e2f3, none) ∧ Address.marshalText 0xd1e2f3 = lit "d1.e2.f3" := by decide +kernel
example : Address.set 0 (lit "a1b2c3") = (0xa1b2c3, none) ∧ Address.marshalText 0xa1b2c3 = lit "a1.b2.c3" := by decide +kernel
example : Address.set 0 (lit "D1E2F3") = (0xd1e2f3, none) ∧ Address.marshalText 0xd1e2f3 = lit "d1.e2.f3" := by decide +kernel
example : (Address.set 0 (lit "abcd")).1 = 0 ∧ (Address.set 0 (lit "abcd")).2.isSome := by decide +kernel
example : (Address.set 0 (lit "abcdefg")).1 = 0 ∧ (Address.set 0 (lit "abcdefg")).2.isSome := by decide +kernel
example : (Address.set 0 (lit "01b.02.03")).1 = 0 ∧ (Address.set 0 (lit "01b.02.03")).2.isSome := by decide +kernel
example : (Address.set 0 (lit "vx.02.03")).1 = 0 ∧ (Address.set 0 (lit "vx.02.03")).2.isSome := by decide +kernel
/-! address_test.go 62-77, insteon_test.go 22-39 -/
example : Address.string 0x000102 = lit "00.01.02" := by decide +kernel
example : Address.string 0x472d10 = lit "47.2d.10" := by decide +kernel
/-! address_test.go 79-108 -/
example : Address.unmarshalJSON 0 (.str (lit "01.02.03")) = (0x010203, none) := by decide +kernel
example : Address.unmarshalJSON 0 (.str (lit "01.02")) = (0, some .addrFormat) := by decide +kernel
/-! insteon_test.go 41-138 -/
example : productKeyString 1 2 3 = lit "0x010203" := by decide +kernel
example : devCatString 1 2 = lit "01.02" := by decide +kernel
example : DevCat.isIn (0x01, 0) [0x01] = true ∧ DevCat.isIn (0x01, 0) [0x02, 0x01] = true ∧ DevCat.isIn (0x01, 0) [0x05] = false := by decide +kernel
example : DevCat.unmarshalJSON (.str (lit "01.02")) = some (1, 2) ∧ DevCat.text (1, 2) = lit "01.02" := by decide +kernel
example : DevCat.unmarshalJSON (.str (lit "01")) = none := by decide +kernel
/-! util_test.go 43-64 -/
example : propagationDelay 0 10 = 1000000000 * 10 / 60 ∧ propagationDelay 0 24 = 1000000000 * 24 / 60 ∧ propagationDelay 2 10 = 1000000000 * 30 / 60 ∧ propagationDelay 2 24 = 1000000000 * 72 / 60 := by decide +kernel
/-! util_test.go 66-93: a message is there, or none comes -/
example : (readWithTimeout 1000000000 true 0 none [(0, some Message.zero)]).2.2.2 = none := by decide +kernel
example : (readWithTimeout 1000 true 0 none []).2.2.2 = some .insReadTimeout := by decide +kernel
/-! string_test.go 11-42 -/
example : Group.set 0 (lit "128") = (128, none) ∧ Group.string 128 = lit "128" := by decide +kernel
example : Address.set 0 (lit "01.04.07") = (0x10407, none) ∧ Address.set 0 (lit "1.4.7") = (0x10407, none) ∧ Address.string 0x10407 = lit "01.04.07" := by decide +kernel
/-! string_test.go 44-77 -/
example : engineVersionString 0 = lit "I1" := by decide +kernel
example : engineVersionString 1 = lit "I2" := by decide +kernel
example : engineVersionString 2 = lit "I2Cs" := by decide +kernel
example : engineVersionString 3 = lit "unknown" := by decide +kernel
example : LinkRecord.string ⟨0xd0, 1, 0x10203, 4, 5, 6⟩ = lit "UC 1 01.02.03 0x04 0x05 0x06" := by decide +kernel
example : Flags.string Flags.standardDirectMessage = lit "SD     2:2" ∧ Flags.string Flags.extendedDirectMessage = lit "ED     2:2" := by decide +kernel
example : RecordControlFlags.string 0x40 = lit "AC" := by decide +kernel
example : RecordControlFlags.string 0xc0 = lit "UC" := by decide +kernel
example : RecordControlFlags.string 0x00 = lit "AR" := by decide +kernel
example : RecordControlFlags.string 0x80 = lit "UR" := by decide +kernel
example : firmwareVersionString 42 = lit "42" := by decide +kernel
example : Message.string ⟨0x10203, 0x040506, 0x8a, Cmd.setButtonPressedController, []⟩ = lit "SB     2:2 01.02.03 -> ff.ff.ff DevCat 04.05 Firmware 6 Set-button Pressed (controller)" := by decide +kernel
example : Message.string ⟨0x10203, 0x04050e, 0xca, Cmd.allLinkRecall, []⟩ = lit "SA     2:2 01.02.03 -> ff.ff.ff All-link recall Group(14)" := by decide +kernel
example : Message.string ⟨0x10203, 0x04050e, Flags.make MessageType.allLinkCleanup false 2 2, Cmd.allLinkRecall, []⟩ = lit "SC     2:2 01.02.03 -> 04.05.0e Cleanup All-link recall" := by decide +kernel
example : Message.string ⟨0x10203, 0x040506, 0x1a, Cmd.enterLinkingModeExt, List.replicate 14 0⟩ = lit "ED     2:2 01.02.03 -> 04.05.06 Enter Linking Mode (i2cs) [00 00 00 00 00 00 00 00 00 00 00 00 00 00]" := by decide +kernel
example : Message.string ⟨0x10203, 0x040506, 0x2a, Cmd.enterLinkingMode, []⟩ = lit "SD Ack 2:2 01.02.03 -> 04.05.06 9.0" := by decide +kernel
/-! message_test.go 44-81 -/
example : MessageType.isDirect MessageType.direct = true ∧ MessageType.isBroadcast MessageType.direct = false ∧ MessageType.isAllLink MessageType.direct = false ∧ MessageType.string MessageType.direct = lit "D" := by decide +kernel
example : MessageType.isDirect MessageType.directAck = true ∧ MessageType.isBroadcast MessageType.directAck = false ∧ MessageType.isAllLink MessageType.directAck = false ∧ MessageType.string MessageType.directAck = lit "D Ack" := by decide +kernel
example : MessageType.isDirect MessageType.allLinkCleanup = true ∧ MessageType.isBroadcast MessageType.allLinkCleanup = false ∧ MessageType.isAllLink MessageType.allLinkCleanup = true ∧ MessageType.string MessageType.allLinkCleanup = lit "C" := by decide +kernel
example : MessageType.isDirect MessageType.allLinkCleanupAck = true ∧ MessageType.isBroadcast MessageType.allLinkCleanupAck = false ∧ MessageType.isAllLink MessageType.allLinkCleanupAck = true ∧ MessageType.string MessageType.allLinkCleanupAck = lit "C Ack" := by decide +kernel
example : MessageType.isDirect MessageType.broadcast = false ∧ MessageType.isBroadcast MessageType.broadcast = true ∧ MessageType.isAllLink MessageType.broadcast = false ∧ MessageType.string MessageType.broadcast = lit "B" := by decide +kernel
example : MessageType.isDirect MessageType.directNak = true ∧ MessageType.isBroadcast MessageType.directNak = false ∧ MessageType.isAllLink MessageType.directNak = false ∧ MessageType.string MessageType.directNak = lit "D NAK" := by decide +kernel
example : MessageType.isDirect MessageType.allLinkBroadcast = false ∧ MessageType.isBroadcast MessageType.allLinkBroadcast = true ∧ MessageType.isAllLink MessageType.allLinkBroadcast = true ∧ MessageType.string MessageType.allLinkBroadcast = lit "A" := by decide +kernel
example : MessageType.isDirect MessageType.allLinkCleanupNak = true ∧ MessageType.isBroadcast MessageType.allLinkCleanupNak = false ∧ MessageType.isAllLink MessageType.allLinkCleanupNak = true ∧ MessageType.string MessageType.allLinkCleanupNak = lit "C NAK" := by decide +kernel
/-! message_test.go 83-137 -/
example : Flags.type 0x0f#8 = MessageType.direct ∧ Flags.extended 0x0f#8 = false ∧ Flags.standard 0x0f#8 = true ∧ Flags.ttl 0x0f#8 = 3 ∧ Flags.maxTTL 0x0f#8 = 3 := by decide +kernel
example : Flags.type 0x2f#8 = MessageType.directAck ∧ Flags.extended 0x2f#8 = false ∧ Flags.standard 0x2f#8 = true ∧ Flags.ttl 0x2f#8 = 3 ∧ Flags.maxTTL 0x2f#8 = 3 := by decide +kernel
example : Flags.type 0x4f#8 = MessageType.allLinkCleanup ∧ Flags.extended 0x4f#8 = false ∧ Flags.standard 0x4f#8 = true ∧ Flags.ttl 0x4f#8 = 3 ∧ Flags.maxTTL 0x4f#8 = 3 := by decide +kernel
example : Flags.type 0x6f#8 = MessageType.allLinkCleanupAck ∧ Flags.extended 0x6f#8 = false ∧ Flags.standard 0x6f#8 = true ∧ Flags.ttl 0x6f#8 = 3 ∧ Flags.maxTTL 0x6f#8 = 3 := by decide +kernel
example : Flags.type 0x8f#8 = MessageType.broadcast ∧ Flags.extended 0x8f#8 = false ∧ Flags.standard 0x8f#8 = true ∧ Flags.ttl 0x8f#8 = 3 ∧ Flags.maxTTL 0x8f#8 = 3 := by decide +kernel
example : Flags.type 0xaf#8 = MessageType.directNak ∧ Flags.extended 0xaf#8 = false ∧ Flags.standard 0xaf#8 = true ∧ Flags.ttl 0xaf#8 = 3 ∧ Flags.maxTTL 0xaf#8 = 3 := by decide +kernel
example : Flags.type 0xcf#8 = MessageType.allLinkBroadcast ∧ Flags.extended 0xcf#8 = false ∧ Flags.standard 0xcf#8 = true ∧ Flags.ttl 0xcf#8 = 3 ∧ Flags.maxTTL 0xcf#8 = 3 := by decide +kernel
example : Flags.type 0xef#8 = MessageType.allLinkCleanupNak ∧ Flags.extended 0xef#8 = false ∧ Flags.standard 0xef#8 = true ∧ Flags.ttl 0xef#8 = 3 ∧ Flags.maxTTL 0xef#8 = 3 := by decide +kernel
example : Flags.type 0x1f#8 = MessageType.direct ∧ Flags.extended 0x1f#8 = true ∧ Flags.standard 0x1f#8 = false ∧ Flags.ttl 0x1f#8 = 3 ∧ Flags.maxTTL 0x1f#8 = 3 := by decide +kernel
example : Flags.type 0x3f#8 = MessageType.directAck ∧ Flags.extended 0x3f#8 = true ∧ Flags.standard 0x3f#8 = false ∧ Flags.ttl 0x3f#8 = 3 ∧ Flags.maxTTL 0x3f#8 = 3 := by decide +kernel
example : Flags.type 0x5f#8 = MessageType.allLinkCleanup ∧ Flags.extended 0x5f#8 = true ∧ Flags.standard 0x5f#8 = false ∧ Flags.ttl 0x5f#8 = 3 ∧ Flags.maxTTL 0x5f#8 = 3 := by decide +kernel
example : Flags.type 0x7f#8 = MessageType.allLinkCleanupAck ∧ Flags.extended 0x7f#8 = true ∧ Flags.standard 0x7f#8 = false ∧ Flags.ttl 0x7f#8 = 3 ∧ Flags.maxTTL 0x7f#8 = 3 := by decide +kernel
example : Flags.type 0x9f#8 = MessageType.broadcast ∧ Flags.extended 0x9f#8 = true ∧ Flags.standard 0x9f#8 = false ∧ Flags.ttl 0x9f#8 = 3 ∧ Flags.maxTTL 0x9f#8 = 3 := by decide +kernel
example : Flags.type 0xbf#8 = MessageType.directNak ∧ Flags.extended 0xbf#8 = true ∧ Flags.standard 0xbf#8 = false ∧ Flags.ttl 0xbf#8 = 3 ∧ Flags.maxTTL 0xbf#8 = 3 := by decide +kernel
example : Flags.type 0xdf#8 = MessageType.allLinkBroadcast ∧ Flags.extended 0xdf#8 = true ∧ Flags.standard 0xdf#8 = false ∧ Flags.ttl 0xdf#8 = 3 ∧ Flags.maxTTL 0xdf#8 = 3 := by decide +kernel
example : Flags.type 0xff#8 = MessageType.allLinkCleanupNak ∧ Flags.extended 0xff#8 = true ∧ Flags.standard 0xff#8 = false ∧ Flags.ttl 0xff#8 = 3 ∧ Flags.maxTTL 0xff#8 = 3 := by decide +kernel
example : Flags.type (Flags.make MessageType.direct false 2 2) = MessageType.direct ∧ Flags.extended (Flags.make MessageType.direct false 2 2) = false ∧ Flags.standard (Flags.make MessageType.direct false 2 2) = true ∧ Flags.ttl (Flags.make MessageType.direct false 2 2) = 2 ∧ Flags.maxTTL (Flags.make MessageType.direct false 2 2) = 2 := by decide +kernel
example : Flags.type (Flags.make MessageType.direct true 3 3) = MessageType.direct ∧ Flags.extended (Flags.make MessageType.direct true 3 3) = true ∧ Flags.standard (Flags.make MessageType.direct true 3 3) = false ∧ Flags.ttl (Flags.make MessageType.direct true 3 3) = 3 ∧ Flags.maxTTL (Flags.make MessageType.direct true 3 3) = 3 := by decide +kernel
example : Flags.type (Flags.make MessageType.direct false 4 4) = MessageType.direct ∧ Flags.extended (Flags.make MessageType.direct false 4 4) = false ∧ Flags.standard (Flags.make MessageType.direct false 4 4) = true ∧ Flags.ttl (Flags.make MessageType.direct false 4 4) = 0 ∧ Flags.maxTTL (Flags.make MessageType.direct false 4 4) = 0 := by decide +kernel
/-! message_test.go 139-281 -/
example : let r := Message.unmarshalBinary Message.zero [0x01, 0x02, 0x03, 0x04, 0x05, 0x06, 0x0a, 0x10, 0x00]
    r.2 = none ∧ r.1.src = 0x010203 ∧ r.1.dst = 0x040506 ∧ r.1.flags = 0x0a ∧ r.1.flags.ack = false ∧ r.1.flags.nak = false ∧ r.1.command = 0x001000 ∧
      r.1.marshalBinary = [0x01, 0x02, 0x03, 0x04, 0x05, 0x06, 0x0a, 0x10, 0x00] := by decide +kernel
example : let r := Message.unmarshalBinary Message.zero [0x01, 0x02, 0x03, 0x04, 0x05, 0x06, 0x8a, 0x01, 0x00]
    r.2 = none ∧ r.1.src = 0x010203 ∧ r.1.dst = 0x040506 ∧ r.1.flags = 0x8a ∧ r.1.flags.ack = false ∧ r.1.flags.nak = false ∧ r.1.command = 0x080100 ∧
      r.1.marshalBinary = [0x01, 0x02, 0x03, 0x04, 0x05, 0x06, 0x8a, 0x01, 0x00] := by decide +kernel
example : (Message.unmarshalBinary Message.zero [0x01, 0x02, 0x03, 0x04, 0x05, 0x06, 0x0a, 0x10]).2.any (Err.is · .bufferTooShort) := by decide +kernel
example : let r := Message.unmarshalBinary Message.zero [0x01, 0x02, 0x03, 0x04, 0x05, 0x06, 0x1a, 0x09, 0x00, 0xff, 0xff, 0xff, 0xff, 0xff, 0xff, 0xff, 0xff, 0xff, 0xff, 0xff, 0xff, 0xff, 0xfe]
    r.2 = none ∧ r.1.src = 0x010203 ∧ r.1.dst = 0x040506 ∧ r.1.flags = 0x1a ∧ r.1.flags.ack = false ∧ r.1.flags.nak = false ∧ r.1.command = 0x010900 ∧
      r.1.marshalBinary = [0x01, 0x02, 0x03, 0x04, 0x05, 0x06, 0x1a, 0x09, 0x00, 0xff, 0xff, 0xff, 0xff, 0xff, 0xff, 0xff, 0xff, 0xff, 0xff, 0xff, 0xff, 0xff, 0xfe] := by decide +kernel
example : (Message.unmarshalBinary Message.zero [0x01, 0x02, 0x03, 0x04, 0x05, 0x06, 0x1a, 0x09, 0x00, 0xff, 0xff, 0xff, 0xff, 0xff, 0xff, 0xff, 0xff, 0xff, 0xff, 0xff, 0xff, 0xff]).2.any (Err.is · .bufferTooShort) := by decide +kernel
example : let r := Message.unmarshalBinary Message.zero [0x01, 0x02, 0x03, 0x04, 0x05, 0x06, 0x1a, 0x2f, 0x00, 0x00, 0x02, 0x0f, 0xff, 0x08, 0xe2, 0x01, 0x08, 0xb6, 0xea, 0x00, 0x1b, 0x01, 0x12]
    r.2 = none ∧ r.1.src = 0x010203 ∧ r.1.dst = 0x040506 ∧ r.1.flags = 0x1a ∧ r.1.flags.ack = false ∧ r.1.flags.nak = false ∧ r.1.command = 0x012f00 ∧
      r.1.marshalBinary = [0x01, 0x02, 0x03, 0x04, 0x05, 0x06, 0x1a, 0x2f, 0x00, 0x00, 0x02, 0x0f, 0xff, 0x08, 0xe2, 0x01, 0x08, 0xb6, 0xea, 0x00, 0x1b, 0x01, 0x12] := by decide +kernel
example : let r := Message.unmarshalBinary Message.zero [0x01, 0x02, 0x03, 0x04, 0x05, 0x06, 0xaa, 0x01, 0x00]
    r.2 = none ∧ r.1.src = 0x010203 ∧ r.1.dst = 0x040506 ∧ r.1.flags = 0xaa ∧ r.1.flags.ack = false ∧ r.1.flags.nak = true ∧ r.1.command = 0x000100 ∧
      r.1.marshalBinary = [0x01, 0x02, 0x03, 0x04, 0x05, 0x06, 0xaa, 0x01, 0x00] := by decide +kernel
example : let r := Message.unmarshalBinary Message.zero [0x01, 0x02, 0x03, 0x04, 0x05, 0x06, 0x2a, 0x01, 0x00]
    r.2 = none ∧ r.1.src = 0x010203 ∧ r.1.dst = 0x040506 ∧ r.1.flags = 0x2a ∧ r.1.flags.ack = true ∧ r.1.flags.nak = false ∧ r.1.command = 0x000100 ∧
      r.1.marshalBinary = [0x01, 0x02, 0x03, 0x04, 0x05, 0x06, 0x2a, 0x01, 0x00] := by decide +kernel
example : let r := Message.unmarshalBinary Message.zero [0x01, 0x02, 0x03, 0x04, 0x05, 0x06, 0x4a, 0x11, 0x03]
    r.2 = none ∧ r.1.src = 0x010203 ∧ r.1.dst = 0x040506 ∧ r.1.flags = 0x4a ∧ r.1.flags.ack = false ∧ r.1.flags.nak = false ∧ r.1.command = 0x0c1103 ∧
      r.1.marshalBinary = [0x01, 0x02, 0x03, 0x04, 0x05, 0x06, 0x4a, 0x11, 0x03] := by decide +kernel
example : Command.subCommand Cmd.allLinkRecall 3 = 0x0c1103 := by decide +kernel
/-! message_test.go 283-307 -/
example : Flags.make MessageType.broadcast false 2 2 = 0x8a := by decide +kernel
example : Flags.make MessageType.allLinkBroadcast false 2 2 = 0xca := by decide +kernel
example : Flags.make MessageType.direct false 2 2 = 0x0a := by decide +kernel
example : Flags.make MessageType.directAck false 2 2 = 0x2a := by decide +kernel
example : Flags.make MessageType.directNak false 2 2 = 0xaa := by decide +kernel
example : Flags.make MessageType.direct true 2 2 = 0x1a := by decide +kernel
example : Flags.make MessageType.directAck true 2 2 = 0x3a := by decide +kernel
example : Flags.make MessageType.directNak true 2 2 = 0xba := by decide +kernel
/-! message_test.go 309-336 -/
example : Message.equals Message.zero Message.zero = true ∧ Message.duplicate Message.zero Message.zero = true := by decide +kernel
example : Message.equals ⟨0, 0, Flags.make MessageType.direct false 3 3, 0, []⟩ ⟨0, 0, Flags.make MessageType.direct false 2 3, 0, []⟩ = false ∧ Message.duplicate ⟨0, 0, Flags.make MessageType.direct false 3 3, 0, []⟩ ⟨0, 0, Flags.make MessageType.direct false 2 3, 0, []⟩ = true := by decide +kernel
example : Message.equals ⟨0, 0, Flags.make MessageType.direct true 3 3, 0, mkPayload [42, 53, 64]⟩ ⟨0, 0, Flags.make MessageType.direct true 3 3, 0, mkPayload [42, 53, 64]⟩ = true ∧ Message.duplicate ⟨0, 0, Flags.make MessageType.direct true 3 3, 0, mkPayload [42, 53, 64]⟩ ⟨0, 0, Flags.make MessageType.direct true 3 3, 0, mkPayload [42, 53, 64]⟩ = true := by decide +kernel
example : Message.equals ⟨0, 0, Flags.make MessageType.direct true 3 3, 0, mkPayload [42, 53, 64]⟩ ⟨0, 0, Flags.make MessageType.direct true 3 3, 0, mkPayload [42, 64]⟩ = false ∧ Message.duplicate ⟨0, 0, Flags.make MessageType.direct true 3 3, 0, mkPayload [42, 53, 64]⟩ ⟨0, 0, Flags.make MessageType.direct true 3 3, 0, mkPayload [42, 64]⟩ = false := by decide +kernel
/-! link_test.go 24-61 -/
example : RecordControlFlags.inUse 0x40#8 = false ∧ RecordControlFlags.available 0x40#8 = true ∧ RecordControlFlags.controller 0x40#8 = true ∧ RecordControlFlags.responder 0x40#8 = false ∧ RecordControlFlags.lastRecord 0x40#8 = true := by decide +kernel
example : RecordControlFlags.inUse 0x00#8 = false ∧ RecordControlFlags.available 0x00#8 = true ∧ RecordControlFlags.controller 0x00#8 = false ∧ RecordControlFlags.responder 0x00#8 = true ∧ RecordControlFlags.lastRecord 0x00#8 = true := by decide +kernel
example : RecordControlFlags.inUse 0xc0#8 = true ∧ RecordControlFlags.available 0xc0#8 = false ∧ RecordControlFlags.controller 0xc0#8 = true ∧ RecordControlFlags.responder 0xc0#8 = false ∧ RecordControlFlags.lastRecord 0xc0#8 = true := by decide +kernel
example : RecordControlFlags.inUse 0x80#8 = true ∧ RecordControlFlags.available 0x80#8 = false ∧ RecordControlFlags.controller 0x80#8 = false ∧ RecordControlFlags.responder 0x80#8 = true ∧ RecordControlFlags.lastRecord 0x80#8 = true := by decide +kernel
example : RecordControlFlags.inUse 0x42#8 = false ∧ RecordControlFlags.available 0x42#8 = true ∧ RecordControlFlags.controller 0x42#8 = true ∧ RecordControlFlags.responder 0x42#8 = false ∧ RecordControlFlags.lastRecord 0x42#8 = false := by decide +kernel
/-! link_test.go 63-93: 10 to 12 are the errors for the number of characters, the first and the second character -/
example : (RecordControlFlags.unmarshalText 0 (lit "A")).2 = some (.other 10) := by decide +kernel
example : RecordControlFlags.unmarshalText 0 (lit "AR") = (0x00, none) := by decide +kernel
example : RecordControlFlags.unmarshalText 0 (lit "UR") = (0x80, none) := by decide +kernel
example : RecordControlFlags.unmarshalText 0 (lit "AC") = (0x40, none) := by decide +kernel
example : RecordControlFlags.unmarshalText 0 (lit "UC") = (0xc0, none) := by decide +kernel
example : (RecordControlFlags.unmarshalText 0 (lit "FR")).2 = some (.other 11) := by decide +kernel
example : (RecordControlFlags.unmarshalText 0 (lit "AZ")).2 = some (.other 12) := by decide +kernel
/-! link_test.go 95-118: one after the other -/
example : let f0 : RecordControlFlags := 0xff
    let f1 := f0.setAvailable; let f2 := f1.setInUse; let f3 := f2.setResponder; let f4 := f3.setController; let f5 := f4.setLastRecord; let f6 := f5.clearLastRecord
    [f1, f2, f3, f4, f5, f6] = [0x7f, 0xff, 0xbf, 0xff, 0xfd, 0xff] := by decide +kernel
/-! link_test.go 120-151 -/
example : LinkRecord.equal (LinkRecord.controllerLink 1 0x010203) ⟨0x40, 1, 0x010203, 0, 0, 0⟩ = true := by decide +kernel
example : LinkRecord.equal (LinkRecord.responderLink 1 0x010203) ⟨0x40, 1, 0x010203, 0, 0, 0⟩ = false := by decide +kernel
example : LinkRecord.equal ⟨0x40, 1, 0x010203, 0, 0, 0⟩ ⟨0x40, 1, 0x010203, 0, 0, 0⟩ = true := by decide +kernel
example : LinkRecord.equal ⟨0x00, 1, 0x010203, 0, 0, 0⟩ ⟨0x40, 1, 0x010203, 0, 0, 0⟩ = false := by decide +kernel
example : LinkRecord.equal ⟨0x40, 1, 0x010203, 0, 0, 0⟩ ⟨0x40, 1, 0x010204, 0, 0, 0⟩ = false := by decide +kernel
example : LinkRecord.equal ⟨0x40, 1, 0x010203, 0, 0, 0⟩ LinkRecord.zero = false := by decide +kernel
/-! link_test.go 153-218 -/
example : LinkRecord.unmarshalBinary LinkRecord.zero [1, 2, 3, 4, 5, 6, 7, 8] = (⟨1, 2, 0x030405, 6, 7, 8⟩, none) ∧ LinkRecord.string ⟨1, 2, 0x030405, 6, 7, 8⟩ = lit "AR 2 03.04.05 0x06 0x07 0x08" ∧
    LinkRecord.marshalBinary ⟨1, 2, 0x030405, 6, 7, 8⟩ = [1, 2, 3, 4, 5, 6, 7, 8] := by decide +kernel
example : (LinkRecord.unmarshalBinary LinkRecord.zero [1, 2, 3, 4, 5, 6, 7]).2.any (Err.is · .bufferTooShort) := by decide +kernel
/-! link_test.go 220-252: 15 is the error for the number of fields -/
example : LinkRecord.marshalText ⟨0xc2, 1, 0x010101, 0, 0, 0⟩ = lit "UC        1 01.01.01   00 00 00" ∧
    LinkRecord.unmarshalText LinkRecord.zero (lit "UC        1 01.01.01   00 00 00") = (⟨0xc2, 1, 0x010101, 0, 0, 0⟩, none) := by decide +kernel
example : (LinkRecord.unmarshalText LinkRecord.zero (lit "UC        1 01.01.01   00 00")).2 = some (.other 15) := by decide +kernel
/-! link_test.go 254-281: 13 is the error for what is no number, 14 the one for the range -/
example : Group.unmarshalText 0 (lit "1") = (1, none) := by decide +kernel
example : (Group.unmarshalText 0 (lit "wxyz")).2 = some (.other 13) := by decide +kernel
example : (Group.unmarshalText 0 (lit "256")).2 = some (.other 14) := by decide +kernel
example : (Group.unmarshalText 0 (lit "-1")).2 = some (.other 14) := by decide +kernel
/-! commands/command_test.go 27-41 -/
example : (Command.subCommand 0x000102 3).command2 = 3 := by decide +kernel
example : (Command.set 0x000102 (lit "42")).1.command2 = 42 := by decide +kernel
/-! commands/command_test.go 43-98: nothing is compared for the constants there, because they are not declared in the way looked for; the names are C192 and C214 -/
example : Command.string (Command.subCommand Cmd.assignToAllLinkGroup 1) = Command.string Cmd.assignToAllLinkGroup ++ lit "(1)" := by decide +kernel
example : Command.string 0xffffff = lit "Command(0xff, 0xff, 0xff)" := by decide +kernel
/-! commands/command_test.go 100-123 -/
example : Command.ofWire 0x0a (Cmd.assignToAllLinkGroup.command1.setWidth 8) (Cmd.assignToAllLinkGroup.command2.setWidth 8) = Cmd.assignToAllLinkGroup := by decide +kernel
example : Command.ofWire 0x2a (Cmd.assignToAllLinkGroup.command1.setWidth 8) (Cmd.assignToAllLinkGroup.command2.setWidth 8) = Cmd.assignToAllLinkGroup := by decide +kernel
example : Command.ofWire 0xaa (Cmd.assignToAllLinkGroup.command1.setWidth 8) (Cmd.assignToAllLinkGroup.command2.setWidth 8) = Cmd.assignToAllLinkGroup := by decide +kernel
example : Command.ofWire 0x1a (Cmd.productDataResp.command1.setWidth 8) (Cmd.productDataResp.command2.setWidth 8) = Cmd.productDataResp := by decide +kernel
example : Command.ofWire 0x3a (Cmd.productDataResp.command1.setWidth 8) (Cmd.productDataResp.command2.setWidth 8) = Cmd.productDataResp := by decide +kernel
example : Command.ofWire 0xfa (Cmd.productDataResp.command1.setWidth 8) (Cmd.productDataResp.command2.setWidth 8) = Cmd.productDataResp := by decide +kernel
example : Command.ofWire 0x4a (Cmd.allLinkRecall.command1.setWidth 8) (Cmd.allLinkRecall.command2.setWidth 8) = Cmd.allLinkRecall := by decide +kernel

end Insteon.Tests
