import Verif.Model.PlmLinks
import Verif.Model.ModemCmd
import Verif.Model.Names
import Verif.Model.Timed
import Verif.Model.Logs

/-
The project's own unit tests for the package plm, carried over to the model (see Tests/Insteon.lean).
-/

namespace Insteon.Tests
open Insteon

/-! plm/config_test.go 22-59 -/
example : Config.automaticLinking 0 = false ∧ Config.setAutomaticLinking 0 = 0x80 ∧ Config.automaticLinking (Config.setAutomaticLinking 0) = true ∧ Config.clearAutomaticLinking (Config.setAutomaticLinking 0) = 0 := by decide +kernel
example : Config.monitorMode 0 = false ∧ Config.setMonitorMode 0 = 0x40 ∧ Config.monitorMode (Config.setMonitorMode 0) = true ∧ Config.clearMonitorMode (Config.setMonitorMode 0) = 0 := by decide +kernel
example : Config.automaticLED 0 = false ∧ Config.setAutomaticLED 0 = 0x20 ∧ Config.automaticLED (Config.setAutomaticLED 0) = true ∧ Config.clearAutomaticLED (Config.setAutomaticLED 0) = 0 := by decide +kernel
example : Config.deadmanMode 0 = false ∧ Config.setDeadmanMode 0 = 0x10 ∧ Config.deadmanMode (Config.setDeadmanMode 0) = true ∧ Config.clearDeadmanMode (Config.setDeadmanMode 0) = 0 := by decide +kernel
/-! plm/config_test.go 61-93 -/
example : (Config.unmarshalBinary 0 []).2.isSome := by decide +kernel
example : Config.unmarshalBinary 0 [0x00] = (0x00, none) ∧ Config.marshalBinary 0x00 = [0x00] := by decide +kernel
example : Config.unmarshalBinary 0 [0x80] = (0x80, none) ∧ Config.marshalBinary 0x80 = [0x80] := by decide +kernel
example : Config.unmarshalBinary 0 [0x40] = (0x40, none) ∧ Config.marshalBinary 0x40 = [0x40] := by decide +kernel
example : Config.unmarshalBinary 0 [0x20] = (0x20, none) ∧ Config.marshalBinary 0x20 = [0x20] := by decide +kernel
example : Config.unmarshalBinary 0 [0x10] = (0x10, none) ∧ Config.marshalBinary 0x10 = [0x10] := by decide +kernel
example : Config.unmarshalBinary 0 [0xf0] = (0xf0, none) ∧ Config.marshalBinary 0xf0 = [0xf0] := by decide +kernel
/-! plm/options_test.go 9-31 -/
example : (PlmCfg.new []).writeDelay = 0 ∧ (PlmCfg.new [PlmCfg.writeDelayOpt 1234000000]).writeDelay = 1234000000 ∧ (PlmCfg.new []).timeout = 3000000000 ∧
    (PlmCfg.new [PlmCfg.timeoutOpt 1234000000]).timeout = 1234000000 := by decide +kernel
/-! plm/port_test.go 18-48: a write of nothing that fails -/
example : let port : SerialPort Unit := ⟨fun s _ => (s, [], none), fun s _ => (s, 0, some (.other 1))⟩
    let r := (port.logged fun _ => lit "io: read/write on closed pipe").write ⟨(), [], []⟩ []
    r.1.log = [lit "Failed to write: io: read/write on closed pipe"] ∧ r.2.2 = some (.other 1) := by decide +kernel
/-! plm/port_test.go 50-79: the command byte, and how many bytes follow -/
example : (match sync false 20 ⟨[0x88, 0x55, 0x02, 0x37, 0x48, 0x02, 0x6a, 0x15], none⟩ with | some (.ok r, _) => r == (0x6a#8, 1) | _ => false) = true := by decide +kernel
example : (match sync false 20 ⟨[0x02, 0x6a, 0x15], none⟩ with | some (.ok r, _) => r == (0x6a#8, 1) | _ => false) = true := by decide +kernel
/-! plm/port_test.go 81-112 -/
example : (readPacket false 20 ⟨[0x02, 0x6a, 0x15], none⟩).map Prod.fst = some (.ok ⟨PCmd.getNextAllLink, [], 0x15⟩) := by decide +kernel
example : (readPacket false 20 ⟨[0x02, 0x62, 0x54, 0x88, 0x55, 0x1f, 0x2f, 0x00, 0x00, 0x00, 0x00, 0x00, 0x00, 0x00, 0x00, 0x00, 0x00, 0x00, 0x00, 0x00, 0x00, 0xd1, 0x06], none⟩).map Prod.fst =
    some (.ok ⟨PCmd.sendInsteonMsg, [0x00, 0x00, 0x00, 0x54, 0x88, 0x55, 0x1f, 0x2f, 0x00, 0x00, 0x00, 0x00, 0x00, 0x00, 0x00, 0x00, 0x00, 0x00, 0x00, 0x00, 0x00, 0x00, 0xd1], 0x06⟩) := by decide +kernel
/-! plm/command_test.go 26-60: every command has a length, and its name is the comment (the names are in Names.lean); a value that is none -/
example : plmCommandString 255 = lit "Command(255)" := by decide +kernel
/-! plm/info_test.go 10-37 -/
example : Info.unmarshalBinary [1, 2, 3, 4, 5, 6] = .ok ⟨0x010203, 4, 5, 6⟩ ∧ Info.marshalBinary ⟨0x010203, 4, 5, 6⟩ = [1, 2, 3, 4, 5, 6] := by decide +kernel
/-! plm/linkdb_test.go 19-50 -/
example : ManageRecord.unmarshalBinary [0x00, 0xc2, 0x42, 0x04, 0x05, 0x06, 0x00, 0x00, 0x00] = .ok (⟨0x00, LinkRecord.controllerLink 0x42 0x040506⟩, none) ∧
    ManageRecord.marshalBinary ⟨0x00, LinkRecord.controllerLink 0x42 0x040506⟩ = [0x00, 0xc2, 0x42, 0x04, 0x05, 0x06, 0x00, 0x00, 0x00] := by decide +kernel
example : (match parseAllLinkReq [0x42, 0x75] with | .ok r => r == (0x42, 0x75) | .error _ => false) = true ∧ allLinkReq 0x42 0x75 = [0x42, 0x75] := by decide +kernel
example : (match parseAllLinkReq [] with | .ok _ => false | .error e => e.is .bufferTooShort) = true := by decide +kernel

/-- `testModem` (plm/linkdb_test.go 65-97): the packets to be read and the error, the answers, what was written. -/
structure TestModem where
  rx : List Packet
  rxErr : Option Err
  acks : List Packet
  tx : List Packet
deriving DecidableEq

/-- `testModem` as a `packetWriter`; `txErr` is nil in all tests. -/
def testModem : PacketWriter TestModem where
  read s :=
    match s.rx with
    | p :: rest => ({ s with rx := rest }, .ret (some p) s.rxErr)
    | [] => (s, .ret none (some (s.rxErr.getD (.other 1000))))
  write s p :=
    let s := { s with tx := s.tx ++ [p] }
    match s.acks with
    | a :: rest => ({ s with acks := rest }, .ret (some a) (if a.ack = 0x15 then some .plmNak else none))
    | [] => (s, .ret none (some (.other 1001)))

/-- `pkt` (plm/linkdb_test.go 100-104). -/
def linkPkt (l : LinkRecord) : Packet := ⟨PCmd.allLinkRecordResp, l.marshalBinary, 0⟩

/-! plm/linkdb_test.go 99-166. The test "New" has an age in the future, which nothing in the program sets (see `PlmLinks.refresh`), and is left out. -/
example : (PlmLinks.links testModem 3 10 ⟨[linkPkt (LinkRecord.controllerLink 42 0x010203)], none, [⟨PCmd.getFirstAllLink, [], 0x06⟩, ⟨PCmd.getNextAllLink, [], 0x15⟩], []⟩ []).map (fun r => (r.1.tx, r.2)) =
    some ([⟨PCmd.getFirstAllLink, [], 0⟩, ⟨PCmd.getNextAllLink, [], 0⟩], .ok ([LinkRecord.controllerLink 42 0x010203], none)) := by decide +kernel
example : (PlmLinks.links testModem 3 10 ⟨[linkPkt (LinkRecord.controllerLink 42 0x010203), linkPkt (LinkRecord.controllerLink 35 0x040506)], none, [⟨PCmd.getFirstAllLink, [], 0x06⟩, ⟨PCmd.getNextAllLink, [], 0x06⟩, ⟨PCmd.getNextAllLink, [], 0x15⟩], []⟩ []).map (fun r => (r.1.tx, r.2)) =
    some ([⟨PCmd.getFirstAllLink, [], 0⟩, ⟨PCmd.getNextAllLink, [], 0⟩, ⟨PCmd.getNextAllLink, [], 0⟩], .ok ([LinkRecord.controllerLink 42 0x010203, LinkRecord.controllerLink 35 0x040506], none)) := by decide +kernel
example : ((PlmLinks.links testModem 3 10 ⟨[], some .plmReadTimeout, [⟨PCmd.getFirstAllLink, [], 0⟩], []⟩ []).map Prod.snd) = some (.ok ([], some .plmReadTimeout)) := by decide +kernel
/-! plm/linkdb_test.go 168-199 -/
example : let r := PlmLinks.enterLinkingMode testModem ⟨[], none, [⟨0, [], 0x06⟩], []⟩ 42
    r.1.tx = [⟨PCmd.startAllLink, allLinkReq 0x03 42, 0⟩] ∧ r.2 = .ret (some ⟨0, [], 0x06⟩) none := by decide +kernel
example : let r := PlmLinks.exitLinkingMode testModem ⟨[], none, [⟨0, [], 0x06⟩], []⟩
    r.1.tx = [⟨PCmd.cancelAllLink, [], 0⟩] ∧ r.2 = .ret (some ⟨0, [], 0x06⟩) none := by decide +kernel
example : let r := PlmLinks.enterUnlinkingMode testModem ⟨[], none, [⟨0, [], 0x06⟩], []⟩ 42
    r.1.tx = [⟨PCmd.startAllLink, allLinkReq 0xff 42, 0⟩] ∧ r.2 = .ret (some ⟨0, [], 0x06⟩) none := by decide +kernel
/-! plm/string_test.go 10-38 -/
example : Config.string 0x80 = lit "L..." := by decide +kernel
example : Config.string 0x40 = lit ".M.." := by decide +kernel
example : Config.string 0x20 = lit "..A." := by decide +kernel
example : Config.string 0x10 = lit "...D" := by decide +kernel
example : Config.string 0xf0 = lit "LMAD" := by decide +kernel
example : plmVersionString 42 = lit "42" := by decide +kernel
example : Info.string ⟨0x010203, 4, 5, 6⟩ = lit "01.02.03 category 04.05 version 6" := by decide +kernel
example : ManageRecord.string ⟨0x25, LinkRecord.controllerLink 1 0x040506⟩ = lit "25 UC 1 04.05.06 0x00 0x00 0x00" := by decide +kernel
example : allLinkReqString 0x42 22 = lit "42 22" := by decide +kernel
example : Packet.string ⟨PCmd.getInfo, [], 0x06⟩ = plmCommandString PCmd.getInfo ++ lit " ACK" ∧ Packet.string ⟨PCmd.getInfo, [], 0x15⟩ = plmCommandString PCmd.getInfo ++ lit " NAK" := by decide +kernel
/-! plm/packet_test.go 24-49 -/
example : Packet.isACK ⟨0x60, [], 0x06⟩ = true ∧ Packet.isNAK ⟨0x60, [], 0x06⟩ = false := by decide +kernel
example : Packet.isACK ⟨0x60, [], 0x15⟩ = false ∧ Packet.isNAK ⟨0x60, [], 0x15⟩ = true := by decide +kernel
example : Packet.isACK ⟨0x01, [], 0x06⟩ = false ∧ Packet.isNAK ⟨0x01, [], 0x06⟩ = false := by decide +kernel
example : Packet.isACK ⟨0x01, [], 0x15⟩ = false ∧ Packet.isNAK ⟨0x01, [], 0x15⟩ = false := by decide +kernel
/-! plm/packet_test.go 51-90 -/
example : Packet.unmarshalBinary [0x00] = .err .noSync := by decide +kernel
example : Packet.unmarshalBinary [0x02, 0x62, 0x3d, 0x96, 0xe1, 0x0f, 0x0d, 0x00, 0x06] =
    .ok ⟨PCmd.sendInsteonMsg, [0x00, 0x00, 0x00, 0x3d, 0x96, 0xe1, 0x0f, 0x0d, 0x00], 0x06⟩ := by decide +kernel
example : Packet.unmarshalBinary [0x02, 0x62, 0x57, 0x2c, 0x5c, 0x1f, 0x2f, 0x00, 0x00, 0x00, 0x00, 0x00, 0x00, 0x00, 0x00, 0x00, 0x00, 0x00, 0x00, 0x00, 0x00, 0xd1, 0x06] =
    .ok ⟨PCmd.sendInsteonMsg, [0x00, 0x00, 0x00, 0x57, 0x2c, 0x5c, 0x1f, 0x2f, 0x00, 0x00, 0x00, 0x00, 0x00, 0x00, 0x00, 0x00, 0x00, 0x00, 0x00, 0x00, 0x00, 0x00, 0xd1], 0x06⟩ := by decide +kernel
example : Packet.unmarshalBinary [0x02, 0x62, 0x01, 0x02, 0x03, 0x04] =
    .ok ⟨PCmd.sendInsteonMsg, [0x00, 0x00, 0x00, 0x01, 0x02, 0x03, 0x04], 0x00⟩ := by decide +kernel
example : Packet.unmarshalBinary [0x02, 0x62, 0x01, 0x02, 0x03, 0x04, 0x05, 0x06, 0x07, 0x08, 0x09, 0x0a, 0x0b, 0x0c, 0x0d, 0x0e, 0x0f, 0x10, 0x11, 0x12, 0x13, 0x14] =
    .ok ⟨PCmd.sendInsteonMsg, [0x00, 0x00, 0x00, 0x01, 0x02, 0x03, 0x04, 0x05, 0x06, 0x07, 0x08, 0x09, 0x0a, 0x0b, 0x0c, 0x0d, 0x0e, 0x0f, 0x10, 0x11, 0x12, 0x13, 0x14], 0x00⟩ := by decide +kernel
/-! plm/packet_test.go 92-109 -/
example : Packet.marshalBinary ⟨PCmd.sendInsteonMsg, [1, 2, 3, 4], 0x06⟩ = [0x02, PCmd.sendInsteonMsg, 1, 2, 3, 4] := by decide +kernel
/-! plm/packet_test.go 111-135: the verbs x, s and v -/
example : Packet.formatX ⟨0x01, [], 0x06⟩ = lit "0106" ∧ Packet.formatX ⟨0x01, [2, 3, 4, 5, 15], 0x06⟩ = lit "01020304050f06" := by decide +kernel
example : Packet.formatV ⟨PCmd.getInfo, [2, 3, 4, 5, 15], 0x06⟩ = plmCommandString PCmd.getInfo ++ lit " 02 03 04 05 0f ACK" ∧
    Packet.formatV ⟨PCmd.getInfo, [2, 3, 4, 5, 15], 0x15⟩ = plmCommandString PCmd.getInfo ++ lit " 02 03 04 05 0f NAK" := by decide +kernel

end Insteon.Tests
