import Verif.Model.Message

/-
plm/command.go, plm/packet.go
-/

namespace Insteon

/-- `type Command byte` of package plm (plm/command.go 20). -/
abbrev PCommand := BitVec 8

namespace PCmd
/-- plm/command.go 24. -/
abbrev stdMsgReceived : PCommand := 0x50#8
/-- plm/command.go 25. -/
abbrev extMsgReceived : PCommand := 0x51#8
/-- plm/command.go 31. -/
abbrev allLinkRecordResp : PCommand := 0x57#8
/-- plm/command.go 33. -/
abbrev getInfo : PCommand := 0x60#8
/-- plm/command.go 35. -/
abbrev sendInsteonMsg : PCommand := 0x62#8
/-- plm/command.go 37. -/
abbrev startAllLink : PCommand := 0x64#8
/-- plm/command.go 38. -/
abbrev cancelAllLink : PCommand := 0x65#8
/-- plm/command.go 40. -/
abbrev reset : PCommand := 0x67#8
/-- plm/command.go 42. -/
abbrev getFirstAllLink : PCommand := 0x69#8
/-- plm/command.go 43. -/
abbrev getNextAllLink : PCommand := 0x6a#8
/-- plm/command.go 44. -/
abbrev setConfig : PCommand := 0x6b#8
/-- plm/command.go 48. -/
abbrev manageAllLinkRecord : PCommand := 0x6f#8
/-- plm/command.go 52. -/
abbrev getConfig : PCommand := 0x73#8
end PCmd

/-- `commandLens` (plm/command.go 55-88): payload length after the command byte, `none` for
commands not in the map. -/
def commandLen (c : PCommand) : Option Nat :=
  match c.toNat with
  | 0x15 => some 1
  | 0x50 => some 9
  | 0x51 => some 23
  | 0x52 => some 2
  | 0x53 => some 8
  | 0x54 => some 1
  | 0x55 => some 0
  | 0x56 => some 5
  | 0x57 => some 8
  | 0x58 => some 1
  | 0x60 => some 7
  | 0x61 => some 4
  | 0x62 => some 7
  | 0x63 => some 3
  | 0x64 => some 3
  | 0x65 => some 1
  | 0x66 => some 4
  | 0x67 => some 1
  | 0x68 => some 2
  | 0x69 => some 1
  | 0x6a => some 1
  | 0x6b => some 2
  | 0x6c => some 1
  | 0x6d => some 1
  | 0x6e => some 1
  | 0x6f => some 10
  | 0x70 => some 2
  | 0x71 => some 3
  | 0x72 => some 1
  | 0x73 => some 4
  | _ => none

/-- `Packet` (plm/packet.go 23-27). -/
structure Packet where
  command : PCommand
  payload : Bytes
  ack : Byte
deriving DecidableEq, Repr

namespace Packet

/-- `Packet.ACK` (plm/packet.go 29-34). -/
def isACK (p : Packet) : Bool := decide (0x60 ≤ p.command.toNat) && p.ack == 0x06#8

/-- `Packet.NAK` (plm/packet.go 36-41). -/
def isNAK (p : Packet) : Bool := decide (0x60 ≤ p.command.toNat) && p.ack == 0x15#8

/-- `Packet.MarshalBinary` (plm/packet.go 81-89). -/
def marshalBinary (p : Packet) : Bytes := [0x02#8, p.command] ++ p.payload

/-- Whether `UnmarshalBinary` takes the last byte as status (plm/packet.go 109-119). The map
lookup of an unknown command gives length 0. -/
def hasStatus (cmd : PCommand) (len : Nat) : Bool :=
  decide (0x60 ≤ cmd.toNat ∧ cmd.toNat ≤ 0x7f) &&
    (if cmd = PCmd.sendInsteonMsg then decide (len = 21 ∨ len = 7)
     else decide (len = (commandLen cmd).getD 0))

/-- `Packet.UnmarshalBinary` into a fresh packet (plm/packet.go 91-123); all callers in the
package use `&Packet{}`. Indexing past the end is a panic. -/
def unmarshalBinary (buf : Bytes) : Out Packet :=
  match buf with
  | [] => .panic
  | b0 :: rest =>
    if b0 ≠ 0x02#8 then .err .noSync
    else match rest with
      | [] => .panic
      | cmd :: body =>
        let pre : Bytes := if cmd = PCmd.sendInsteonMsg then [0, 0, 0] else []
        if hasStatus cmd body.length then
          if body = [] then .panic
          else .ok ⟨cmd, pre ++ body.dropLast, body.getLastD 0⟩
        else .ok ⟨cmd, pre ++ body, 0⟩

end Packet

end Insteon
