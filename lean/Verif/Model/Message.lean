import Verif.Model.Address
import Verif.Model.Command

/-
message.go, util.go
-/

namespace Insteon

/-- `type Flags byte` (message.go 112). -/
abbrev Flags := BitVec 8

/-- `type MessageType int` (message.go 47). -/
abbrev MessageType := BitVec 64

namespace MessageType
/-- message.go 51. -/
def direct : MessageType := 0x00#64
/-- message.go 52. -/
def directAck : MessageType := 0x20#64
/-- message.go 53. -/
def directNak : MessageType := 0xA0#64
/-- message.go 54. -/
def allLinkCleanup : MessageType := 0x40#64
/-- message.go 55. -/
def allLinkCleanupAck : MessageType := 0x60#64
/-- message.go 56. -/
def allLinkCleanupNak : MessageType := 0xE0#64
/-- message.go 57. -/
def broadcast : MessageType := 0x80#64
/-- message.go 58. -/
def allLinkBroadcast : MessageType := 0xC0#64

/-- `m&0x80 > 0` on a Go int whose mask is a positive constant: the bit is set. -/
def isBroadcast (m : MessageType) : Bool :=
  (m &&& 0x80#64) != 0#64 && (m &&& 0x20#64) == 0#64
/-- `MessageType.Direct` (message.go 86-88). -/
def isDirect (m : MessageType) : Bool := !m.isBroadcast
/-- `MessageType.AllLink` (message.go 90-92). -/
def isAllLink (m : MessageType) : Bool := (m &&& 0x40#64) != 0#64
end MessageType

namespace Flags
/-- message.go 103. -/
def standardDirectMessage : Flags := 0x0a#8
/-- message.go 106. -/
def extendedDirectMessage : Flags := 0x1a#8

/-- `Flags.Ack` (message.go 131). -/
def ack (f : Flags) : Bool := (f &&& 0x20#8 == 0x20#8) && !(f &&& 0x80#8 == 0x80#8)
/-- `Flags.Nak` (message.go 134). -/
def nak (f : Flags) : Bool := (f &&& 0x20#8 == 0x20#8) && (f &&& 0x80#8 == 0x80#8)
/-- `Flags.Type` (message.go 137). -/
def type (f : Flags) : MessageType := (f &&& 0xe0#8).setWidth 64
/-- `Flags.Standard` (message.go 140). -/
def standard (f : Flags) : Bool := f &&& 0x10#8 == 0x00#8
/-- `Flags.Extended` (message.go 143). -/
def extended (f : Flags) : Bool := f &&& 0x10#8 == 0x10#8
/-- `Flags.TTL` (message.go 147). -/
def ttl (f : Flags) : Byte := (f &&& 0x0f#8) >>> 2
/-- `Flags.SetTTL` (message.go 149-151); `&` and `<<` have the same precedence in Go and
associate to the left. -/
def setTTL (f : Flags) (ttl : Byte) : Flags := (f &&& 0xf3#8) ||| ((0x03#8 &&& ttl) <<< 2)
/-- `Flags.SetMaxTTL` (message.go 153-155). -/
def setMaxTTL (f : Flags) (ttl : Byte) : Flags := (f &&& 0xfc#8) ||| (ttl &&& 0x03#8)
/-- `Flags.MaxTTL` (message.go 158). -/
def maxTTL (f : Flags) : Byte := f &&& 0x03#8

/-- `Flag` (message.go 115-128). -/
def make (messageType : MessageType) (extended : Bool) (hopsLeft maxHops : Byte) : Flags :=
  if hopsLeft.toNat > 3 ∨ maxHops.toNat > 3 then 0#8
  else
    let e : Byte := if extended then 1#8 else 0#8
    let flags : Flags := messageType.setWidth 8 ||| (e <<< 4)
    (flags.setTTL hopsLeft).setMaxTTL maxHops
end Flags

/-- `Message` (message.go 170-176). -/
structure Message where
  src : Address
  dst : Address
  flags : Flags
  command : Command
  payload : Bytes
deriving DecidableEq, Repr

/-- `copy(dst, src)` into a zeroed buffer of length `n`: the first `n` bytes, padded with
zeros. -/
def copyPad (n : Nat) (src : Bytes) : Bytes := src.take n ++ List.replicate (n - src.length) 0#8

namespace Message

/-- The Go zero value `Message{}`. -/
def zero : Message := ⟨0, 0, 0, 0, []⟩

/-- `Message.MarshalBinary` (message.go 180-193). -/
def marshalBinary (m : Message) : Bytes :=
  m.src.bytes ++ m.dst.bytes
    ++ [m.flags, m.command.command1.setWidth 8, m.command.command2.setWidth 8]
    ++ (if m.flags.extended then copyPad 14 m.payload else [])

/-- `Message.UnmarshalBinary` (message.go 197-215): receiver, data → receiver, error. The
payload of a standard message is not touched. -/
def unmarshalBinary (m : Message) (data : Bytes) : Message × Option Err :=
  match data with
  | s0 :: s1 :: s2 :: d0 :: d1 :: d2 :: f :: c1 :: c2 :: rest =>
    let m : Message :=
      { src := Address.put [s0, s1, s2], dst := Address.put [d0, d1, d2], flags := f,
        command := Command.ofWire f c1 c2, payload := m.payload }
    if Flags.extended f then
      if data.length < 23 then (m, some (.wrapped .bufferTooShort))
      else ({ m with payload := copyPad 14 rest }, none)
    else (m, none)
  | _ => (m, some (.wrapped .bufferTooShort))

/-- `Message.Duplicate` (message.go 221-227). -/
def duplicate (m other : Message) : Bool :=
  m.src == other.src && m.dst == other.dst && m.command == other.command
    && m.flags.maxTTL == other.flags.maxTTL && m.payload == other.payload

/-- `Message.Equals` (message.go 229-235). -/
def equals (m other : Message) : Bool :=
  m.src == other.src && m.dst == other.dst && m.flags == other.flags
    && m.command == other.command && m.payload == other.payload

end Message

/-- `PropagationDelay` (util.go 12-15) in nanoseconds: `time.Second * l * (ttl+1) / 60`.
`ttl+1` is computed in 8 bits. Overflow of the 64-bit product is not modelled (needs a
message length above 3*10^7). -/
def propagationDelay (ttl : Byte) (l : Nat) : Nat := 1000000000 * l * (ttl + 1#8).toNat / 60

end Insteon
