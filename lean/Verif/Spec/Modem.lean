import Verif.Spec.Wire
import Verif.Model.Packet

/-
Specification of what a modem puts on the serial line (PLM developer's guide): frames of
known length. Independent of the reader.
-/

namespace Insteon.Spec

/-- Command numbers and the number of bytes after the command byte in modem-to-host
direction. 0x62 is the echo of a standard message; extended ones are 14 bytes longer. -/
def lengthTable : List (Nat × Nat) :=
  [(0x15, 1), (0x50, 9), (0x51, 23), (0x52, 2), (0x53, 8), (0x54, 1), (0x55, 0), (0x56, 5),
   (0x57, 8), (0x58, 1), (0x60, 7), (0x61, 4), (0x62, 7), (0x63, 3), (0x64, 3), (0x65, 1),
   (0x66, 4), (0x67, 1), (0x68, 2), (0x69, 1), (0x6a, 1), (0x6b, 2), (0x6c, 1), (0x6d, 1),
   (0x6e, 1), (0x6f, 10), (0x70, 2), (0x71, 3), (0x72, 1), (0x73, 4)]

/-- Command byte known to the protocol. -/
def Known (c : BitVec 8) : Prop := ∃ n, (c.toNat, n) ∈ lengthTable

/-- A frame: command byte and body. -/
structure Frame where
  cmd : BitVec 8
  body : List (BitVec 8)

/-- A frame the modem can send. -/
def Frame.wellFormed (f : Frame) : Prop :=
  if f.cmd = 0x62#8 then
    ∃ fl, f.body[3]? = some fl ∧ f.body.length = if isExtended fl then 21 else 7
  else (f.cmd.toNat, f.body.length) ∈ lengthTable

/-- Bytes of a frame on the line. -/
def Frame.bytes (f : Frame) : List (BitVec 8) := 0x02#8 :: f.cmd :: f.body

/-- The packet a frame stands for: replies to host commands (0x60 and up) end in a status byte;
the echo of a sent message lacks the source address, which is filled in as zeros. -/
def Frame.packet (f : Frame) : Packet :=
  if 0x60 ≤ f.cmd.toNat then
    { command := f.cmd,
      payload := (if f.cmd = 0x62#8 then [0#8, 0#8, 0#8] else []) ++ f.body.dropLast,
      ack := f.body.getLastD 0#8 }
  else { command := f.cmd, payload := f.body, ack := 0#8 }

/-- Line noise: no start-of-text byte followed by a known command byte. -/
def Quiet (s : List (BitVec 8)) : Prop :=
  ¬ ∃ a c b, s = a ++ 0x02#8 :: c :: b ∧ Known c

/-- Number of bytes after the command byte in host-to-modem direction (no status byte);
0x62 is the standard message. -/
def hostLengthTable : List (Nat × Nat) :=
  [(0x60, 0), (0x61, 3), (0x62, 6), (0x63, 2), (0x64, 2), (0x65, 0), (0x66, 3), (0x67, 0),
   (0x68, 1), (0x69, 0), (0x6a, 0), (0x6b, 1), (0x6c, 0), (0x6d, 0), (0x6e, 0), (0x6f, 9),
   (0x70, 1), (0x71, 2), (0x72, 0), (0x73, 0)]

/-- A frame the host can send. -/
def Frame.hostFormed (f : Frame) : Prop :=
  if f.cmd = 0x62#8 then
    ∃ fl, f.body[3]? = some fl ∧ f.body.length = if isExtended fl then 20 else 6
  else (f.cmd.toNat, f.body.length) ∈ hostLengthTable

/-- Length of what the host sends after a command byte, as in the table of host commands. -/
def HostPayload (cmd : BitVec 8) (payload : List (BitVec 8)) : Prop :=
  if cmd = 0x62#8 then payload.length = 6 ∨ payload.length = 20
  else (cmd.toNat, payload.length + 1) ∈ lengthTable

end Insteon.Spec
