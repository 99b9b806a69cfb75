import Verif.Model.ModemCmd
import Verif.Spec.IcDevice
import Verif.Spec.Modem

/-
Specification vocabulary for the commands to the modem.
-/

namespace Insteon.Spec

/-- The world with a record of everything that was written to the port. -/
def logged {σ : Type} (io : PlmIO σ) : PlmIO (σ × List (List (BitVec 8))) where
  tx := fun s b => (((io.tx s.1 b).1, s.2 ++ [b]), (io.tx s.1 b).2)
  rxPacket := fun s => (((io.rxPacket s.1).1, s.2), (io.rxPacket s.1).2)
  rxMsg := fun s => (((io.rxMsg s.1).1, s.2), (io.rxMsg s.1).2)

/-- The documented bytes of a command to the modem; nothing for the calls that are not implemented. -/
def frameOf : ModemCall → Option (List (BitVec 8))
  | .info => some [0x02, 0x60]
  | .reset => some [0x02, 0x67]
  | .config => some [0x02, 0x73]
  | .setConfig c => some [0x02, 0x6b, BitVec.ofNat 8 (c.toNat / 16 * 16)]
  | .enterLinking g => some [0x02, 0x64, 0x03, g]
  | .exitLinking => some [0x02, 0x65]
  | .enterUnlinking g => some [0x02, 0x64, 0xff, g]
  | .setCategory _ | .rfSleep | .updateLinks _ => none

/-- How often a command may be sent. -/
def attempts (retries : Nat) : ModemCall → Nat
  | .info | .reset | .config | .setConfig _ => retries + 1
  | .enterLinking _ | .exitLinking | .enterUnlinking _ => 1
  | .setCategory _ | .rfSleep | .updateLinks _ => 0

/-- The modem confirms a frame: it answers with the same command and a positive status, and repeats what the frame said unless the frame asks
for something. -/
def Confirms (frame : List (BitVec 8)) (p : Packet) : Prop :=
  p.ack = 0x06#8 ∧ frame[1]? = some p.command ∧ (p.command ≠ 0x60#8 → p.command ≠ 0x73#8 → p.payload = frame.drop 2)

/-- A port behind which there is a modem: every packet was framed as the protocol says, and the line is never closed. -/
structure Framed {σ : Type} (io : PlmIO σ) : Prop where
  frame : ∀ s p, (io.rxPacket s).2 = .packet p → ∃ f : Frame, f.wellFormed ∧ p = f.packet
  opened : ∀ s, (io.rxPacket s).2 ≠ .closed

/-- What a modem says about itself, as it is on the line: three bytes of address, two of category, one of firmware. -/
def Describes (i : Info) (body : List (BitVec 8)) : Prop :=
  ∃ a b c : BitVec 8, body.take 6 = [a, b, c, i.devCat0, i.devCat1, i.firmware] ∧
    i.address.toNat = a.toNat * 65536 + b.toNat * 256 + c.toNat

/-- The results of asking for the address of the modem again and again, and the states after them. -/
def askAddress {σ : Type} (io : PlmIO σ) (retries : Nat) : Nat → σ → Address → List (σ × Out Address)
  | 0, _, _ => []
  | n + 1, s, cached =>
    let r := Plm.address io retries s cached
    r :: askAddress io retries n r.1 (match r.2 with | .ok a => a | _ => cached)

end Insteon.Spec
