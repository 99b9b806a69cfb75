import Verif.Model.Live
import Verif.Spec.Modem

/-
Specification vocabulary for a running PLM: what the serial line carries when the modem and the devices
behave as documented. Independent of the reader and of the queues.
-/

namespace Insteon.Spec

/-- A message as it exists on the network: 24-bit addresses, the command class that belongs to the flags, and
a payload of 14 bytes exactly for extended messages. -/
structure Proper (m : Message) : Prop where
  src : m.src.toNat < 2 ^ 24
  dst : m.dst.toNat < 2 ^ 24
  cls : m.command.toNat / 65536 = commandClass m.flags
  payload : if isExtended m.flags then m.payload.length = 14 else m.payload = []

/-- The three bytes of an address, most significant first. -/
def addr3 (a : BitVec 32) : List (BitVec 8) :=
  [BitVec.ofNat 8 (a.toNat / 65536), BitVec.ofNat 8 (a.toNat / 256), BitVec.ofNat 8 a.toNat]

/-- Destination, flags, the two command bytes and the user data of a message. -/
def afterSource (m : Message) : List (BitVec 8) :=
  addr3 m.dst ++ [m.flags, BitVec.ofNat 8 (m.command.toNat / 256), BitVec.ofNat 8 m.command.toNat]
    ++ (if isExtended m.flags then fit 14 m.payload else [])

/-- What the host sends to the modem to have a message sent. -/
def request (m : Message) : List (BitVec 8) := 0x02#8 :: 0x62#8 :: afterSource m

/-- The modem's answer to that request: the request repeated, then a status byte. -/
def reply (m : Message) (status : BitVec 8) : Frame := ⟨0x62#8, afterSource m ++ [status]⟩

/-- What the modem sends to the host when it has received a message. -/
def heard (m : Message) : Frame :=
  ⟨if isExtended m.flags then 0x51#8 else 0x50#8, addr3 m.src ++ afterSource m⟩

/-- Frames on the line, each with the noise in front of it. -/
abbrev Items := List (List (BitVec 8) × Frame)

/-- The bytes of some frames with noise. -/
def line (items : Items) : List (BitVec 8) := items.flatMap fun it => it.1 ++ it.2.bytes

/-- Messages received, each with the noise in front of it. -/
abbrev Traffic := List (List (BitVec 8) × Message)

/-- The messages without the noise. -/
def Traffic.messages (t : Traffic) : List Message := t.map (·.2)

/-- Traffic as frames. -/
def Traffic.items (t : Traffic) : Items := t.map fun x => (x.1, heard x.2)

/-- The noise contains nothing that looks like a frame, and the messages are real messages. -/
def Traffic.ok (t : Traffic) : Prop := ∀ x ∈ t, Quiet x.1 ∧ Proper x.2

/-- What comes in while the host waits for the modem's reply: messages received before it, noise and messages
received after it. -/
structure Waiting where
  before : Traffic
  noise : List (BitVec 8)
  after : Traffic

/-- The messages among it. -/
def Waiting.messages (w : Waiting) : List Message := w.before.messages ++ w.after.messages

/-- The frames, for a request and the status the modem reports. -/
def Waiting.items (w : Waiting) (m : Message) (status : BitVec 8) : Items :=
  w.before.items ++ [(w.noise, reply m status)] ++ w.after.items

/-- Only real messages and harmless noise. -/
def Waiting.ok (w : Waiting) : Prop := w.before.ok ∧ Quiet w.noise ∧ w.after.ok

/-- The next `k` reads find something and never more than ten messages pile up: `b` are waiting already and the
list says how many arrive before each of the next reads. -/
def InTime : Nat → Nat → List Nat → Prop
  | _, 0, _ => True
  | b, k + 1, [] => 1 ≤ b ∧ InTime (b - 1) k []
  | b, k + 1, c :: cs => 1 ≤ b + c ∧ b + c ≤ 10 ∧ InTime (b + c - 1) k cs

/-- Several messages written one after the other: the results in order. -/
def writes {σ : Type} (io : PlmIO σ) (retries : Int) (fuel : Nat) : σ → List Message → Option (σ × List MRes)
  | s, [] => some (s, [])
  | s, m :: ms =>
    match Plm.write io retries fuel s m with
    | none => none
    | some (s1, r) => (writes io retries fuel s1 ms).map fun x => (x.1, r :: x.2)

end Insteon.Spec
