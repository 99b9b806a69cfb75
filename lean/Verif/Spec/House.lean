import Verif.Model.Plm
import Verif.Spec.Wire
import Verif.Spec.Control

/-
Specification of a house: a modem that hands commands on to devices which carry them out, on a line on which commands and answers may be lost.
-/

namespace Insteon.Spec

/-- What becomes of one frame written to the modem: whether the serial port reports an error; whether the device addressed carries the command out;
what the modem replies and which messages come from the network afterwards. `none` stands for nothing in time. -/
structure FrameFate where
  err : Option Err
  done : Bool
  replies : List (Option Packet)
  messages : List (Option Packet)

/-- The number of frames written so far, replies and messages not read yet, and the commands carried out so far, as bytes. -/
structure House where
  turn : Nat
  replies : List (Option Packet)
  messages : List (Option Packet)
  runs : List (List (BitVec 8))
deriving DecidableEq

/-- Next of what is to be read. -/
def House.take : List (Option Packet) → List (Option Packet) × Recv
  | [] => ([], .timeout)
  | none :: rest => (rest, .timeout)
  | some p :: rest => (rest, .packet p)

/-- The house as the world of a PLM, given the fate of every frame, which may depend on its number and its bytes. The two bytes `02 62` before a command are not for the device. -/
def House.io (fates : Nat → List (BitVec 8) → FrameFate) : PlmIO House where
  tx := fun h b =>
    let f := fates h.turn b
    (⟨h.turn + 1, h.replies ++ f.replies, h.messages ++ f.messages, if f.done then h.runs ++ [b.drop 2] else h.runs⟩, f.err)
  rxPacket := fun h => let r := House.take h.replies; ({ h with replies := r.1 }, r.2)
  rxMsg := fun h => let r := House.take h.messages; ({ h with messages := r.1 }, r.2)

/-- A message that acknowledges something on behalf of the device with this address. -/
def AcksFor (a : BitVec 32) (p : Packet) : Prop :=
  9 ≤ p.payload.length ∧ isAck (p.payload.getD 6 0) ∧
    a.toNat = (p.payload.getD 0 0).toNat * 65536 + (p.payload.getD 1 0).toNat * 256 + (p.payload.getD 2 0).toNat

/-- The modem refuses a frame: command and status byte. -/
def RefusesFrame (p : Packet) : Prop := 0x60 ≤ p.command.toNat ∧ p.ack = 0x15

/-- A refused frame is not handed on, and a device acknowledges what it has carried out only. The errors of the port are those of the system. -/
structure FrameFate.Honest (a : BitVec 32) (f : FrameFate) : Prop where
  refused : ∀ p, some p ∈ f.replies → RefusesFrame p → f.done = false
  acked : ∀ p, some p ∈ f.messages → AcksFor a p → f.done = true
  system : f.err ≠ some .plmNak ∧ f.err ≠ some .plmReadTimeout

/-- The modem replies in time or not at all. -/
def FrameFate.Prompt (f : FrameFate) : Prop := f.replies = [] ∨ ∃ p, f.replies = [some p]

/-- The number of messages that come after writing the same frame so many times. -/
def House.traffic (fates : Nat → List (BitVec 8) → FrameFate) (b : List (BitVec 8)) (turn : Nat) : Nat → Nat
  | 0 => 0
  | n + 1 => (fates turn b).messages.length + House.traffic fates b (turn + 1) n

/-- The bytes of a message as a device gets them: its address, flags, command bytes and data. -/
def commandBytes (m : Message) : List (BitVec 8) :=
  [BitVec.ofNat 8 (m.dst.toNat / 65536), BitVec.ofNat 8 (m.dst.toNat / 256), BitVec.ofNat 8 m.dst.toNat, m.flags,
    BitVec.ofNat 8 (m.command.toNat / 256), BitVec.ofNat 8 m.command.toNat] ++ (if isExtended m.flags then fit 14 m.payload else [])

/-- The packet is a whole message. -/
def Whole (p : Packet) : Prop := 9 ≤ p.payload.length ∧ (isExtended (p.payload.getD 6 0) → 23 ≤ p.payload.length)

/-- The message is an answer of some device. -/
def IsAnswer (p : Packet) : Prop := isAck (p.payload.getD 6 0) ∨ isNak (p.payload.getD 6 0)

/-- The modem's confirmation of a frame `02 62 …`: the same with the modem's address in front and a positive status. -/
def Confirmed (frame : List (BitVec 8)) (p : Packet) : Prop :=
  p.command = 0x62 ∧ p.ack = 0x06 ∧ ∃ a b c, p.payload = a :: b :: c :: frame.drop 2

/-- What happens to a frame on a line on which nothing is late and nothing comes twice: the modem replies in time or not at all; the messages that come are
whole and there is one answer among them at most; an answer comes only to a frame the modem has confirmed, a positive one only if the command was
carried out and a negative one only if it was not; a refused frame is not handed on; after an error of the port there is no reply. Otherwise everything may be lost or refused, and other messages may come. -/
structure FrameFate.Punctual (frame : List (BitVec 8)) (f : FrameFate) : Prop where
  prompt : f.Prompt
  inTime : ∀ m ∈ f.messages, ∃ p, m = some p ∧ Whole p
  oneAnswer : ∀ p q x y z, f.messages = x ++ some p :: y ++ some q :: z → IsAnswer p → ¬ IsAnswer q
  confirmed : ∀ p, some p ∈ f.messages → IsAnswer p → f.err = none ∧ ∃ r, f.replies = [some r] ∧ Confirmed frame r
  acked : ∀ p, some p ∈ f.messages → isAck (p.payload.getD 6 0) → f.done = true
  nacked : ∀ p, some p ∈ f.messages → isNak (p.payload.getD 6 0) → f.done = false
  refused : ∀ p, some p ∈ f.replies → RefusesFrame p → f.done = false
  system : f.err ≠ some .plmNak ∧ f.err ≠ some .plmReadTimeout ∧ f.err ≠ some .devNak ∧ (f.err ≠ none → f.replies = [])

/-- Nothing is waiting to be read from the modem, and no answer from the devices. -/
def House.Clean (h : House) : Prop := h.replies = [] ∧ ∀ m ∈ h.messages, ∃ p, m = some p ∧ Whole p ∧ ¬ IsAnswer p

/-- The calls of a history one after the other: the house at the end and what the calls returned. -/
def House.history (fates : Nat → List (BitVec 8) → FrameFate) (retries : Int) (fuel : Nat) : House → List Message → Option (House × List MRes)
  | h, [] => some (h, [])
  | h, m :: ms => match Plm.write (House.io fates) retries fuel h m with
    | none => none
    | some (h', r) => (House.history fates retries fuel h' ms).map fun t => (t.1, r :: t.2)

/-- The commands of those calls that are marked, in order. -/
def marked : List Message → List Bool → List (List (BitVec 8))
  | m :: ms, true :: bs => commandBytes m :: marked ms bs
  | _ :: ms, false :: bs => marked ms bs
  | _, _ => []

end Insteon.Spec
