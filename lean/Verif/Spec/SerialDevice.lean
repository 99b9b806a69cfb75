import Verif.Spec.Live
import Verif.Spec.AldbDevice
import Verif.Props.Plm

/-
Specification of a device with a link database at the far end of modem and network, seen from the serial line: the host
hands the modem requests to send messages, the modem accepts or refuses them, the device carries out what reaches it and
answers, and the line carries noise and messages of other devices all the time.
-/

namespace Insteon.Spec

/-- What becomes of a request the modem has accepted: the device carries it out and acknowledges it; the device rejects it;
it is carried out but the acknowledgement is lost; it does not reach the device. Answers come with noise in front and
further messages behind. -/
inductive Outcome where
  | confirms (noise : List (BitVec 8)) (ack : Message) (later : Traffic)
  | rejects (noise : List (BitVec 8)) (nak : Message) (later : Traffic)
  | unheard
  | lost

/-- The modem's answer to a request to send a message, with the messages and the noise around it. -/
inductive Turn where
  | refuse (w : Waiting)
  | accept (w : Waiting) (o : Outcome)

namespace Outcome

/-- Whether the device carries the command out. -/
def done : Outcome → Bool
  | confirms .. => true
  | rejects .. => false
  | unheard => true
  | lost => false

/-- What the line carries because of it. -/
def items : Outcome → Items
  | confirms noise m later => (noise, heard m) :: later.items
  | rejects noise m later => (noise, heard m) :: later.items
  | unheard => []
  | lost => []

/-- The same as messages. -/
def messages : Outcome → List Message
  | confirms _ m later => m :: later.messages
  | rejects _ m later => m :: later.messages
  | unheard => []
  | lost => []

/-- The messages behind the answer. -/
def behind : Outcome → List Message
  | confirms _ _ later => later.messages
  | rejects _ _ later => later.messages
  | unheard => []
  | lost => []

/-- What it is for the sender. -/
def fate : Outcome → Fate
  | confirms .. => .done
  | rejects .. => .lost .devNak
  | unheard => .unconfirmed (.wrapped .insReadTimeout)
  | lost => .lost (.wrapped .insReadTimeout)

end Outcome

/-- Traffic that does not come from a device in answer to something. -/
def Traffic.foreign (device : BitVec 32) (t : Traffic) : Prop := t.ok ∧ ∀ m ∈ t.messages, ¬ AnswerFrom device m

/-- The same around an answer of the modem. -/
def Waiting.foreign (device : BitVec 32) (w : Waiting) : Prop := w.ok ∧ ∀ m ∈ w.messages, ¬ AnswerFrom device m

/-- A positive answer of the device is one, and a negative one likewise; the rest of the traffic is that of others. -/
def Outcome.lawful (device : BitVec 32) : Outcome → Prop
  | .confirms noise m later => Quiet noise ∧ Proper m ∧ AnswerFrom device m ∧ ¬ isNak m.flags ∧ later.foreign device
  | .rejects noise m later => Quiet noise ∧ Proper m ∧ AnswerFrom device m ∧ isNak m.flags ∧ later.foreign device
  | .unheard => True
  | .lost => True

namespace Turn

/-- Only harmless noise and real messages. -/
def lawful (device : BitVec 32) : Turn → Prop
  | refuse w => w.foreign device
  | accept w o => w.foreign device ∧ o.lawful device

/-- When nothing is said about a request: it is accepted, carried out and acknowledged. -/
def plain (device : BitVec 32) : Turn := .accept ⟨[], [], []⟩ (.confirms [] ⟨device, 0, 0x2f#8, 0x2f00#64, []⟩ [])

end Turn

/-- With `left` messages unread at the beginning, no more than ten messages ever wait to be read: the messages up to the
device's answer are read by the sender, the others stay. -/
def Roomy : Nat → List Turn → Prop
  | left, [] => left + 1 ≤ 10
  | left, .refuse w :: rest => left + w.messages.length ≤ 10 ∧ Roomy (left + w.messages.length) rest
  | left, .accept w o :: rest =>
    left + w.messages.length + o.messages.length ≤ 10 ∧ Roomy o.behind.length rest

/-- What becomes of each message written, when a request is repeated up to `retries` times: `n` is the number of refusals
of the current one so far. -/
def fatesOf (retries : Nat) : Nat → List Turn → List Fate
  | _, [] => []
  | n, .refuse _ :: rest => if n = retries then .lost .plmNak :: fatesOf retries 0 rest else fatesOf retries (n + 1) rest
  | _, .accept _ o :: rest => o.fate :: fatesOf retries 0 rest

/-- The device and what is going to happen to the requests to come; afterwards all goes well. -/
structure FarDevice where
  mem : Nat → BitVec 8
  turns : List Turn

/-- The message in the body of a request: three bytes of address, flags, two command bytes, user data. -/
def requested : List (BitVec 8) → Option Message
  | a :: b :: c :: f :: x :: y :: rest =>
    some ⟨0, BitVec.ofNat 32 (a.toNat * 65536 + b.toNat * 256 + c.toNat), f, BitVec.ofNat 64 (x.toNat * 256 + y.toNat), rest⟩
  | _ => none

/-- The memory of the device after a message has been sent: only messages to the device count. -/
def sentTo (device : BitVec 32) (mem : Nat → BitVec 8) (body : List (BitVec 8)) : Nat → BitVec 8 :=
  match requested body with
  | some m => if m.dst = device then obey mem m else mem
  | none => mem

/-- Modem and device at work on a frame from the host. -/
def FarDevice.react (device : BitVec 32) (s : FarDevice) (frame : List (BitVec 8)) : FarDevice × List (BitVec 8) :=
  match frame with
  | 0x02#8 :: 0x62#8 :: body =>
    match s.turns.headD (Turn.plain device) with
    | .refuse w => (⟨s.mem, s.turns.tail⟩, line (w.before.items ++ [(w.noise, ⟨0x62#8, body ++ [0x15#8]⟩)] ++ w.after.items))
    | .accept w o =>
      (⟨if o.done then sentTo device s.mem body else s.mem, s.turns.tail⟩,
        line (w.before.items ++ [(w.noise, ⟨0x62#8, body ++ [0x06#8]⟩)] ++ w.after.items ++ o.items))
  | _ => (s, [])

end Insteon.Spec
