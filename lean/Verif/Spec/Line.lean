import Verif.Spec.Live
import Verif.Spec.Wire
import Verif.Spec.Results
import Verif.Model.Live

/-
Specification vocabulary for a network behind a serial line: what the modem and the devices do with a request, and the same network seen as a message writer, without
bytes, frames, reader and channels.
-/

namespace Insteon.Spec

/-- What the modem does with a request to send a message. -/
inductive Verdict where
  | accepts
  | refuses
  | silent
deriving DecidableEq

/-- What the host makes of it. -/
def Verdict.error : Verdict → Option Err
  | .accepts => none
  | .refuses => some .plmNak
  | .silent => some (.wrapped .plmReadTimeout)

/-- The network behind the modem: what becomes of it with a request (destination, flags, command and user data), what the modem says and which messages it
has received when the host looks again. -/
abbrev Network (δ : Type) := δ → List (BitVec 8) → δ × Verdict × Waiting

/-- All messages are real messages and the noise contains nothing like a frame. -/
def Network.Lawful {δ : Type} (net : Network δ) : Prop := ∀ d body, (net d body).2.2.ok

/-- What the line carries for it: the messages before and after the modem's answer, which is the request repeated and a status byte. -/
def answerItems (body : List (BitVec 8)) : Verdict → Waiting → Items
  | .accepts, w => w.before.items ++ [(w.noise, ⟨0x62#8, body ++ [0x06#8]⟩)] ++ w.after.items
  | .refuses, w => w.before.items ++ [(w.noise, ⟨0x62#8, body ++ [0x15#8]⟩)] ++ w.after.items
  | .silent, w => w.before.items ++ w.after.items

/-- The modem at the other end of the serial line. -/
def Network.modem {δ : Type} (net : Network δ) (d : δ) (frame : List (BitVec 8)) : δ × List (BitVec 8) :=
  match frame with
  | 0x02#8 :: 0x62#8 :: body => ((net d body).1, line (answerItems body (net d body).2.1 (net d body).2.2))
  | _ => (d, [])

/-- The network and the messages the host has not read yet. -/
structure Inbox (δ : Type) where
  net : δ
  unread : List Message

/-- At most ten messages are kept; what comes after that is lost. -/
def keep (unread new : List Message) : List Message := (unread ++ new).take 10

/-- A request, repeated as long as the modem refuses, `n` times at most. -/
def post {δ : Type} (net : Network δ) (body : List (BitVec 8)) : Nat → Inbox δ → Inbox δ × Verdict
  | 0, s => (s, .refuses)
  | n + 1, s => match net s.net body with
    | (d, .refuses, w) => post net body n ⟨d, keep s.unread w.messages⟩
    | (d, v, w) => (⟨d, keep s.unread w.messages⟩, v)

/-- The first acknowledgement from a device, positive or negative; the messages before it are passed over, and all if there is none. -/
def answerOf (dst : BitVec 32) : List Message → List Message × MRes
  | [] => ([], .ret none (some (.wrapped .insReadTimeout)))
  | m :: ms => if m.src = dst ∧ (isAck m.flags ∨ isNak m.flags) then (ms, .ret (some m) (if isNak m.flags then some .devNak else none)) else answerOf dst ms

/-- The network as message writer. -/
def Network.writer {δ : Type} (net : Network δ) (retries : Nat) : MsgIO (Inbox δ) where
  read s := match s.unread with
    | [] => (s, .ret none (some (.wrapped .insReadTimeout)))
    | m :: ms => (⟨s.net, ms⟩, .ret (some m) none)
  write s m := match post net (afterSource m) (retries + 1) s with
    | (s, .accepts) => (⟨s.net, (answerOf m.dst s.unread).1⟩, (answerOf m.dst s.unread).2)
    | (s, v) => (s, .ret none v.error)

/-- What several calls on devices come to, one after the other, with all they return; a call that is still waiting after `fuel` messages is the last one. -/
def results {σ : Type} (io : MsgIO σ) (fuel : Nat) (s : σ) : List (DeviceInfo × DeviceCall) → List (Option (Σ c : DeviceCall, Option Ldb × Out c.Value))
  | [] => []
  | (info, c) :: cs => match c.result info io fuel s with
    | some (s, r) => some ⟨c, r⟩ :: results io fuel s cs
    | none => [none]

/-- The PLM with an open port, nothing on the line that has not been read, no answer of the modem left over, and the unread messages in its queue. -/
def OnLine {δ : Type} (w : Wired δ) (s : Inbox δ) : Prop :=
  w = ⟨⟨s.unread.map fun m => (heard m).packet, [], false⟩, [], s.net⟩ ∧ s.unread.length ≤ 10 ∧ ∀ m ∈ s.unread, Proper m

end Insteon.Spec
