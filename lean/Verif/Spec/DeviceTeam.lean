import Verif.Spec.Team
import Verif.Spec.Live
import Verif.Spec.Failures
import Verif.Spec.Traffic

/-
Specification vocabulary for calls on devices made by goroutines that share a PLM: what it means for a program to be a call on a device over the modem, and what one
goroutine did in a run.
-/

namespace Insteon.Spec

/-- A world, and whether a wait for an acknowledgement in it was longer than the bound. -/
structure Waited (σ : Type) where
  world : σ
  long : Bool
deriving DecidableEq

/-- The PLM as message writer (`PLM.Read` and `PLM.Write`, plm/plm.go 123-205). Waits for more than `fuel` messages are noted and given up. -/
def overModem {σ : Type} (io : PlmIO σ) (retries : Int) (fuel : Nat) : MsgIO (Waited σ) where
  read w := (⟨(Plm.read io w.world).1, w.long⟩, (Plm.read io w.world).2)
  write w m := match Plm.write io retries fuel w.world m with
    | some (s, r) => (⟨s, w.long⟩, r)
    | none => (⟨w.world, true⟩, .panic)

/-- A program is this call on a device through the PLM: in every world it comes to the same as the call, and nothing when the call is still waiting after `fuel` messages. -/
def IsCall (info : DeviceInfo) (c : DeviceCall) (retries : Int) (fuel : Nat) (P : Prog (Option (Out (Option Err)))) : Prop :=
  ∀ (σ : Type) (io : PlmIO σ) (s s' : σ) (r : Out (Option Err)),
    P.run io s = (s', some r) ↔ c.report info (overModem io retries fuel) fuel ⟨s, false⟩ = some (⟨s', false⟩, r)

/-- One access of a goroutine to the PLM. -/
inductive Own where
  | wrote (b : Bytes) (err : Option Err)
  | packet (r : Recv)
  | message (r : Recv)
deriving DecidableEq

/-- What a goroutine did in a run, in order. -/
def stepsBy (i : Nat) (os : List SharedObs) : List Own :=
  os.filterMap fun o => match o with
    | .wrote j b err => if j = i then some (.wrote b err) else none
    | .tookPkt j r => if j = i then some (.packet r) else none
    | .tookMsg j r => if j = i then some (.message r) else none
    | _ => none

/-- The bytes written in some steps. -/
def bytesIn (h : List Own) : List Bytes :=
  h.filterMap fun o => match o with
    | .wrote b _ => some b
    | _ => none

/-- A message received: the bytes are those of the message. -/
def Received (p : Packet) (x : Message) : Prop := Message.zero.unmarshalBinary p.payload = (x, none)

/-- The modem's confirmation of a request to send a message: the request repeated, after three bytes where received messages have the sender, with a positive status. -/
def ConfirmsSend (m : Message) (p : Packet) : Prop := ∃ a : Bytes, a.length = 3 ∧ p = ⟨0x62#8, a ++ afterSource m, 0x06#8⟩

/-- The steps in which a message is sent: the request is written, at most `retries` times again, and the goroutine was given the modem's confirmation of the request and after
that an acknowledgement of the device the message is for. -/
def Delivered (retries : Nat) (m : Message) (h : List Own) : Prop :=
  ∃ tries p others q x, h = tries ++ .packet (.packet p) :: others ++ [.message (.packet q)] ∧
    ConfirmsSend m p ∧ Received q x ∧ x.src = m.dst ∧ x.flags.ack = true ∧
    (∃ k, 1 ≤ k ∧ k ≤ retries + 1 ∧ bytesIn tries = List.replicate k (request m)) ∧ ∀ o ∈ others, ∃ r, o = .message r

end Insteon.Spec
