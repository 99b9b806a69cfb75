import Verif.Spec.ModemCalls
import Verif.Spec.Failures
import Verif.Spec.ModemCmd
import Verif.Spec.Live

/-
Specification vocabulary for calls on the modem: ports that note what went wrong, the errors of all calls, and what a call may write.
-/

namespace Insteon.Spec

/-- A world, the first failure of the port (a write that failed, or nothing came in time), and whether the port was used after it. -/
structure PortWatch (σ : Type) where
  world : σ
  failed : Option Err
  more : Bool

/-- The failure of waiting for the modem, with the error for it. -/
def lateness (e : Err) : Recv → Option Err
  | .timeout => some e
  | _ => none

/-- A port that notes the first failure, and whether it is used again. -/
def watchPort {σ : Type} (io : PlmIO σ) : PlmIO (PortWatch σ) where
  tx w b := (⟨(io.tx w.world b).1, w.failed.or (io.tx w.world b).2, w.more || w.failed.isSome⟩, (io.tx w.world b).2)
  rxPacket w := (⟨(io.rxPacket w.world).1, w.failed.or (lateness (.wrapped .plmReadTimeout) (io.rxPacket w.world).2), w.more || w.failed.isSome⟩, (io.rxPacket w.world).2)
  rxMsg w := (⟨(io.rxMsg w.world).1, w.failed.or (lateness (.wrapped .insReadTimeout) (io.rxMsg w.world).2), w.more || w.failed.isSome⟩, (io.rxMsg w.world).2)

/-- Errors of the port itself, and not one of the three with which the library tells itself that the modem refused, was late or answered something else. -/
def Foreign (e : Err) : Prop := e ≠ .plmNak ∧ e ≠ .plmReadTimeout ∧ e ≠ .wrongPayload

namespace ModemUse

/-- The error of a call on the modem over the port `io`; nothing if it is still waiting after `fuel` packets. Asking for the address and for the text of the modem gives
no error. -/
def tell {σ : Type} (io : PlmIO σ) (retries : Nat) (fuel : Nat) (s : σ) : ModemUse → Option (σ × Out (Option Err))
  | single c => some (c.exec io retries s)
  | address cached => DeviceCall.tells (fun _ => none) (Plm.address io retries s cached)
  | text cached => some ((Plm.string io retries s cached).1, errorAmong (fun _ => none) (Plm.string io retries s cached).2.2)
  | readPacket => some ((Plm.readPacket io s).1, (Plm.readPacket io s).2.error)
  | links cached => DeviceCall.tellsLate Prod.snd (PlmLinks.links (Plm.asWriter io) retries fuel s cached)
  | writeLinks cached given => DeviceCall.tells Prod.snd (PlmLinks.writeLinks (Plm.asWriter io) s cached given)
  | linkedDevices cached => DeviceCall.tellsLate Prod.snd (PlmLinks.iterateDevices (Plm.asWriter io) retries fuel s cached)
  | report sort cached => (plmInfoCmd sort io retries fuel s cached).map fun r => (r.1, r.2.2)

/-- The calls that return an error. -/
def Tells : ModemUse → Prop
  | address _ => False
  | text _ => False
  | _ => True

/-- A record of the link database as it is written to the modem: flags, group, address and three bytes of data. -/
def recordBytes (l : LinkRecord) : List (BitVec 8) := [l.flags, l.group] ++ addr3 l.address ++ [l.d0, l.d1, l.d2]

/-- Deleting a record of the modem: command 6f, control code 80. -/
def deleteFrame (l : LinkRecord) : List (BitVec 8) := [0x02, 0x6f, 0x80] ++ recordBytes l

/-- Writing a record of the modem: command 6f, control code 40 for controllers and 41 for responders. -/
def writeFrame (l : LinkRecord) : List (BitVec 8) := [0x02, 0x6f, if l.flags.toNat / 64 % 2 = 1 then 0x40 else 0x41] ++ recordBytes l

/-- What a call on the modem may write, in order: its own requests, each at least once and repeated at most `retries` times (three times for those that change records).
The number of links that are asked for depends on the modem. Replacing the links deletes those known before one after the other, and then writes the new ones one after the
other; where the modem's answer to one shows that it has got something else, one record is deleted and this link written again. If the call succeeds (`ok`), nothing of
this has been left out. -/
def Writes (retries : Nat) (ok : Prop) : ModemUse → List (List (BitVec 8)) → Prop
  | single c, fs => ∃ k ≤ attempts retries c, (0 < attempts retries c → 1 ≤ k) ∧ fs = List.replicate k ((frameOf c).getD [])
  | address cached, fs => if cached = 0#32 then ∃ k, 1 ≤ k ∧ k ≤ retries + 1 ∧ fs = List.replicate k [0x02, 0x60] else fs = []
  | text cached, fs => if cached = 0#32 then ∃ k, 1 ≤ k ∧ k ≤ retries + 1 ∧ fs = List.replicate k [0x02, 0x60] else fs = []
  | readPacket, fs => fs = []
  | links _, fs => ∃ a b, 1 ≤ a ∧ a ≤ retries + 1 ∧ fs = List.replicate a [0x02, 0x69] ++ List.replicate b [0x02, 0x6a]
  | linkedDevices _, fs => ∃ a b, 1 ≤ a ∧ a ≤ retries + 1 ∧ fs = List.replicate a [0x02, 0x69] ++ List.replicate b [0x02, 0x6a]
  | writeLinks cached given, fs =>
    ∃ (ds : List Nat) (ws : List (Nat × Option (LinkRecord × Nat × Nat))), ds.length ≤ cached.length ∧ ws.length ≤ given.length ∧ (ws ≠ [] → ds.length = cached.length) ∧
      (∀ d ∈ ds, 1 ≤ d ∧ d ≤ 4) ∧ (∀ w ∈ ws, 1 ≤ w.1 ∧ w.1 ≤ 4 ∧ ∀ x, w.2 = some x → 1 ≤ x.2.1 ∧ x.2.1 ≤ 4 ∧ x.2.2 ≤ 4) ∧
      (ok → ds.length = cached.length ∧ ws.length = given.length) ∧
      fs = ((cached.zip ds).flatMap fun x => List.replicate x.2 (deleteFrame x.1)) ++
        (given.zip ws).flatMap fun x => List.replicate x.2.1 (writeFrame x.1) ++ (match x.2.2 with
          | none => []
          | some y => List.replicate y.2.1 (deleteFrame y.1) ++ List.replicate y.2.2 (writeFrame x.1))
  | report _ _, fs => ∃ a b c d, 1 ≤ a ∧ a ≤ retries + 1 ∧ b ≤ retries + 1 ∧ c ≤ retries + 1 ∧ (ok → 1 ≤ b ∧ 1 ≤ c) ∧
      fs = List.replicate a [0x02, 0x60] ++ List.replicate b [0x02, 0x73] ++ List.replicate c [0x02, 0x69] ++ List.replicate d [0x02, 0x6a]

end ModemUse

end Insteon.Spec
