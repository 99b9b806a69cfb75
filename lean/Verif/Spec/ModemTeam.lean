import Verif.Spec.DeviceTeam
import Verif.Spec.ModemFailures
import Verif.Spec.ModemDb

/-
Specification vocabulary for calls on the modem made by goroutines that share a PLM: what it means for a program to be a call on the modem, all that was written, and a
modem with its link database on the other end.
-/

namespace Insteon.Spec

/-- A program is this call on the modem: in every world it comes to the same as the call, and nothing when the call is still waiting after `fuel` packets. -/
def IsModemCall (u : ModemUse) (retries fuel : Nat) (P : Prog (Option (Out (Option Err)))) : Prop :=
  ∀ (σ : Type) (io : PlmIO σ) (s s' : σ) (r : Out (Option Err)), P.run io s = (s', some r) ↔ u.tell io retries fuel s = some (s', r)

/-- Everything the goroutines wrote, in order. -/
def allWritten (os : List SharedObs) : List (List (BitVec 8)) :=
  os.filterMap fun o => match o with
    | .wrote _ b _ => some b
    | _ => none

/-- The frames that change the modem's link database begin with these bytes. -/
def managesLinks (b : List (BitVec 8)) : Bool := b.take 2 == [0x02#8, 0x6f#8]

/-- The links a call is to store in the modem. -/
def ModemUse.stores : ModemUse → List LinkRecord
  | writeLinks _ given => given
  | _ => []

/-- The modem at the end of a run in which it got everything that was written, at once, and all its answers, and nothing else, arrived in order and none of them late or
lost; nothing if the run was not like that. -/
def servedBy (k : ModemKind) : ModemSt → List SharedObs → Option ModemSt
  | m, [] => if m.inbox = [] then some m else none
  | m, .wrote _ b none :: os => servedBy k (k.receive m b) os
  | m, .queued p :: os => if m.inbox.head? = some p then servedBy k { m with inbox := m.inbox.tail } os else none
  | m, .tookPkt _ (.packet _) :: os => servedBy k m os
  | m, .none :: os => servedBy k m os
  | _, _ => none

end Insteon.Spec
