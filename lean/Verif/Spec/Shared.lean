import Verif.Model.Shared

/-
Specification for a PLM used by several goroutines: what a call does when it is made alone, the world as one of the calls sees it, and what
the steps of a run show.
-/

namespace Insteon.Spec

/-- The outcome of a call that returns a message. -/
def gave : MRes → JobRes
  | .ret m err => .message m err
  | .panic => .panic

/-- The call made by itself, by the sequential model of plm/plm.go, in any world. -/
def alone {σ : Type} (io : PlmIO σ) (fuel : Nat) (s : σ) : Job → Option JobRes
  | .command pkt retries ignoreNak =>
    match retryWrite (Plm.writePacket io) retries ignoreNak s pkt with
    | (_, .ret ack err) => some (.packet ack err)
    | (_, .panic) => some .panic
  | .write msg retries =>
    (Plm.write io retries fuel s msg).map fun r => gave r.2
  | .read => some (gave (Plm.read io s).2)

/-- A state and the steps still to come. -/
abbrev Ahead := Shared × List SharedEv

/-- Everything up to and including the next step of one goroutine, and what that step shows. -/
def advance (i : Nat) : Shared → List SharedEv → Ahead × SharedObs
  | s, [] => ((s, []), .none)
  | s, .go j late err :: es =>
    if j = i then (((Shared.step s (.go j late err)).1, es), (Shared.step s (.go j late err)).2)
    else advance i (Shared.step s (.go j late err)).1 es
  | s, e :: es => advance i (Shared.step s e).1 es

/-- The world as one goroutine sees it: whatever the modem and the other goroutines do happens between its own accesses. Writing other
bytes than the goroutine did write would be an error. -/
def view (i : Nat) : PlmIO Ahead where
  tx := fun h b => match advance i h.1 h.2 with
    | (h, .wrote _ b' err) => (h, if b' = b then err else some (.other 0))
    | (h, _) => (h, some (.other 0))
  rxPacket := fun h => match advance i h.1 h.2 with
    | (h, .tookPkt _ r) => (h, r)
    | (h, _) => (h, .closed)
  rxMsg := fun h => match advance i h.1 h.2 with
    | (h, .tookMsg _ r) => (h, r)
    | (h, _) => (h, .closed)

/-- The modem's replies that were given out, in order, each with the goroutine that got it. -/
def repliesTaken (os : List SharedObs) : List (Nat × Packet) :=
  os.filterMap fun o => match o with
    | .tookPkt i (.packet p) => some (i, p)
    | _ => none

/-- The received messages that were given out, in order, each with the goroutine that got it. -/
def messagesTaken (os : List SharedObs) : List (Nat × Packet) :=
  os.filterMap fun o => match o with
    | .tookMsg i (.packet p) => some (i, p)
    | _ => none

/-- The packets put in a queue that are received messages, or those that are not. -/
def putAside (messages : Bool) (os : List SharedObs) : List Packet :=
  os.filterMap fun o => match o with
    | .queued p => if (p.command == 0x50#8 || p.command == 0x51#8) = messages then some p else none
    | _ => none

/-- What a goroutine wrote to the serial port. -/
def written (i : Nat) (os : List SharedObs) : List Bytes :=
  os.filterMap fun o => match o with
    | .wrote j b _ => if j = i then some b else none
    | _ => none

end Insteon.Spec
