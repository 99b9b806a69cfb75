import Verif.Model.Reader
import Verif.Model.Message

/-
plm/snoop.go: a passive listener on both directions of a serial line.
-/

namespace Insteon

/-- What is shared between the two `readLoop` goroutines and the reader (plm/snoop.go 11-36): the packets each goroutine
has yet to get out of its stream, and the buffered channel. Simplification: the streams are given from the start; a goroutine
waiting for bytes is a goroutine that does not take its next step. -/
structure SnoopSt where
  fromModem : List Packet
  fromHost : List Packet
  queue : List Packet
deriving DecidableEq, Repr

/-- Atomic steps: the goroutine of a stream handles its next packet, or a pending `Read` completes. -/
inductive SnoopEv where
  | modem
  | host
  | read
deriving DecidableEq, Repr

namespace Snoop

/-- Channel capacity (plm/snoop.go 28). -/
abbrev cap : Nat := 10

/-- The test on a packet (plm/snoop.go 47-48). -/
def forwarded (p : Packet) : Bool :=
  (p.command == PCmd.stdMsgReceived || p.command == PCmd.extMsgReceived || p.command == PCmd.sendInsteonMsg) && !p.isACK

/-- `Snoop(rx, tx)` (plm/snoop.go 27-35): `tx` carries what the modem sends, `rx` what the host sends. -/
def init (rx tx : Bytes) : SnoopSt := ⟨packetsIn false tx, packetsIn true rx, []⟩

/-- One round of `readLoop` (plm/snoop.go 38-52): the packets left and the channel; `none` while the send blocks or
there is nothing to read. -/
def forward (ps queue : List Packet) : Option (List Packet × List Packet) :=
  match ps with
  | [] => none
  | p :: ps =>
    if forwarded p then
      if queue.length < cap then some (ps, queue ++ [p]) else none
    else some (ps, queue)

/-- One step (plm/snoop.go 15-20, 37-53): new state and what a `Read` returned; `none` if it blocks. The channel is never
closed. -/
def step (s : SnoopSt) : SnoopEv → Option (SnoopSt × Option (Message × Option Err))
  | .modem => (forward s.fromModem s.queue).map fun r => ({ s with fromModem := r.1, queue := r.2 }, none)
  | .host => (forward s.fromHost s.queue).map fun r => ({ s with fromHost := r.1, queue := r.2 }, none)
  | .read =>
    match s.queue with
    | [] => none
    | p :: q => some ({ s with queue := q }, some (Message.zero.unmarshalBinary p.payload))

/-- A schedule carried out: final state and the results of the reads; `none` if some step blocks. -/
def run (s : SnoopSt) : List SnoopEv → Option (SnoopSt × List (Message × Option Err))
  | [] => some (s, [])
  | e :: es =>
    match step s e with
    | none => none
    | some (s, o) => (run s es).map fun r => (r.1, o.toList ++ r.2)

/-- `Write` (plm/snoop.go 22-25). -/
def write (_ : Message) : Option Message × Option Err := (none, some .plmNotImplemented)

end Snoop

end Insteon
