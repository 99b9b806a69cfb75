import Verif.Model.Snoop
import Verif.Model.Monitor

/-
cmd/isnoop/main.go: a program between a terminal and a modem that passes the bytes on in both directions and prints the
messages it sees.
-/

namespace Insteon

/-- One direction: `io.Copy` from a `TeeReader` whose copy goes into a pipe (cmd/isnoop/main.go 66-79), and the goroutine
that reads the other end of the pipe (plm/snoop.go 32-33, 37-53). `src` is what the copying has yet to read, `chunk` what it
read last and has yet to write, `tee` the part of it that the pipe's reader has yet to take, `out` what it wrote, `seen` what
the pipe's reader took, `handed` the number of packets in that which it dealt with. Simplification: reads and writes of the
serial port, the standard input and the standard output do not fail, and a write is never short (for failures see
`IsnoopF`). -/
structure Lane where
  src : Bytes
  chunk : Bytes
  tee : Bytes
  out : Bytes
  seen : Bytes
  handed : Nat

/-- The two directions: from the modem to the standard output and from the standard input to the modem
(cmd/isnoop/main.go 69-70, 78-79). -/
inductive Side where
  | modem
  | host
deriving DecidableEq, Repr

/-- Acks are ignored on what the host sends (plm/snoop.go 32-33). -/
def Side.ignoreAck : Side → Bool
  | .modem => false
  | .host => true

/-- The program (cmd/isnoop/main.go 66-79): the directions, the monitor with the channel below it, whether the monitor's loop
goes on, and whether the program has ended. -/
structure Isnoop where
  modem : Lane
  host : Lane
  mon : Monitor (List Packet)
  alive : Bool
  over : Bool

/-- Atomic steps of the goroutines: the copying reads `n` bytes; the pipe's reader takes `n` bytes; the copying writes; the pipe's
reader deals with a packet; the monitor's loop reads a message; the standard input is at its end. -/
inductive IsnoopEv where
  | read (side : Side) (n : Nat)
  | take (side : Side) (n : Nat)
  | write (side : Side)
  | pass (side : Side)
  | print
  | eof
deriving DecidableEq, Repr

namespace Isnoop

/-- The buffer of `io.Copy` (Go, io/io.go). -/
abbrev copySize : Nat := 32768

/-- The buffer of `bufio.NewReader` (plm/port.go 148; Go, bufio/bufio.go). -/
abbrev bufSize : Nat := 4096

/-- Before anything was read (cmd/isnoop/main.go 66-79). -/
def Lane.start (input : Bytes) : Lane := ⟨input, [], [], [], [], 0⟩

/-- The program started (cmd/isnoop/main.go 66-79) on what the standard input and the modem will send. -/
def init (stdin modem : Bytes) : Isnoop := ⟨Lane.start modem, Lane.start stdin, Monitor.init [], true, false⟩

/-- The direction a step is about (cmd/isnoop/main.go 69-70). -/
def lane (s : Isnoop) : Side → Lane
  | .modem => s.modem
  | .host => s.host

/-- A direction changed (cmd/isnoop/main.go 69-70). -/
def setLane (s : Isnoop) (side : Side) (l : Lane) : Isnoop :=
  match side with
  | .modem => { s with modem := l }
  | .host => { s with host := l }

/-- `teeReader.Read` reads (Go, io/io.go): once the last chunk is written, as many bytes as there are, at least one. -/
def laneRead (l : Lane) (n : Nat) : Option Lane :=
  if l.chunk = [] ∧ 0 < n ∧ n ≤ copySize ∧ n ≤ l.src.length then
    some { l with src := l.src.drop n, chunk := l.src.take n, tee := l.src.take n }
  else none

/-- `bufio.Reader.fill` reads from the pipe (plm/port.go 155, 165, 193, 201): only when no whole packet is left in its buffer, at least
one byte. -/
def laneTake (side : Side) (l : Lane) (n : Nat) : Option Lane :=
  if l.handed = (packetsIn side.ignoreAck l.seen).length ∧ 0 < n ∧ n ≤ bufSize ∧ n ≤ l.tee.length then
    some { l with tee := l.tee.drop n, seen := l.seen ++ l.tee.take n }
  else none

/-- `io.Copy` writes what `teeReader.Read` returned, which is when the pipe's reader has taken all of it (Go, io/io.go and
io/pipe.go). -/
def laneWrite (l : Lane) : Option Lane :=
  if l.chunk ≠ [] ∧ l.tee = [] then some { l with chunk := [], out := l.out ++ l.chunk } else none

/-- One round of `readLoop` (plm/snoop.go 38-52): the direction and the channel; `none` while there is no packet or the channel
is full. -/
def lanePass (side : Side) (l : Lane) (queue : List Packet) : Option (Lane × List Packet) :=
  match (packetsIn side.ignoreAck l.seen)[l.handed]? with
  | none => none
  | some p =>
    if Snoop.forwarded p then
      if queue.length < Snoop.cap then some ({ l with handed := l.handed + 1 }, queue ++ [p]) else none
    else some ({ l with handed := l.handed + 1 }, queue)

/-- `snoop.Read` and `snoop.Write` on the channel (plm/snoop.go 15-25). A read of the empty channel does not return; it is
not used. -/
def channelIO : MsgIO (List Packet) where
  read q :=
    match q with
    | [] => ([], .panic)
    | p :: q => (q, .ret (some (Message.zero.unmarshalBinary p.payload).1) (Message.zero.unmarshalBinary p.payload).2)
  write q m := (q, .ret (Snoop.write m).1 (Snoop.write m).2)

variable (errText : Err → Bytes) (db : Option (Address → Option DeviceInfo))

/-- One round of the monitor's loop (cmd/isnoop/main.go 73-76), printing on the standard error. `none` while there is nothing to
read or when the loop has ended. -/
def monitorStep (s : Isnoop) : Option Isnoop :=
  if s.alive ∧ s.mon.inner ≠ [] then
    match (Monitor.over errText db channelIO).read s.mon with
    | (mon, .panic) => some { s with mon := mon, over := true }
    | (mon, .ret _ none) => some { s with mon := mon }
    | (mon, .ret _ (some e)) => some { s with mon := mon, alive := e.is .insReadTimeout }
  else none

/-- One step; `none` if it is not possible. When the standard input is at its end `main` returns and everything ends
(cmd/isnoop/main.go 79-80). -/
def step (s : Isnoop) (e : IsnoopEv) : Option Isnoop :=
  if s.over then none
  else
    match e with
    | .read side n => (laneRead (s.lane side) n).map (s.setLane side)
    | .take side n => (laneTake side (s.lane side) n).map (s.setLane side)
    | .write side => (laneWrite (s.lane side)).map (s.setLane side)
    | .pass side => (lanePass side (s.lane side) s.mon.inner).map fun r => { s.setLane side r.1 with mon := { s.mon with inner := r.2 } }
    | .print => monitorStep errText db s
    | .eof => if s.host.src = [] ∧ s.host.chunk = [] then some { s with over := true } else none

/-- A schedule carried out (cmd/isnoop/main.go 72-79); `none` if some step is not possible. -/
def run (s : Isnoop) : List IsnoopEv → Option Isnoop
  | [] => some s
  | e :: es =>
    match step errText db s e with
    | none => none
    | some s => run s es

end Isnoop

end Insteon
