import Verif.Model.Plm
import Verif.Model.Device

/-
A running PLM (plm/plm.go 55-205, plm/port.go): the reader goroutine, its two channels and the calls of the
user together, from bytes on the serial line to results of API calls.
-/

namespace Insteon

/-- A PLM in operation. `slots` says what the serial line brings while the user's next calls wait:
the first entry is what `readLoop` has read by the time the next `select` is decided, and so on; when the
list is used up nothing more arrives. Simplification: an entry ends at the end of a packet (the reader blocks
inside a packet until the rest comes). -/
structure Live where
  port : PortSt
  sent : List Bytes
  slots : List Bytes
deriving DecidableEq, Repr

namespace Live

/-- State after `New` (plm/plm.go 72-92) for a given future of the serial line. -/
def init (slots : List Bytes) : Live := ⟨Port.init, [], slots⟩

/-- The packets `readLoop` gets out of some bytes (plm/plm.go 94-104). -/
def arrivals (b : Bytes) : List Packet := packetsIn false b

/-- `readLoop` at work until the next `select` is decided (plm/plm.go 94-120). -/
def feed (s : Live) : Live :=
  match s.slots with
  | [] => s
  | b :: rest => { s with port := (Port.run s.port ((arrivals b).map .arrive)).1, slots := rest }

/-- The world of a running PLM. A `select` takes what is in the channel and times out if nothing is
(plm/plm.go 183-205). Writing to the serial port does not fail. -/
def io : PlmIO Live where
  tx := fun s b => ({ s with sent := s.sent ++ [b] }, none)
  rxPacket := fun s =>
    let s := s.feed
    let r := Port.recv s.port.pktQ s.port.closed false
    ({ s with port := { s.port with pktQ := r.1 } }, r.2)
  rxMsg := fun s =>
    let s := s.feed
    let r := Port.recv s.port.msgQ s.port.closed false
    ({ s with port := { s.port with msgQ := r.1 } }, r.2)

/-- The same with a serial port that may fail to write: `fails` says of everything written so far, including what is being written, whether that write fails and with
which of the operating system's errors (plm/plm.go 148-154, 183-205). Simplification: what was asked to be written counts as written. -/
def faulty (fails : List Bytes → Option Nat) : PlmIO Live where
  tx := fun s b => ({ s with sent := s.sent ++ [b] }, (fails (s.sent ++ [b])).map .other)
  rxPacket := fun s =>
    let s := s.feed
    let r := Port.recv s.port.pktQ s.port.closed false
    ({ s with port := { s.port with pktQ := r.1 } }, r.2)
  rxMsg := fun s =>
    let s := s.feed
    let r := Port.recv s.port.msgQ s.port.closed false
    ({ s with port := { s.port with msgQ := r.1 } }, r.2)

/-- And as message writer of devices (plm/plm.go 123-146, 192-205). -/
def faultyMsgIO (fails : List Bytes → Option Nat) (retries : Int) (fuel : Nat) : MsgIO Live where
  read := Plm.read (faulty fails)
  write := fun s m => match Plm.write (faulty fails) retries fuel s m with
    | some r => r
    | none => (s, .panic)

/-- A running PLM as message writer of devices (plm/plm.go 123-146, 192-205); `fuel` bounds the number of
messages skipped in `Write`, which is a panic here if it is used up. -/
def msgIO (retries : Int) (fuel : Nat) : MsgIO Live where
  read := Plm.read io
  write := fun s m => match Plm.write io retries fuel s m with
    | some r => r
    | none => (s, .panic)

end Live

/-- A PLM in operation with the device at the other end of the serial line: what is on the line and not yet read, and
the state of that device. -/
structure Wired (τ : Type) where
  port : PortSt
  wire : Bytes
  dev : τ

namespace Wired
variable {τ : Type}

/-- State after `New` (plm/plm.go 72-92). -/
def init (dev : τ) : Wired τ := ⟨Port.init, [], dev⟩

/-- `readLoop` reads everything on the line (plm/plm.go 94-120). -/
def feed (s : Wired τ) : Wired τ :=
  { s with port := (Port.run s.port ((Live.arrivals s.wire).map .arrive)).1, wire := [] }

/-- The world of a running PLM (plm/plm.go 148-205) whose serial port leads to a device that answers every write at once:
`react` gives its new state and the bytes it sends. Simplification: the answer is complete before the host's next
`select` is decided. -/
def io (react : τ → Bytes → τ × Bytes) : PlmIO (Wired τ) where
  tx := fun s b =>
    let r := react s.dev b
    ({ s with dev := r.1, wire := s.wire ++ r.2 }, none)
  rxPacket := fun s =>
    let s := s.feed
    let r := Port.recv s.port.pktQ s.port.closed false
    ({ s with port := { s.port with pktQ := r.1 } }, r.2)
  rxMsg := fun s =>
    let s := s.feed
    let r := Port.recv s.port.msgQ s.port.closed false
    ({ s with port := { s.port with msgQ := r.1 } }, r.2)

/-- The same as message writer of devices (plm/plm.go 123-146, 192-205); `fuel` bounds the number of messages skipped in
`Write`, which is a panic here if it is used up. -/
def msgIO (react : τ → Bytes → τ × Bytes) (retries : Int) (fuel : Nat) : MsgIO (Wired τ) where
  read := Plm.read (io react)
  write := fun s m => match Plm.write (io react) retries fuel s m with
    | some r => r
    | none => (s, .panic)

end Wired

end Insteon
