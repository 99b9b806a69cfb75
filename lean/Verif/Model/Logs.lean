import Verif.Model.Timed
import Verif.Model.Names

/-
What is logged (plm/port.go 105-131, plm/plm.go 44-55, devices/logging.go, cmd/ic/main.go 51-76) and `ReadWithTimeout` (util.go 17-27).
-/

namespace Insteon

/-- What `New` gets as `io.ReadWriter` (plm/plm.go 72): reading up to `n` bytes and writing. -/
structure SerialPort (σ : Type) where
  read : σ → Nat → σ × Bytes × Option Err
  write : σ → Bytes → σ × Nat × Option Err

/-- A port, and what has been written to `LogDebug` and to `Log` (plm/plm.go 44-47), line by line, without the time of day. -/
structure Logged (σ : Type) where
  port : σ
  debug : List Bytes
  log : List Bytes

/-- `hexDump` (plm/plm.go 49-55) with the format `%02x`. -/
def hexDump (buf sep : Bytes) : Bytes := joinWith sep (buf.map hex2)

/-- `logReader` and `logWriter` (plm/port.go 105-131). `text` is what `%v` makes of an error. -/
def SerialPort.logged {σ : Type} (p : SerialPort σ) (text : Err → Bytes) : SerialPort (Logged σ) where
  read := fun s n =>
    let r := p.read s.port n
    ({ s with port := r.1, debug := if 0 < r.2.1.length then s.debug ++ [lit "RX " ++ hexDump r.2.1 (lit " ")] else s.debug }, r.2)
  write := fun s b =>
    let s := { s with debug := s.debug ++ [lit "TX " ++ hexDump b (lit " ")] }
    let r := p.write s.port b
    match r.2.2 with
    | some e => ({ s with port := r.1, log := s.log ++ [lit "Failed to write: " ++ text e] }, r.2)
    | none => ({ s with port := r.1 }, r.2)

/-- The flags of ic that have to do with logs (cmd/ic/main.go 42-44). -/
structure IcFlags where
  log : Bool
  debug : Bool
  quiet : Bool
deriving DecidableEq

/-- Setting one of the boolean flags of ic on the command line (cmd/ic/main.go 54-56). An unknown flag is an error. -/
def IcFlags.set (f : IcFlags) (name : String) (v : Bool) : Option IcFlags :=
  if name = "log" then some { f with log := v }
  else if name = "debug" then some { f with debug := v }
  else if name = "quietFlag" then some { f with debug := v }
  else none

/-- The boolean flags on the command line, in order; all of them are false at first (cmd/ic/main.go 54-56). -/
def IcFlags.parse : IcFlags → List (String × Bool) → Option IcFlags
  | f, [] => some f
  | f, (name, v) :: rest => (f.set name v).bind fun f => IcFlags.parse f rest

/-- Which of the loggers write to standard error; the others write nowhere. -/
structure Loggers where
  plmLog : Bool
  plmDebug : Bool
  devLog : Bool
  devDebug : Bool
deriving DecidableEq

/-- plm/plm.go 44-47, devices/logging.go 23-26. -/
def Loggers.initial : Loggers := ⟨true, false, true, false⟩

/-- The first lines of `run` (cmd/ic/main.go 65-76). -/
def IcFlags.setup (f : IcFlags) (l : Loggers) : Loggers :=
  let l := if f.debug then { l with plmDebug := true, devDebug := true } else l
  if f.quiet then ⟨false, false, false, false⟩ else l

/-- `ReadWithTimeout` (util.go 20-27) at the time `now`, on a channel of pointers to messages into which these are put at these times, and which is
closed at the time `ends`: the time it returns, what is left in the channel, and what it returns. If the message and the timer are ready at the same time Go
picks one, here `tie` does. -/
def readWithTimeout (timeout : Int) (tie : Bool) (now : Nat) (ends : Option Nat) (q : List (Nat × Option Message)) :
    Nat × List (Nat × Option Message) × Option Message × Option Err :=
  let deadline := now + timeout.toNat
  match q, ends with
  | (t, m) :: rest, _ =>
    if Timed.first (max now t) deadline tie then (max now t, rest, m, none) else (deadline, q, none, some .insReadTimeout)
  | [], some t => if Timed.first (max now t) deadline tie then (max now t, [], none, none) else (deadline, [], none, some .insReadTimeout)
  | [], none => (deadline, [], none, some .insReadTimeout)

end Insteon
