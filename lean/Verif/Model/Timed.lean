import Verif.Model.Plm

/-
The PLM with a clock: how long calls wait and sleep (plm/plm.go 57-92, 123-224, plm/port.go 79-103, plm/options.go).
-/

namespace Insteon

/-- The settings in a `PLM` that have to do with time (plm/plm.go 63-65). Durations are in nanoseconds. -/
structure PlmCfg where
  timeout : Int
  retries : Int
  writeDelay : Int
deriving DecidableEq, Repr

namespace PlmCfg

/-- One second (`time.Second`). -/
abbrev second : Nat := 1000000000

/-- What `New` starts with (plm/plm.go 77-78). -/
def initial : PlmCfg := ⟨3 * second, 3, 0⟩

/-- `Timeout` (plm/options.go 24-28). -/
def timeoutOpt (d : Int) (c : PlmCfg) : PlmCfg := { c with timeout := d }

/-- `WriteDelay` (plm/options.go 31-35). -/
def writeDelayOpt (d : Int) (c : PlmCfg) : PlmCfg := { c with writeDelay := d }

/-- `New` (plm/plm.go 72-92): the options are applied in order. -/
def new (options : List (PlmCfg → PlmCfg)) : PlmCfg := options.foldl (fun c o => o c) initial

end PlmCfg

/-- A PLM at some time. `pkts` and `msgs` are what `readLoop` has put and will put into the two channels (dropped packets left out) with
the time it does, `ends` is the time at which it closes them. `sent` is what has been written to the serial port, and when. `peer` is the state of
whatever is at the other end. -/
structure Timed (τ : Type) where
  now : Nat
  pkts : List (Nat × Packet)
  msgs : List (Nat × Packet)
  ends : Option Nat
  sent : List (Nat × Bytes)
  peer : τ

namespace Timed
variable {τ : Type}

/-- What a receive that is ready at the time `t` yields in a `select` with a timer that fires at `deadline`: whichever is first; if both are ready at the
same time Go picks one, here `tie` does. -/
def first (t deadline : Nat) (tie : Bool) : Bool := decide (t < deadline) || (decide (t = deadline) && tie)

/-- `select` on a channel and `time.After(timeout)` (plm/plm.go 184-188, 193-202) at the time `now`: the time at which it is decided, what is left in the
channel and the result. Simplification: the goroutine runs as soon as it can. A timer with a negative time fires at once. -/
def select (timeout : Int) (tie : Nat → Bool) (now : Nat) (ends : Option Nat) (q : List (Nat × Packet)) : Nat × List (Nat × Packet) × Recv :=
  let deadline := now + timeout.toNat
  match q, ends with
  | (t, p) :: rest, _ =>
    if first (max now t) deadline (tie deadline) then (max now t, rest, .packet p) else (deadline, q, .timeout)
  | [], some t => if first (max now t) deadline (tie deadline) then (max now t, [], .closed) else (deadline, [], .timeout)
  | [], none => (deadline, [], .timeout)

/-- The world of a PLM with a clock (plm/plm.go 148-205). `react` is what the other end does with bytes it is sent at some time: its new state, the
time the write takes, the error of the write, and what arrives on the two channels because of it, after what is on its way already. -/
def io (react : τ → Nat → Bytes → τ × Nat × Option Err × List (Nat × Packet) × List (Nat × Packet)) (tie : Nat → Bool) (timeout : Int) :
    PlmIO (Timed τ) where
  tx := fun s b =>
    let r := react s.peer s.now b
    ({ s with now := s.now + r.2.1, peer := r.1, sent := s.sent ++ [(s.now, b)], pkts := s.pkts ++ r.2.2.2.1, msgs := s.msgs ++ r.2.2.2.2 }, r.2.2.1)
  rxPacket := fun s =>
    let r := select timeout tie s.now s.ends s.pkts
    ({ s with now := r.1, pkts := r.2.1 }, r.2.2)
  rxMsg := fun s =>
    let r := select timeout tie s.now s.ends s.msgs
    ({ s with now := r.1, msgs := r.2.1 }, r.2.2)

/-- `time.Sleep`. -/
def sleep (d : Nat) (s : Timed τ) : Timed τ := { s with now := s.now + d }

end Timed

namespace TimedPlm
variable {σ : Type}

/-- One round of the loop of `retryWriter.WritePacket` (plm/port.go 88-96): write, and sleep if it will be tried again or would be if there were
attempts left. -/
def round (io : PlmIO σ) (sleep : σ → σ) (ignoreNak : Bool) (s : σ) (pkt : Packet) : σ × PRes :=
  match Plm.writePacket io s pkt with
  | (s, .ret a e) => (if retryable ignoreNak e then sleep s else s, .ret a e)
  | r => r

/-- `retry(plm, plm.retries, ignoreNak).WritePacket(pkt)` (plm/port.go 85-103) with its sleeping. -/
def command (io : PlmIO σ) (sleep : σ → σ) (retries : Int) (ignoreNak : Bool) (s : σ) (pkt : Packet) : σ × PRes :=
  retryWrite (round io sleep ignoreNak) retries ignoreNak s pkt

/-- `PLM.Write` (plm/plm.go 123-146) with its sleeping. -/
def write (io : PlmIO σ) (sleep : σ → σ) (retries : Int) (fuel : Nat) (s : σ) (msg : Message) : Option (σ × MRes) :=
  match command io sleep retries true s ⟨PCmd.sendInsteonMsg, msg.marshalBinary.drop 3, 0#8⟩ with
  | (s, .panic) => some (s, .panic)
  | (s, .ret _ (some e)) => some (s, .ret none (some e))
  | (s, .ret _ none) => Plm.awaitAck io msg.dst fuel s

/-- `PLM.Reset` (plm/plm.go 217-224) with its own timeout, which stays if the call panics. `io` is the world seen with a given timeout. -/
def reset (io : Int → PlmIO σ) (sleep : σ → σ) (s : σ) (cfg : PlmCfg) : σ × PlmCfg × Out (Option Err) :=
  let long := { cfg with timeout := 20 * PlmCfg.second }
  match command (io long.timeout) sleep long.retries true s ⟨PCmd.reset, [], 0#8⟩ with
  | (s, .panic) => (s, long, .panic)
  | (s, .ret _ e) => (s, cfg, .ok e)

end TimedPlm

end Insteon
