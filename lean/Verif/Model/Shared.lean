import Verif.Model.Plm

/-
A PLM used by several goroutines at once (plm/plm.go 123-205, plm/port.go 79-103): the calls as state machines whose steps are the accesses
to the serial port and to the two channels, in any interleaving with each other and with `readLoop`. The code has no locks, so nothing else
restricts the order.
-/

namespace Insteon

/-- A call a goroutine makes: `retry(plm, retries, ignoreNak).WritePacket(pkt)`, which is how all commands to the modem are sent
(plm/plm.go 129, 208, 221, 227, 236), `plm.Write(msg)` (plm/plm.go 123-146) or `plm.Read()` (plm/plm.go 192-205). -/
inductive Job where
  | command (pkt : Packet) (retries : Int) (ignoreNak : Bool)
  | write (msg : Message) (retries : Int)
  | read
deriving DecidableEq, Repr

/-- What a call returned. -/
inductive JobRes where
  | packet (ack : Option Packet) (err : Option Err)
  | message (msg : Option Message) (err : Option Err)
  | panic
deriving DecidableEq, Repr

/-- Where a call is: about to write to the serial port with so many further attempts allowed, in the `select` of `ReadPacket`
(plm/plm.go 184), in that of `Read` (plm/plm.go 193), or over. -/
inductive Phase where
  | sending (left : Nat)
  | waiting (left : Nat)
  | listening
  | returned (r : JobRes)
deriving DecidableEq, Repr

/-- A goroutine with its call. -/
structure Thread where
  job : Job
  phase : Phase
deriving DecidableEq, Repr

namespace Job

/-- The packet written (plm/plm.go 124-129). -/
def packet : Job → Packet
  | .command pkt _ _ => pkt
  | .write msg _ => ⟨PCmd.sendInsteonMsg, msg.marshalBinary.drop 3, 0#8⟩
  | .read => ⟨0#8, [], 0#8⟩

/-- Whether a NAK of the modem is tried again (plm/plm.go 129, plm/port.go 89). -/
def ignoreNak : Job → Bool
  | .command _ _ b => b
  | _ => true

/-- What comes after the loop of `retryWriter.WritePacket` (plm/port.go 97; plm/plm.go 132-145). -/
def finish : Job → Option Packet → Option Err → Phase
  | .command _ _ _, ack, err => .returned (.packet ack err)
  | .write _ _, _, none => .listening
  | .write _ _, _, some e => .returned (.message none (some e))
  | .read, _, _ => .returned .panic

/-- The end of the body of that loop (plm/port.go 89-96) with so many attempts left. -/
def after (j : Job) (left : Nat) (ack : Option Packet) (err : Option Err) : Phase :=
  match retryable j.ignoreNak err, left with
  | true, n + 1 => .sending n
  | _, _ => j.finish ack err

/-- The call begins (plm/port.go 86-87): the loop runs `retries + 1` times. -/
def start (j : Job) : Phase :=
  match j with
  | .read => .listening
  | .command _ retries _ | .write _ retries =>
    match (retries + 1).toNat with
    | 0 => j.finish none none
    | n + 1 => .sending n

/-- The serial port has taken the bytes or not (plm/plm.go 152-155). -/
def sent (j : Job) (left : Nat) : Option Err → Phase
  | none => .waiting left
  | some e => j.after left none (some e)

/-- The `select` of `ReadPacket` is decided (plm/plm.go 154-177, 183-190): nil from a closed channel panics. -/
def replied (j : Job) (left : Nat) : Recv → Phase
  | .timeout => j.after left none (some (.wrapped .plmReadTimeout))
  | .closed => .returned .panic
  | .packet ack =>
    match Plm.checkAck j.packet ack with
    | .ok e => j.after left (some ack) e
    | _ => .returned .panic

/-- The `select` of `Read` is decided (plm/plm.go 134-141, 192-205). -/
def heard (j : Job) : Recv → Phase
  | .timeout => .returned (.message none (some (.wrapped .insReadTimeout)))
  | .closed => .returned .panic
  | .packet p =>
    match Message.zero.unmarshalBinary p.payload with
    | (m, some e) => .returned (.message (some m) (some e))
    | (m, none) =>
      match j with
      | .write msg _ =>
        if m.src = msg.dst ∧ (m.flags.ack = true ∨ m.flags.nak = true) then
          .returned (.message (some m) (if m.flags.nak then some .devNak else none))
        else .listening
      | _ => .returned (.message (some m) none)

end Job

/-- The PLM and its users. `down`: one of the goroutines has panicked, which ends the program. -/
structure Shared where
  port : PortSt
  threads : List Thread
  down : Bool
deriving DecidableEq, Repr

/-- Steps: `readLoop` gets a packet or fails (see `PortEv`), or the goroutine with this number goes on. Then `late` says which branch a
`select` takes when both are ready, and `err` is what the serial port says if the step is a write. -/
inductive SharedEv where
  | arrive (p : Packet)
  | fail
  | go (i : Nat) (late : Bool) (err : Option Err)
deriving DecidableEq, Repr

/-- What a step shows. -/
inductive SharedObs where
  | queued (p : Packet)
  | dropped (p : Packet)
  | wrote (i : Nat) (b : Bytes) (err : Option Err)
  | tookPkt (i : Nat) (r : Recv)
  | tookMsg (i : Nat) (r : Recv)
  | none
deriving DecidableEq, Repr

namespace Shared

/-- State when the calls begin, after `New` (plm/plm.go 72-92). -/
def init (jobs : List Job) : Shared := ⟨Port.init, jobs.map fun j => ⟨j, j.start⟩, false⟩

/-- The goroutine with this number is where it is now. -/
def set (s : Shared) (i : Nat) (t : Thread) (ph : Phase) (port : PortSt) : Shared :=
  ⟨port, s.threads.set i { t with phase := ph }, decide (ph = .returned .panic)⟩

/-- `readLoop` at work (plm/plm.go 94-120). -/
def arrival (s : Shared) (e : PortEv) : Shared × SharedObs :=
  match Port.step s.port e with
  | (port, .queued p) => ({ s with port := port }, .queued p)
  | (port, .dropped p) => ({ s with port := port }, .dropped p)
  | (port, _) => ({ s with port := port }, .none)

/-- One step. -/
def step (s : Shared) : SharedEv → Shared × SharedObs
  | .arrive p => if s.down then (s, .none) else arrival s (.arrive p)
  | .fail => if s.down then (s, .none) else arrival s .fail
  | .go i late err =>
    if s.down then (s, .none)
    else match s.threads[i]? with
      | none => (s, .none)
      | some t =>
        match t.phase with
        | .sending n =>
          (s.set i t (t.job.sent n err) s.port, .wrote i t.job.packet.marshalBinary err)
        | .waiting n =>
          let r := Port.recv s.port.pktQ s.port.closed late
          (s.set i t (t.job.replied n r.2) { s.port with pktQ := r.1 }, .tookPkt i r.2)
        | .listening =>
          let r := Port.recv s.port.msgQ s.port.closed late
          (s.set i t (t.job.heard r.2) { s.port with msgQ := r.1 }, .tookMsg i r.2)
        | .returned _ => (s, .none)

/-- A run. -/
def run (s : Shared) : List SharedEv → Shared × List SharedObs
  | [] => (s, [])
  | e :: es =>
    let r := step s e
    let t := run r.1 es
    (t.1, r.2 :: t.2)

/-- What the call of a goroutine has returned, if it has. -/
def result (s : Shared) (i : Nat) : Option JobRes :=
  match s.threads[i]? with
  | some ⟨_, .returned r⟩ => some r
  | _ => none

end Shared

end Insteon
