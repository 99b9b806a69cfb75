import Verif.Model.Reader
import Verif.Model.Link

/-
plm/plm.go, plm/port.go 79-103, plm/config.go, plm/info.go
-/

namespace Insteon

/-- Result of a Go call returning `(*Packet, error)`, or a panic. -/
inductive PRes where
  | ret (ack : Option Packet) (err : Option Err)
  | panic
deriving DecidableEq, Repr

/-- Result of a Go call returning `(*insteon.Message, error)`, or a panic. -/
inductive MRes where
  | ret (msg : Option Message) (err : Option Err)
  | panic
deriving DecidableEq, Repr

/-- What a `select` on a packet channel and a timer yields (plm/plm.go 184-188, 193-202): a packet,
nil because the channel is closed, or the timeout. -/
inductive Recv where
  | packet (p : Packet)
  | closed
  | timeout
deriving DecidableEq, Repr

/-- The world of a PLM: the serial port it writes to and the two channels filled by the reader
goroutine, over an arbitrary state. Each operation may do anything to the state. -/
structure PlmIO (σ : Type) where
  /-- `plm.writer.Write(buf)` -/
  tx : σ → Bytes → σ × Option Err
  /-- receive on `packetBuf` -/
  rxPacket : σ → σ × Recv
  /-- receive on `msgBuf` -/
  rxMsg : σ → σ × Recv

namespace Plm
variable {σ : Type}

/-- `PLM.ReadPacket` (plm/plm.go 183-190). -/
def readPacket (io : PlmIO σ) (s : σ) : σ × PRes :=
  match io.rxPacket s with
  | (s, .packet p) => (s, .ret (some p) none)
  | (s, .closed) => (s, .ret none none)
  | (s, .timeout) => (s, .ret none (some (.wrapped .plmReadTimeout)))

/-- The checks on the modem's answer (plm/plm.go 157-175). `payload[3:]` panics on a shorter
payload. -/
def checkAck (pkt ack : Packet) : Out (Option Err) :=
  let e : Out (Option Err) :=
    if !ack.isACK && !ack.isNAK then .ok (some .noAck)
    else if ack.command ≠ pkt.command then .ok (some .wrongAck)
    else if ack.command ≠ PCmd.getInfo ∧ ack.command ≠ PCmd.getConfig then
      if ack.command = PCmd.sendInsteonMsg then
        if ack.payload.length < 3 then .panic
        else if ack.payload.drop 3 ≠ pkt.payload then .ok (some .wrongPayload) else .ok none
      else if ack.payload ≠ pkt.payload then .ok (some .wrongPayload) else .ok none
    else .ok none
  match e with
  | .ok e => .ok (if ack.isNAK then some .plmNak else e)
  | e => e

/-- `PLM.WritePacket` (plm/plm.go 148-181). A closed channel gives a nil packet, on which
`ack.ACK()` panics. -/
def writePacket (io : PlmIO σ) (s : σ) (pkt : Packet) : σ × PRes :=
  match io.tx s pkt.marshalBinary with
  | (s, some e) => (s, .ret none (some e))
  | (s, none) =>
    match io.rxPacket s with
    | (s, .timeout) => (s, .ret none (some (.wrapped .plmReadTimeout)))
    | (s, .closed) => (s, .panic)
    | (s, .packet ack) =>
      match checkAck pkt ack with
      | .ok e => (s, .ret (some ack) e)
      | _ => (s, .panic)

end Plm

/-- Whether `retryWriter.WritePacket` tries again (plm/port.go 89). Go compares with `==`. -/
def retryable (ignoreNak : Bool) (e : Option Err) : Bool :=
  (e == some .plmNak && ignoreNak) || e == some .plmReadTimeout

/-- The loop of `retryWriter.WritePacket` (plm/port.go 87-97) with `n` attempts left and the
results of the last attempt. Sleeping is not modelled. -/
def retryLoop {σ : Type} (w : σ → Packet → σ × PRes) (ignoreNak : Bool) (pkt : Packet) :
    Nat → σ → PRes → σ × PRes
  | 0, s, cur => (s, cur)
  | n + 1, s, _ =>
    match w s pkt with
    | (s, .panic) => (s, .panic)
    | (s, .ret a e) =>
      if retryable ignoreNak e then retryLoop w ignoreNak pkt n s (.ret a e) else (s, .ret a e)

/-- `retry(writer, retries, ignoreNak).WritePacket(pkt)` (plm/port.go 85-103): the loop runs while
`0 <= retries`. -/
def retryWrite {σ : Type} (w : σ → Packet → σ × PRes) (retries : Int) (ignoreNak : Bool) (s : σ)
    (pkt : Packet) : σ × PRes :=
  retryLoop w ignoreNak pkt (retries + 1).toNat s (.ret none none)

namespace Plm
variable {σ : Type}

/-- `PLM.Read` (plm/plm.go 192-205); a closed channel gives a nil packet: `pkt.Payload` panics. -/
def read (io : PlmIO σ) (s : σ) : σ × MRes :=
  match io.rxMsg s with
  | (s, .packet p) => let r := Message.zero.unmarshalBinary p.payload; (s, .ret (some r.1) r.2)
  | (s, .closed) => (s, .panic)
  | (s, .timeout) => (s, .ret none (some (.wrapped .insReadTimeout)))

/-- The wait for the acknowledgement in `PLM.Write` (plm/plm.go 132-141) with fuel. -/
def awaitAck (io : PlmIO σ) (dst : Address) : Nat → σ → Option (σ × MRes)
  | 0, _ => none
  | fuel + 1, s =>
    match read io s with
    | (s, .panic) => some (s, .panic)
    | (s, .ret ack (some e)) => some (s, .ret ack (some e))
    | (s, .ret none none) => some (s, .panic)
    | (s, .ret (some m) none) =>
      if m.src = dst ∧ (m.flags.ack = true ∨ m.flags.nak = true) then
        some (s, .ret (some m) (if m.flags.nak then some .devNak else none))
      else awaitAck io dst fuel s

/-- `PLM.Write` (plm/plm.go 123-146); marshalling a message never fails. -/
def write (io : PlmIO σ) (retries : Int) (fuel : Nat) (s : σ) (msg : Message) : Option (σ × MRes) :=
  match retryWrite (writePacket io) retries true s
      ⟨PCmd.sendInsteonMsg, msg.marshalBinary.drop 3, 0#8⟩ with
  | (s, .panic) => some (s, .panic)
  | (s, .ret _ (some e)) => some (s, .ret none (some e))
  | (s, .ret _ none) => awaitAck io msg.dst fuel s

end Plm

/-- `type Config byte` (plm/config.go 19). -/
abbrev Config := BitVec 8

namespace Config
/-- plm/config.go 21-23. -/
def setBit (c : Config) (pos : Nat) : Config := c ||| (1#8 <<< pos)
/-- plm/config.go 25-27. -/
def clearBit (c : Config) (pos : Nat) : Config := c &&& ~~~(1#8 <<< pos)
/-- plm/config.go 29. -/
def automaticLinking (c : Config) : Bool := c &&& 0x80#8 == 0x80#8
/-- plm/config.go 30. -/
def setAutomaticLinking (c : Config) : Config := setBit c 7
/-- plm/config.go 31. -/
def clearAutomaticLinking (c : Config) : Config := clearBit c 7
/-- plm/config.go 32. -/
def monitorMode (c : Config) : Bool := c &&& 0x40#8 == 0x40#8
/-- plm/config.go 33. -/
def setMonitorMode (c : Config) : Config := setBit c 6
/-- plm/config.go 34. -/
def clearMonitorMode (c : Config) : Config := clearBit c 6
/-- plm/config.go 35. -/
def automaticLED (c : Config) : Bool := c &&& 0x20#8 == 0x20#8
/-- plm/config.go 36. -/
def setAutomaticLED (c : Config) : Config := setBit c 5
/-- plm/config.go 37. -/
def clearAutomaticLED (c : Config) : Config := clearBit c 5
/-- plm/config.go 38. -/
def deadmanMode (c : Config) : Bool := c &&& 0x10#8 == 0x10#8
/-- plm/config.go 39. -/
def setDeadmanMode (c : Config) : Config := setBit c 4
/-- plm/config.go 40. -/
def clearDeadmanMode (c : Config) : Config := clearBit c 4

/-- `Config.String` (plm/config.go 42-69). -/
def string (c : Config) : Bytes :=
  [if c.automaticLinking then ch 'L' else ch '.', if c.monitorMode then ch 'M' else ch '.',
   if c.automaticLED then ch 'A' else ch '.', if c.deadmanMode then ch 'D' else ch '.']

/-- `Config.MarshalBinary` (plm/config.go 71-73). -/
def marshalBinary (c : Config) : Bytes := [c &&& 0xf0#8]

/-- `Config.UnmarshalBinary` (plm/config.go 75-81): receiver, buffer → receiver, error. -/
def unmarshalBinary (c : Config) (buf : Bytes) : Config × Option Err :=
  match buf with
  | [] => (c, some (.other 30))
  | b :: _ => (b, none)
end Config

/-- `Info` (plm/info.go 27-31); the category is two bytes. -/
structure Info where
  address : Address
  devCat0 : Byte
  devCat1 : Byte
  firmware : Byte
deriving DecidableEq, Repr

namespace Info
/-- `Info.MarshalBinary` (plm/info.go 37-44). -/
def marshalBinary (i : Info) : Bytes := i.address.bytes ++ [i.devCat0, i.devCat1, i.firmware]

/-- `Info.UnmarshalBinary` (plm/info.go 46-51); slicing a shorter buffer panics. -/
def unmarshalBinary (data : Bytes) : Out Info :=
  match data with
  | a0 :: a1 :: a2 :: c0 :: c1 :: f :: _ => .ok ⟨Address.put [a0, a1, a2], c0, c1, f⟩
  | _ => .panic
end Info

namespace Plm
variable {σ : Type}

/-- `PLM.Info` (plm/plm.go 207-214): `ok (info, err)` or a panic. The info is nil on error. -/
def info (io : PlmIO σ) (retries : Int) (s : σ) : σ × Out (Option Info × Option Err) :=
  match retryWrite (writePacket io) retries true s ⟨PCmd.getInfo, [], 0#8⟩ with
  | (s, .panic) => (s, .panic)
  | (s, .ret _ (some e)) => (s, .ok (none, some e))
  | (s, .ret none none) => (s, .panic)
  | (s, .ret (some ack) none) =>
    match Info.unmarshalBinary ack.payload with
    | .ok i => (s, .ok (some i, none))
    | _ => (s, .panic)

/-- `PLM.Reset` (plm/plm.go 217-224) without the changed timeout. -/
def reset (io : PlmIO σ) (retries : Int) (s : σ) : σ × Out (Option Err) :=
  match retryWrite (writePacket io) retries true s ⟨PCmd.reset, [], 0#8⟩ with
  | (s, .panic) => (s, .panic)
  | (s, .ret _ e) => (s, .ok e)

/-- `PLM.Config` (plm/plm.go 226-232). -/
def config (io : PlmIO σ) (retries : Int) (s : σ) : σ × Out (Config × Option Err) :=
  match retryWrite (writePacket io) retries true s ⟨PCmd.getConfig, [], 0#8⟩ with
  | (s, .panic) => (s, .panic)
  | (s, .ret _ (some e)) => (s, .ok (0#8, some e))
  | (s, .ret none none) => (s, .panic)
  | (s, .ret (some ack) none) => (s, .ok (Config.unmarshalBinary 0#8 ack.payload))

/-- `PLM.SetConfig` (plm/plm.go 234-238). -/
def setConfig (io : PlmIO σ) (retries : Int) (s : σ) (c : Config) : σ × Out (Option Err) :=
  match retryWrite (writePacket io) retries true s ⟨PCmd.setConfig, c.marshalBinary, 0#8⟩ with
  | (s, .panic) => (s, .panic)
  | (s, .ret _ e) => (s, .ok e)

/-- `PLM.Address` (plm/plm.go 250-259): cached address → new cached address, which is also the
result. -/
def address (io : PlmIO σ) (retries : Int) (s : σ) (cached : Address) : σ × Out Address :=
  if cached = 0#32 then
    match info io retries s with
    | (s, .ok (some i, none)) => (s, .ok i.address)
    | (s, .ok (_, _)) => (s, .ok cached)
    | (s, _) => (s, .panic)
  else (s, .ok cached)

end Plm

/-! ### The reader goroutine and its queues -/

/-- State shared between `readLoop` and the readers (plm/plm.go 67-68, 79-80): contents of the two
buffered channels and whether they have been closed. -/
structure PortSt where
  msgQ : List Packet
  pktQ : List Packet
  closed : Bool
deriving DecidableEq, Repr

/-- Atomic steps of the port. `arrive p`: `readLoop` has read a packet and performs its
non-blocking send. `fail`: it got a read error, closes both channels and returns.
`recvMsg late`/`recvPkt late`: a reader's `select` completes; `late` chooses the timer if the
timer has fired too (both branches of a `select` may be ready). -/
inductive PortEv where
  | arrive (p : Packet)
  | fail
  | recvMsg (late : Bool)
  | recvPkt (late : Bool)
deriving DecidableEq, Repr

/-- What a step shows: an arriving packet was queued or dropped, or a reader got something. -/
inductive PortObs where
  | queued (p : Packet)
  | dropped (p : Packet)
  | gotMsg (r : Recv)
  | gotPkt (r : Recv)
  | none
deriving DecidableEq, Repr

namespace Port

/-- Channel capacity (plm/plm.go 79-80). -/
abbrev cap : Nat := 10

/-- State after `New` (plm/plm.go 72-92). -/
def init : PortSt := ⟨[], [], false⟩

/-- `pkt.Command == CmdStdMsgReceived || pkt.Command == CmdExtMsgReceived` (plm/plm.go 106). -/
def isMsg (p : Packet) : Bool := p.command == PCmd.stdMsgReceived || p.command == PCmd.extMsgReceived

/-- Receive from a queue: timer, head, nil if closed; an empty open channel blocks until the timer. -/
def recv (q : List Packet) (closed late : Bool) : List Packet × Recv :=
  if late then (q, .timeout)
  else match q with
    | p :: q => (q, .packet p)
    | [] => ([], if closed then .closed else .timeout)

/-- One step (plm/plm.go 94-120, 183-205). After `fail` the goroutine is gone: arrivals and further
failures do nothing. -/
def step (s : PortSt) : PortEv → PortSt × PortObs
  | .arrive p =>
    if s.closed then (s, .none)
    else if isMsg p then
      if s.msgQ.length < cap then ({ s with msgQ := s.msgQ ++ [p] }, .queued p) else (s, .dropped p)
    else
      if s.pktQ.length < cap then ({ s with pktQ := s.pktQ ++ [p] }, .queued p) else (s, .dropped p)
  | .fail => ({ s with closed := true }, .none)
  | .recvMsg late => let r := recv s.msgQ s.closed late; ({ s with msgQ := r.1 }, .gotMsg r.2)
  | .recvPkt late => let r := recv s.pktQ s.closed late; ({ s with pktQ := r.1 }, .gotPkt r.2)

/-- A run: the states and observations along a list of events. -/
def run (s : PortSt) : List PortEv → PortSt × List PortObs
  | [] => (s, [])
  | e :: es =>
    let r := step s e
    let t := run r.1 es
    (t.1, r.2 :: t.2)

end Port

end Insteon
