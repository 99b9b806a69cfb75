import Verif.Model.PlmLinks
import Verif.Model.Message

/-
plm/port.go 30-77: `delayWriter`, which waits between writes. Nothing in the program makes one.
-/

namespace Insteon

/-- `delayWriter` (plm/port.go 30-37) with the writer it is wrapped around. Times are nanoseconds since the zero `time.Time`, durations
nanoseconds. -/
structure DelayWriter (σ : Type) where
  inner : σ
  lastTTL : Byte
  lastLen : Nat
  minDelay : Int
  lastRead : Int
  lastPkt : Option Packet

namespace DelayWriter
variable {σ : Type}

/-- `Time.Sub` of the Go library: the difference, or the longest duration with its sign. -/
def timeSub (t u : Int) : Int := max (-(2 ^ 63)) (min (t - u) (2 ^ 63 - 1))

/-- `delayWriter.ReadPacket` (plm/port.go 39-51). `clock` reads the time, which takes time. -/
def readPacket (w : PacketWriter σ) (clock : σ → σ × Int) (d : DelayWriter σ) : DelayWriter σ × PRes :=
  match w.read d.inner with
  | (s, .panic) => ({ d with inner := s }, .panic)
  | (s, .ret pkt (some e)) => ({ d with inner := s }, .ret pkt (some e))
  | (s, .ret none none) => ({ d with inner := (clock s).1, lastRead := (clock s).2 }, .panic)
  | (s, .ret (some pkt) none) =>
    let d := { d with inner := (clock s).1, lastRead := (clock s).2, lastLen := pkt.payload.length }
    if pkt.command = PCmd.stdMsgReceived ∨ pkt.command = PCmd.extMsgReceived then
      match pkt.payload[6]? with
      | none => (d, .panic)
      | some b => ({ d with lastTTL := b &&& 0x03#8 }, .ret (some pkt) none)
    else if pkt.command = PCmd.startAllLink then ({ d with lastTTL := 3#8 }, .ret (some pkt) none)
    else (d, .ret (some pkt) none)

/-- `delayWriter.writeDelay` (plm/port.go 53-68). The time is read twice. -/
def writeDelay (clock : σ → σ × Int) (d : DelayWriter σ) : DelayWriter σ × Int :=
  match d.lastPkt with
  | none => (d, 0)
  | some last =>
    if last.command = PCmd.sendInsteonMsg ∨ last.command = PCmd.startAllLink then
      let delay : Int := propagationDelay d.lastTTL d.lastLen
      let r := clock d.inner
      let delay := timeSub r.2 (d.lastRead + delay)
      let r := clock r.1
      let delay := timeSub r.2 (d.lastRead + delay)
      ({ d with inner := r.1 }, if delay < d.minDelay then d.minDelay else delay)
    else (d, if 0 < d.minDelay then d.minDelay else 0)

/-- `delayWriter.Write` (plm/port.go 70-77). -/
def write (w : PacketWriter σ) (clock : σ → σ × Int) (sleep : Int → σ → σ) (d : DelayWriter σ) (pkt : Packet) : DelayWriter σ × PRes :=
  let r := writeDelay clock d
  let s := sleep r.2 r.1.inner
  ({ r.1 with inner := (w.write s pkt).1, lastPkt := some pkt }, (w.write s pkt).2)

/-- What a `delayWriter` is as a `packetWriter` (plm/port.go 25-31): its `WritePacket` is that of the embedded writer, since its own
method is called `Write`. -/
def asWriter (w : PacketWriter σ) (clock : σ → σ × Int) : PacketWriter (DelayWriter σ) where
  write d pkt := ({ d with inner := (w.write d.inner pkt).1 }, (w.write d.inner pkt).2)
  read d := readPacket w clock d

end DelayWriter

end Insteon
