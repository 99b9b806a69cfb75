import Verif.Model.Packet

/-
plm/port.go 133-218: packetReader
-/

namespace Insteon

/-- `bufio.Reader` over a serial stream: the bytes still to come and the byte that `UnreadByte`
would put back. Simplification: the stream is a finite list followed by end-of-file for
ever; other read errors are in `Feed` (Model/Port.lean). -/
structure Buf where
  rest : Bytes
  last : Option Byte
deriving DecidableEq, Repr

namespace Buf

/-- `bufio.Reader.ReadByte`: `none` is end of file, which does not change the unread byte. -/
def readByte (b : Buf) : Option Byte × Buf :=
  match b.rest with
  | [] => (none, b)
  | x :: rest => (some x, ⟨rest, some x⟩)

/-- `bufio.Reader.UnreadByte`: puts back the last byte read, fails if there is none. -/
def unreadByte (b : Buf) : Option Err × Buf :=
  match b.last with
  | none => (some .invalidUnread, b)
  | some x => (none, ⟨x :: b.rest, none⟩)

/-- `io.ReadAtLeast(reader, buf, n)` / `io.ReadFull` with `len(buf) = n`: the bytes, or the error
and nothing (partial data is never looked at by the caller). -/
def readFull (b : Buf) (n : Nat) : Except Err Bytes × Buf :=
  if n = 0 then (.ok [], b)
  else if b.rest.length < n then
    (.error (if b.rest = [] then .eof else .unexpectedEOF),
      ⟨[], if b.rest = [] then b.last else b.rest.getLast?⟩)
  else (.ok (b.rest.take n), ⟨b.rest.drop n, (b.rest.take n).getLast?⟩)

end Buf

/-- Packet length found by `sync`, shortened when acks are ignored (plm/port.go 167-175). -/
def syncLen (ignoreAck : Bool) (b : Byte) (len : Nat) : Nat :=
  if ignoreAck && decide (0x60 ≤ b.toNat ∧ b.toNat ≤ 0x64) then len - 1 else len

/-- `packetReader.sync` (plm/port.go 152-184) with fuel: the command byte and the length to read,
or an error; `none` when the fuel is used up. When the second `ReadByte` fails, the error is
overwritten by `UnreadByte` and `b` is 0. -/
def sync (ignoreAck : Bool) : Nat → Buf → Option (Except Err (Byte × Nat) × Buf)
  | 0, _ => none
  | fuel + 1, s =>
    match s.readByte with
    | (none, s) => some (.error .eof, s)
    | (some b, s) =>
      if b ≠ 0x02#8 then sync ignoreAck fuel s
      else
        let r := s.readByte
        let b := r.1.getD 0
        let s := r.2
        match commandLen b with
        | some len => some (.ok (b, syncLen ignoreAck b len), s)
        | none =>
          let r := s.unreadByte
          match r.1 with
          | some e => some (.error e, r.2)
          | none => sync ignoreAck fuel r.2

/-- Size of the packet buffer (plm/packet.go 21). -/
def maxPaclen : Nat := 25

/-- `packetReader.read` (plm/port.go 186-206): the bytes `buf[0:n]`, an error, or a panic if a
slice bound exceeds the buffer. -/
def readFrame (ignoreAck : Bool) (fuel : Nat) (s : Buf) : Option (Out Bytes × Buf) :=
  match sync ignoreAck fuel s with
  | none => none
  | some (.error e, s) => some (.err e, s)
  | some (.ok (cmd, paclen), s) =>
    if maxPaclen < 2 + paclen then some (.panic, s)
    else
      match s.readFull paclen with
      | (.error e, s) => some (.err e, s)
      | (.ok data, s) =>
        let frame := [0x02#8, cmd] ++ data
        if cmd = PCmd.sendInsteonMsg then
          match frame[5]? with
          | none => some (.panic, s)
          | some f =>
            if Flags.extended f then
              if maxPaclen < 2 + paclen + 14 then some (.panic, s)
              else
                match s.readFull 14 with
                | (.error e, s) => some (.err e, s)
                | (.ok more, s) => some (.ok (frame ++ more), s)
            else some (.ok frame, s)
        else some (.ok frame, s)

/-- `packetReader.ReadPacket` (plm/port.go 208-218). -/
def readPacket (ignoreAck : Bool) (fuel : Nat) (s : Buf) : Option (Out Packet × Buf) :=
  match readFrame ignoreAck fuel s with
  | none => none
  | some (.err e, s) => some (.err e, s)
  | some (.panic, s) => some (.panic, s)
  | some (.ok frame, s) => some (Packet.unmarshalBinary frame, s)

/-- Reading packets until the stream ends (the loop of plm/plm.go 94-104): packets in order and how the
loop stopped. `n` bounds the number of packets, `fuel` each `sync`. -/
def readAll (ignoreAck : Bool) (fuel : Nat) : Nat → Buf → Option (List Packet × Out Unit)
  | 0, _ => none
  | n + 1, s =>
    match readPacket ignoreAck fuel s with
    | none => none
    | some (.err e, _) => some ([], .err e)
    | some (.panic, _) => some ([], .panic)
    | some (.ok p, s) =>
      match readAll ignoreAck fuel n s with
      | none => none
      | some (ps, r) => some (p :: ps, r)

/-- The packets that loop (plm/plm.go 94-104, plm/snoop.go 37-53) gets before it stops or waits for more bytes. -/
def readMany (ignoreAck : Bool) (fuel : Nat) : Nat → Buf → List Packet
  | 0, _ => []
  | n + 1, s =>
    match readPacket ignoreAck fuel s with
    | some (.ok p, s) => p :: readMany ignoreAck fuel n s
    | _ => []

/-- All the packets in some bytes; each packet takes at least two. -/
def packetsIn (ignoreAck : Bool) (b : Bytes) : List Packet :=
  readMany ignoreAck (b.length + 1) (b.length + 1) ⟨b, none⟩

end Insteon
