import Verif.Model.Reader

/-
plm/port.go 133-218 and plm/plm.go 94-104 once more, over a port whose reads can fail
-/

namespace Insteon

/-- What one read of the port gives: a byte, or an error. -/
inductive PortEvent where
  | got (b : Byte)
  | fail (e : Err)
deriving DecidableEq, Repr

/-- `bufio.Reader` over a port: what the reads still to come give, the error of every read after that, and the byte that `UnreadByte` would put back.
A read of the port that gives several bytes and an error is its bytes followed by the error, which is when `bufio.Reader` reports it. Every error is
reported once and then forgotten, as `bufio.Reader.readErr` does. -/
structure Feed where
  events : List PortEvent
  after : Err
  last : Option Byte
deriving DecidableEq, Repr

namespace Feed

/-- `bufio.Reader.ReadByte`: an error does not change the unread byte. -/
def readByte (f : Feed) : Except Err Byte × Feed :=
  match f.events with
  | [] => (.error f.after, f)
  | .fail e :: es => (.error e, { f with events := es })
  | .got b :: es => (.ok b, { f with events := es, last := some b })

/-- `bufio.Reader.UnreadByte`: puts back the last byte read, fails if there is none. -/
def unreadByte (f : Feed) : Option Err × Feed :=
  match f.last with
  | none => (some .invalidUnread, f)
  | some x => (none, { f with events := .got x :: f.events, last := none })

/-- Up to `n` bytes, the error that came before the last of them, and the events after that. -/
def collect (after : Err) : Nat → List PortEvent → Bytes × Option Err × List PortEvent
  | 0, es => ([], none, es)
  | _ + 1, [] => ([], some after, [])
  | _ + 1, .fail e :: es => ([], some e, es)
  | n + 1, .got b :: es =>
    let r := collect after n es
    (b :: r.1, r.2)

/-- `io.ReadAtLeast(reader, buf, n)` / `io.ReadFull` with `len(buf) = n`: the bytes, or the error; end of file after the first byte becomes
`io.ErrUnexpectedEOF`, any other error is returned as it is. -/
def readFull (f : Feed) (n : Nat) : Except Err Bytes × Feed :=
  let r := collect f.after n f.events
  let f : Feed := { f with events := r.2.2, last := if r.1 = [] then f.last else r.1.getLast? }
  match r.2.1 with
  | none => (.ok r.1, f)
  | some e => (.error (if r.1 ≠ [] ∧ e = .eof then .unexpectedEOF else e), f)

end Feed

/-- `packetReader.sync` (plm/port.go 152-184), see `sync`. When the second `ReadByte` fails, its error is overwritten by that of `UnreadByte` and
the byte is 0. -/
def syncPort (ignoreAck : Bool) : Nat → Feed → Option (Except Err (Byte × Nat) × Feed)
  | 0, _ => none
  | fuel + 1, s =>
    match s.readByte with
    | (.error e, s) => some (.error e, s)
    | (.ok b, s) =>
      if b ≠ 0x02#8 then syncPort ignoreAck fuel s
      else
        let r := s.readByte
        let b := match r.1 with | .ok b => b | .error _ => 0
        let s := r.2
        match commandLen b with
        | some len => some (.ok (b, syncLen ignoreAck b len), s)
        | none =>
          let r := s.unreadByte
          match r.1 with
          | some e => some (.error e, r.2)
          | none => syncPort ignoreAck fuel r.2

/-- `packetReader.read` (plm/port.go 186-206), see `readFrame`. -/
def readFramePort (ignoreAck : Bool) (fuel : Nat) (s : Feed) : Option (Out Bytes × Feed) :=
  match syncPort ignoreAck fuel s with
  | none => none
  | some (.error e, s) => some (.err e, s)
  | some (.ok (cmd, paclen), s) =>
    if maxPaclen < 2 + paclen then some (.panic, s)
    else
      match s.readFull paclen with
      | (.error e, s) => some (.err e, s)
      | (.ok data, s) =>
        let frame := [0x02#8, cmd] ++ data
        if cmd = PCmd.sendInsteonMsg then
          match frame[5]? with
          | none => some (.panic, s)
          | some f =>
            if Flags.extended f then
              if maxPaclen < 2 + paclen + 14 then some (.panic, s)
              else
                match s.readFull 14 with
                | (.error e, s) => some (.err e, s)
                | (.ok more, s) => some (.ok (frame ++ more), s)
            else some (.ok frame, s)
        else some (.ok frame, s)

/-- `packetReader.ReadPacket` (plm/port.go 208-218). -/
def readPacketPort (ignoreAck : Bool) (fuel : Nat) (s : Feed) : Option (Out Packet × Feed) :=
  match readFramePort ignoreAck fuel s with
  | none => none
  | some (.err e, s) => some (.err e, s)
  | some (.panic, s) => some (.panic, s)
  | some (.ok frame, s) => some (Packet.unmarshalBinary frame, s)

/-- How a read loop ends: with an error, which is logged or not, or in a panic. -/
inductive LoopEnd where
  | stopped (e : Err) (logged : Bool)
  | panicked
deriving DecidableEq, Repr

/-- `PLM.readLoop` (plm/plm.go 94-104) and the same loop of plm/snoop.go 37-45: the packets it reads, in order, and how it ends. After the end no
more of the port is read. `n` bounds the number of packets, `fuel` each `sync`. -/
def portLoop (ignoreAck : Bool) (fuel : Nat) : Nat → Feed → Option (List Packet × LoopEnd)
  | 0, _ => none
  | n + 1, s =>
    match readPacketPort ignoreAck fuel s with
    | none => none
    | some (.err e, _) => some ([], .stopped e (!Err.is e .eof))
    | some (.panic, _) => some ([], .panicked)
    | some (.ok p, s) =>
      match portLoop ignoreAck fuel n s with
      | none => none
      | some (ps, r) => some (p :: ps, r)

end Insteon
