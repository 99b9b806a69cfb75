import Verif.Spec.Live
import Verif.Spec.ModemDb

/-
Specification of a modem's All-Link database at the other end of a serial line: bytes in, bytes out (PLM developer's
guide: get first / get next All-Link record, manage All-Link record). The line also carries noise, messages received from
the network and other reports of the modem.
-/

namespace Insteon.Spec

/-- A modem on the line: database of raw records, iteration cursor, number of records handed out, number of host frames
received. -/
structure SerialSt where
  db : List (List (BitVec 8))
  next : Nat
  tick : Nat
  clock : Nat

/-- What a modem may do besides its job: messages it passes on before it answers, noise in front of the answer, reports
and messages between the acknowledgement of a get command and the record, noise in front of the record, and which record
a delete command matches. -/
structure SerialKind where
  ahead : Nat → Traffic
  noise : Nat → List (BitVec 8)
  between : Nat → Items
  gap : Nat → List (BitVec 8)
  deletes : List (BitVec 8) → List (BitVec 8) → Bool

/-- A frame carrying a message received from the network. -/
def Frame.isMessage (f : Frame) : Bool := f.cmd == 0x50#8 || f.cmd == 0x51#8

namespace SerialKind

/-- A modem that keeps to the protocol. Between acknowledgement and record it may pass on any number of messages, but at
most eight other reports. -/
structure lawful (k : SerialKind) : Prop where
  ahead : ∀ n, (k.ahead n).ok
  noise : ∀ n, Quiet (k.noise n)
  gap : ∀ n, Quiet (k.gap n)
  between : ∀ n, ∀ it ∈ k.between n, Quiet it.1 ∧ it.2.wellFormed ∧ it.2.cmd ≠ 0x57#8
  few : ∀ n, ((k.between n).filter fun it => !it.2.isMessage).length ≤ 8
  deletes : ∀ r, k.deletes r r = true

/-- The answer to a host frame: the frame repeated with a status byte, preceded by messages and noise. -/
def answer (k : SerialKind) (m : SerialSt) (cmd : BitVec 8) (body : List (BitVec 8)) (status : BitVec 8) : Items :=
  (k.ahead m.clock).items ++ [(k.noise m.clock, ⟨cmd, body ++ [status]⟩)]

/-- Answer to get first / get next. -/
def get (k : SerialKind) (m : SerialSt) (cmd : BitVec 8) (i : Nat) : SerialSt × Items :=
  match m.db[i]? with
  | none => (m, k.answer m cmd [] 0x15#8)
  | some r =>
    ({ m with next := i + 1, tick := m.tick + 1 },
      k.answer m cmd [] 0x06#8 ++ k.between m.tick ++ [(k.gap m.clock, ⟨0x57#8, r⟩)])

/-- Answer to manage-record: 0x80 deletes, 0x40 and 0x41 update or add a controller or responder. -/
def manage (k : SerialKind) (m : SerialSt) (op : BitVec 8) (r : List (BitVec 8)) : SerialSt × Items :=
  if op = 0x80#8 then
    if m.db.any (k.deletes r) then
      ({ m with db := removeFirst (k.deletes r) m.db }, k.answer m 0x6f#8 (op :: r) 0x06#8)
    else (m, k.answer m 0x6f#8 (op :: r) 0x15#8)
  else if op = 0x40#8 then
    ({ m with db := upsert (fun x => rawController x && sameGroupAddress x r) r m.db },
      k.answer m 0x6f#8 (op :: r) 0x06#8)
  else if op = 0x41#8 then
    ({ m with db := upsert (fun x => !rawController x && sameGroupAddress x r) r m.db },
      k.answer m 0x6f#8 (op :: r) 0x06#8)
  else (m, k.answer m 0x6f#8 (op :: r) 0x15#8)

/-- Effect of the bytes of one host frame, and the frames sent. -/
def receive (k : SerialKind) (m : SerialSt) (bytes : List (BitVec 8)) : SerialSt × Items :=
  match bytes with
  | start :: cmd :: body =>
    if start ≠ 0x02#8 then (m, [])
    else if cmd = 0x69#8 then k.get m cmd 0
    else if cmd = 0x6a#8 then k.get m cmd m.next
    else if cmd = 0x6f#8 then
      match body with
      | op :: r => k.manage m op r
      | [] => (m, [])
    else (m, [])
  | _ => (m, [])

/-- Bytes in, bytes out. -/
def react (k : SerialKind) (m : SerialSt) (bytes : List (BitVec 8)) : SerialSt × List (BitVec 8) :=
  let r := k.receive m bytes
  ({ r.1 with clock := m.clock + 1 }, line r.2)

end SerialKind

end Insteon.Spec
