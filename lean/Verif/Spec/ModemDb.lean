import Verif.Model.Plm

/-
Specification of a modem's All-Link database as seen from the serial port (PLM developer's guide:
get first / get next All-Link record, manage All-Link record).
-/

namespace Insteon.Spec

/-- The link record held in eight raw bytes: flags, group, address (big endian), three data bytes. -/
def recordOf (r : List (BitVec 8)) : LinkRecord :=
  let b := fun i => r.getD i 0#8
  { flags := b 0, group := b 1,
    address := BitVec.ofNat 32 ((b 2).toNat * 65536 + (b 3).toNat * 256 + (b 4).toNat),
    d0 := b 5, d1 := b 6, d2 := b 7 }

/-- The raw bytes of a record. -/
def rawOf (l : LinkRecord) : List (BitVec 8) :=
  [l.flags, l.group, BitVec.ofNat 8 (l.address.toNat / 65536), BitVec.ofNat 8 (l.address.toNat / 256),
   BitVec.ofNat 8 l.address.toNat, l.d0, l.d1, l.d2]

/-- Same group and address. -/
def sameGroupAddress (a b : List (BitVec 8)) : Bool := (a.drop 1).take 4 == (b.drop 1).take 4

/-- Controller record: bit 6 of the flags. -/
def rawController (a : List (BitVec 8)) : Bool := (a.getD 0 0#8).getLsbD 6

/-- Replace the first element satisfying `p`, or append. -/
def upsert (p : List (BitVec 8) → Bool) (x : List (BitVec 8)) : List (List (BitVec 8)) → List (List (BitVec 8))
  | [] => [x]
  | y :: ys => if p y then x :: ys else y :: upsert p x ys

/-- Remove the first element satisfying `p`. -/
def removeFirst (p : List (BitVec 8) → Bool) : List (List (BitVec 8)) → List (List (BitVec 8))
  | [] => []
  | y :: ys => if p y then ys else y :: removeFirst p ys

/-- A modem: database of raw records, iteration cursor, packets on their way to the host, and a clock for
the unrelated packets it may send. -/
structure ModemSt where
  db : List (List (BitVec 8))
  next : Nat
  inbox : List Packet
  tick : Nat
deriving DecidableEq, Repr

/-- What a modem may do besides its job: packets it sends between the acknowledgement of a get command and
the record, and which record a delete command matches. -/
structure ModemKind where
  chatter : Nat → List Packet
  deletes : List (BitVec 8) → List (BitVec 8) → Bool

namespace ModemKind

/-- A modem that keeps to the protocol: chatter contains no record responses, deleting a record that is
there matches it. -/
def lawful (k : ModemKind) : Prop :=
  (∀ n, ∀ p ∈ k.chatter n, p.command ≠ 0x57#8) ∧ ∀ r, k.deletes r r = true

/-- Answer to get first / get next. -/
def get (k : ModemKind) (m : ModemSt) (cmd : BitVec 8) (i : Nat) : ModemSt :=
  match m.db[i]? with
  | none => { m with inbox := m.inbox ++ [⟨cmd, [], 0x15#8⟩] }
  | some r =>
    { m with next := i + 1, tick := m.tick + 1,
             inbox := m.inbox ++ [⟨cmd, [], 0x06#8⟩] ++ k.chatter m.tick ++ [⟨0x57#8, r, 0#8⟩] }

/-- Answer to manage-record. -/
def manage (k : ModemKind) (m : ModemSt) (op : BitVec 8) (r : List (BitVec 8)) : ModemSt :=
  let ok := fun db => { m with db := db, inbox := m.inbox ++ [⟨0x6f#8, op :: r, 0x06#8⟩] }
  if op = 0x80#8 then
    if m.db.any (k.deletes r) then ok (removeFirst (k.deletes r) m.db)
    else { m with inbox := m.inbox ++ [⟨0x6f#8, op :: r, 0x15#8⟩] }
  else if op = 0x40#8 then ok (upsert (fun x => rawController x && sameGroupAddress x r) r m.db)
  else if op = 0x41#8 then ok (upsert (fun x => !rawController x && sameGroupAddress x r) r m.db)
  else { m with inbox := m.inbox ++ [⟨0x6f#8, op :: r, 0x15#8⟩] }

/-- Effect of the bytes of one host frame. -/
def receive (k : ModemKind) (m : ModemSt) (bytes : List (BitVec 8)) : ModemSt :=
  match bytes with
  | start :: cmd :: body =>
    if start ≠ 0x02#8 then m
    else if cmd = 0x69#8 then k.get m cmd 0
    else if cmd = 0x6a#8 then k.get m cmd m.next
    else if cmd = 0x6f#8 then
      match body with
      | op :: r => k.manage m op r
      | [] => m
    else m
  | _ => m

/-- The serial port with the modem behind it. -/
def io (k : ModemKind) : PlmIO ModemSt where
  tx := fun m bytes => (k.receive m bytes, none)
  rxPacket := fun m => match m.inbox with
    | [] => (m, .timeout)
    | p :: ps => ({ m with inbox := ps }, .packet p)
  rxMsg := fun m => (m, .timeout)

end ModemKind

end Insteon.Spec
