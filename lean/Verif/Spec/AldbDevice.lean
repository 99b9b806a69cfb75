import Mathlib.Data.List.Forall2
import Verif.Model.DeviceLinks
import Verif.Spec.Device

/-
Specification vocabulary for the link database of a device: records as eight bytes, memory slots, what a device
sends when asked for its database, and a device with memory that carries out the writes it receives.
-/

namespace Insteon.Spec

/-- The eight bytes of a link record: flags, group, address (high byte first), three data bytes. -/
def raw (l : LinkRecord) : List (BitVec 8) :=
  [l.flags, l.group, BitVec.ofNat 8 (l.address.toNat / 65536), BitVec.ofNat 8 (l.address.toNat / 256),
   BitVec.ofNat 8 l.address.toNat, l.d0, l.d1, l.d2]

/-- Eight bytes with bit 1 of the first one clear mark the end of the database. -/
def isEnd (r : List (BitVec 8)) : Prop := (r.headD 0).toNat / 2 % 2 = 0

instance (r : List (BitVec 8)) : Decidable (isEnd r) := by unfold isEnd; infer_instance

/-- Address (0 .. 65535) of slot `i`: that of its last byte, 0x0fff for slot 0 and 8 less for each following
slot. -/
def slotTop (i : Nat) : Nat := ((4095 - 8 * (i : Int)) % 65536).toNat

/-- A message carrying the eight bytes `r` of slot `i`. -/
def Carries (m : Message) (i : Nat) (r : List (BitVec 8)) : Prop :=
  cmd1 m = 0x2f ∧ r.length = 8 ∧ ∃ (x y : BitVec 8) (tail : List (BitVec 8)),
    m.payload = [x, 0x01, BitVec.ofNat 8 (slotTop i / 256), BitVec.ofNat 8 (slotTop i), y] ++ r ++ tail

/-- `Transmits i links ms`: the messages `ms` transmit the records `links` from slot `i` on: each record once
and then any number of copies of it, an end record at last; unrelated messages anywhere. -/
inductive Transmits : Nat → List LinkRecord → List Message → Prop where
  | other (i links m ms) : cmd1 m ≠ 0x2f → Transmits i links ms → Transmits i links (m :: ms)
  | again (i r links m ms) : Carries m i r → Transmits (i + 1) links ms → Transmits (i + 1) links (m :: ms)
  | next (i l links m ms) : Carries m i (raw l) → ¬ isEnd (raw l) → l.address.toNat < 2 ^ 24 →
      Transmits (i + 1) links ms → Transmits i (l :: links) (m :: ms)
  | last (i r m) : Carries m i r → isEnd r → Transmits i [] [m]

/-- The eight bytes at slot `i`. -/
def slot (mem : Nat → BitVec 8) (i : Nat) : List (BitVec 8) :=
  (List.range 8).map fun k => mem ((slotTop i + k + 65529) % 65536)

/-- Memory after storing the bytes `r` with the last of eight at address `top`. -/
def store (mem : Nat → BitVec 8) (top : Nat) (r : List (BitVec 8)) : Nat → BitVec 8 := fun a =>
  if (a + 65536 + 7 - top) % 65536 < 8 then r.getD ((a + 65536 + 7 - top) % 65536) 0 else mem a

/-- The records from slot `i` on, up to the first end record, looking at `n` slots. -/
def recordsFrom (mem : Nat → BitVec 8) : Nat → Nat → List (List (BitVec 8))
  | 0, _ => []
  | n + 1, i => if isEnd (slot mem i) then [] else slot mem i :: recordsFrom mem n (i + 1)

/-- The device's database: its memory has room for 512 records. -/
def database (mem : Nat → BitVec 8) : List (List (BitVec 8)) := recordsFrom mem 512 0

/-- What happens to a command: it is carried out; it is lost and the sender sees an error; it is carried
out but the sender sees an error. -/
inductive Fate where
  | done
  | lost (e : Err)
  | unconfirmed (e : Err)

/-- A device: memory, the fate of the commands to come (afterwards all are carried out), messages on their way
to the host. -/
structure AldbDev where
  mem : Nat → BitVec 8
  fates : List Fate
  inbox : List Message

/-- Memory after a command: only a database write request (type 2, eight bytes) changes it. -/
def obey (mem : Nat → BitVec 8) (m : Message) : Nat → BitVec 8 :=
  match m.payload with
  | _ :: t :: hi :: lo :: n :: rest =>
    if cmd1 m = 0x2f ∧ t = 2 ∧ n = 8 then store mem (hi.toNat * 256 + lo.toNat) (rest.take 8) else mem
  | _ => mem

/-- The device as a message writer. -/
def aldbIO : MsgIO AldbDev where
  read := fun d => match d.inbox with
    | [] => (d, .ret none (some .insReadTimeout))
    | m :: rest => ({ d with inbox := rest }, .ret (some m) none)
  write := fun d m => match d.fates with
    | .lost e :: fs => ({ d with fates := fs }, .ret none (some e))
    | .unconfirmed e :: fs => ({ d with mem := obey d.mem m, fates := fs }, .ret none (some e))
    | .done :: fs => ({ d with mem := obey d.mem m, fates := fs }, acks m)
    | [] => ({ d with mem := obey d.mem m }, acks m)

/-- `Heard links slots ms`: the messages `ms` are what the host hears of a transmission of `links`; `slots` says which record each of them
carries, if any. The records come in order; copies may be heard again and records may be lost. -/
structure Heard (links : List LinkRecord) (slots : List (Option Nat)) (ms : List Message) : Prop where
  carried : List.Forall₂ (fun m (t : Option Nat) => match t with
    | none => cmd1 m ≠ 0x2f
    | some j => ∃ l, links[j]? = some l ∧ Carries m j (raw l)) ms slots
  order : (slots.filterMap id).Pairwise (· ≤ ·)

/-- The records heard at least once, in order. -/
def heardRecords (links : List LinkRecord) (slots : List (Option Nat)) : List LinkRecord :=
  (List.range links.length).filterMap fun j => if some j ∈ slots then links[j]? else none

end Insteon.Spec
