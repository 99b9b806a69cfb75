import Verif.Spec.AldbDevice

/-
Specification of a device that sends its link database when asked for it (`AldbDev` with answers).
-/

namespace Insteon.Spec

/-- The message with slot `i`, from the device at `src`. -/
def page (src : BitVec 32) (mem : Nat → BitVec 8) (i : Nat) : Message :=
  ⟨src, 1, 0x1a, 0x012f00, [0, 1, BitVec.ofNat 8 (slotTop i / 256), BitVec.ofNat 8 (slotTop i), 0] ++ slot mem i ++ [0]⟩

/-- The slots with records, and the one behind them. -/
def pages (src : BitVec 32) (mem : Nat → BitVec 8) : List Message :=
  (List.range ((database mem).length + 1)).map (page src mem)

/-- A request for the whole database: type 0. -/
def asksAll (m : Message) : Bool := cmd1 m == 0x2f && m.payload.getD 1 0 == 0#8

/-- The device reaches the command. -/
def reaches : List Fate → Bool
  | .lost _ :: _ => false
  | _ => true

/-- The device as a message writer: a request that reaches it makes it send its database. -/
def bookIO (src : BitVec 32) : MsgIO AldbDev where
  read := aldbIO.read
  write := fun d m =>
    let r := aldbIO.write d m
    if asksAll m && reaches d.fates then ({ r.1 with inbox := r.1.inbox ++ pages src d.mem }, r.2) else r

end Insteon.Spec
