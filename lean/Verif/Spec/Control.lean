import Verif.Model.Thermostat
import Verif.Spec.Device

/-
Specification vocabulary for the control methods of switches, dimmers and thermostats: one command on the
wire, its two command bytes and its payload.
-/

namespace Insteon.Spec

/-- What a control method reports after its command was written with this result. -/
def reported : MRes → Out (Option Err)
  | .ret _ (some e) => .ok (some e)
  | .ret (some _) none => .ok none
  | .ret none none => .panic
  | .panic => .panic

/-- The method `act` writes exactly one message: direct, to the device, with command bytes `c1` and `c2`; extended
exactly when there is a payload; the payload is `p`, or for I2CS devices `p` filled up to 14 bytes with a valid
checksum at the end. It reports what the writer reports. -/
def Sends (info : DeviceInfo) (c1 c2 : Nat) (p : List (BitVec 8))
    (act : ∀ σ : Type, MsgIO σ → σ → σ × Out (Option Err)) : Prop :=
  ∀ (σ : Type) (io : MsgIO σ) (s : σ), ∃ m : Message,
    act σ io s = ((io.write s m).1, reported (io.write s m).2) ∧
    m.dst = info.address ∧ cmd1 m = c1 ∧ cmd2 m = c2 ∧ typeNumber m.flags = 0 ∧ (isExtended m.flags ↔ p ≠ []) ∧
    (if info.engineVersion = 2#64 ∧ p ≠ [] then
      m.payload.length = 14 ∧ m.payload.take 13 = (fit 14 p).take 13 ∧ checksumOk m
     else m.payload = p)

/-- The method `act` causes no traffic and reports `e`. -/
def Refuses (e : Err) (act : ∀ σ : Type, MsgIO σ → σ → σ × Out (Option Err)) : Prop :=
  ∀ (σ : Type) (io : MsgIO σ) (s : σ), act σ io s = (s, .ok (some e))

/-- An integer reduced to a byte. -/
def low8 (x : Int) : Nat := (x % 256).toNat

/-- The command 2 byte that sets thermostat mode `mode` (command 1 is 0x6b), for the modes 0 off, 1 heat, 2 cool,
3 auto, 4 fan on, 5 program auto, 6 program heat, 7 program cool, 8 fan off. -/
def modeByte : Nat → Option Nat
  | 0 => some 0x09
  | 1 => some 0x04
  | 2 => some 0x05
  | 3 => some 0x06
  | 4 => some 0x07
  | 5 => some 0x0c
  | 6 => some 0x0a
  | 7 => some 0x0b
  | 8 => some 0x08
  | _ => none

/-- The answers to a list of commands (first and second command byte), sent one after the other to `dst` without
payload: second command bytes of the answers up to the first error, state at the end. A missing answer
without error is a panic. -/
def asked {σ : Type} (io : MsgIO σ) (dst : Address) : List Command → σ → σ × Out (List Nat × Option Err)
  | [], s => (s, .ok ([], none))
  | c :: cs, s =>
    match io.write s ⟨0, dst, 0x0f, c, []⟩ with
    | (s, .ret _ (some e)) => (s, .ok ([], some e))
    | (s, .ret (some a) none) =>
      match asked io dst cs s with
      | (s, .ok (l, e)) => (s, .ok (cmd2 a :: l, e))
      | r => r
    | (s, _) => (s, .panic)

end Insteon.Spec
