import Verif.Model.Message
import Verif.Model.Link
import Mathlib.Tactic.IntervalCases

/-
Bit-level lemmas about addresses and commands.
-/

namespace Insteon

theorem beUint32_bytes (a : Address) :
    beUint32 0 (byte32 (a >>> 16)) (byte32 (a >>> 8)) (byte32 a) = a &&& 0xffffff#32 := by
  ext i hi
  simp only [beUint32, byte32, BitVec.getElem_or, BitVec.getElem_and, BitVec.getElem_shiftLeft,
    BitVec.getElem_setWidth, BitVec.getLsbD_setWidth, BitVec.getLsbD_ushiftRight]
  interval_cases i <;> simp

theorem byte32_beUint32_hi (b1 b2 b3 : Byte) : byte32 (beUint32 0 b1 b2 b3 >>> 16) = b1 := by
  ext i hi
  simp only [beUint32, byte32, BitVec.getElem_setWidth, BitVec.getLsbD_ushiftRight]
  interval_cases i <;> simp

theorem byte32_beUint32_mid (b1 b2 b3 : Byte) : byte32 (beUint32 0 b1 b2 b3 >>> 8) = b2 := by
  ext i hi
  simp only [beUint32, byte32, BitVec.getElem_setWidth, BitVec.getLsbD_ushiftRight]
  interval_cases i <;> simp

theorem byte32_beUint32_lo (b1 b2 b3 : Byte) : byte32 (beUint32 0 b1 b2 b3) = b3 := by
  ext i hi
  simp only [beUint32, byte32, BitVec.getElem_setWidth]
  interval_cases i <;> simp

/-- Low 24 bits, arithmetically. -/
theorem and_ffffff (a : Address) : a &&& 0xffffff#32 = BitVec.ofNat 32 (a.toNat % 2 ^ 24) := by
  apply BitVec.eq_of_toNat_eq
  have h : (0xffffff#32).toNat = 2 ^ 24 - 1 := by decide
  rw [BitVec.toNat_and, h, Nat.and_two_pow_sub_one_eq_mod, BitVec.toNat_ofNat]
  omega

theorem and_ffffff_of_lt (a : Address) (h : a.toNat < 2 ^ 24) : a &&& 0xffffff#32 = a := by
  rw [and_ffffff, Nat.mod_eq_of_lt h]; simp

theorem beUint32_toNat (b1 b2 b3 : Byte) :
    (beUint32 0 b1 b2 b3).toNat = b1.toNat * 65536 + b2.toNat * 256 + b3.toNat := by
  have h1 := b1.isLt; have h2 := b2.isLt; have h3 := b3.isLt
  have e : beUint32 0 b1 b2 b3
      = BitVec.ofNat 32 (b1.toNat * 65536 + b2.toNat * 256 + b3.toNat) := by
    have hz : (0 : BitVec 8).setWidth 32 <<< 24 = 0#32 := by decide
    unfold beUint32
    rw [hz]
    have d1 : (0#32 ||| (b1.setWidth 32 <<< 16)) ||| (b2.setWidth 32 <<< 8)
        = (b1.setWidth 32 <<< 16) + (b2.setWidth 32 <<< 8) := by
      rw [BitVec.zero_or, ← BitVec.add_eq_or_of_and_eq_zero]
      ext i hi
      simp only [BitVec.getElem_and, BitVec.getElem_shiftLeft]
      interval_cases i <;> simp
    have d2 : ((b1.setWidth 32 <<< 16) + (b2.setWidth 32 <<< 8)) ||| b3.setWidth 32
        = ((b1.setWidth 32 <<< 16) + (b2.setWidth 32 <<< 8)) + b3.setWidth 32 := by
      rw [← BitVec.add_eq_or_of_and_eq_zero]
      rw [← d1]
      ext i hi
      simp only [BitVec.getElem_and, BitVec.getElem_or, BitVec.getElem_shiftLeft,
        BitVec.getElem_setWidth]
      interval_cases i <;> simp
    rw [d1, d2]
    apply BitVec.eq_of_toNat_eq
    simp only [BitVec.toNat_add, BitVec.toNat_shiftLeft, BitVec.toNat_setWidth, BitVec.toNat_ofNat,
      Nat.shiftLeft_eq]
    omega
  rw [e, BitVec.toNat_ofNat]
  omega

theorem beUint32_lt (b1 b2 b3 : Byte) : (beUint32 0 b1 b2 b3).toNat < 2 ^ 24 := by
  have h1 := b1.isLt; have h2 := b2.isLt; have h3 := b3.isLt
  rw [beUint32_toNat]; omega

theorem byte32_toNat (a : Address) : (byte32 a).toNat = a.toNat % 256 := by
  simp [byte32]

theorem byte32_shr_toNat (a : Address) (n : Nat) :
    (byte32 (a >>> n)).toNat = a.toNat / 2 ^ n % 256 := by
  simp [byte32, Nat.shiftRight_eq_div_pow]

theorem put_bytes (a : Address) : Address.put a.bytes = a &&& 0xffffff#32 := by
  simpa [Address.put, Address.bytes, putByte] using beUint32_bytes a

theorem put_cons3 (b1 b2 b3 : Byte) (rest : Bytes) :
    Address.put (b1 :: b2 :: b3 :: rest) = beUint32 0 b1 b2 b3 := by
  simp [Address.put, putByte]

theorem bytes_beUint32 (b1 b2 b3 : Byte) : Address.bytes (beUint32 0 b1 b2 b3) = [b1, b2, b3] := by
  simp only [Address.bytes, byte32_beUint32_hi, byte32_beUint32_mid, byte32_beUint32_lo]

/-! Commands -/

theorem command1_byte (c : Command) : c.command1.setWidth 8 = c.extractLsb' 8 8 := by
  ext i hi
  simp only [Command.command1, BitVec.getElem_extractLsb', BitVec.getElem_setWidth,
    BitVec.getLsbD_and]
  interval_cases i <;> simp [BitVec.getElem_sshiftRight]

theorem command2_byte (c : Command) : c.command2.setWidth 8 = c.extractLsb' 0 8 := by
  ext i hi
  simp only [Command.command2, BitVec.getElem_extractLsb', BitVec.getElem_setWidth,
    BitVec.getLsbD_and]
  interval_cases i <;> simp

theorem command0_eq (c : Command) : c.command0 = (c.extractLsb' 16 8).setWidth 64 := by
  ext i hi
  simp only [Command.command0, BitVec.getElem_setWidth, BitVec.getElem_and]
  interval_cases i <;> simp [BitVec.getElem_sshiftRight]

theorem command1_eq (c : Command) : c.command1 = (c.extractLsb' 8 8).setWidth 64 := by
  ext i hi
  simp only [Command.command1, BitVec.getElem_setWidth, BitVec.getElem_and]
  interval_cases i <;> simp [BitVec.getElem_sshiftRight]

theorem command2_eq (c : Command) : c.command2 = (c.extractLsb' 0 8).setWidth 64 := by
  ext i hi
  simp only [Command.command2, BitVec.getElem_setWidth, BitVec.getElem_and]
  interval_cases i <;> simp

/-- The bytes of a command, arithmetically. -/
theorem extract_toNat (c : Command) (k : Nat) :
    (c.extractLsb' k 8).toNat = c.toNat / 2 ^ k % 256 := by
  simp [Nat.shiftRight_eq_div_pow]

theorem setWidth64_inj {a b : Byte} (h : a.setWidth 64 = b.setWidth 64) : a = b := by
  have h' := congrArg BitVec.toNat h
  apply BitVec.eq_of_toNat_eq
  have := a.isLt; have := b.isLt
  simp only [BitVec.toNat_setWidth] at h'
  omega

theorem fromClass_cases (f : Byte) : Command.fromClass f =
    if f &&& 0x10#8 = 0x10#8 then 0x010000#64
    else if f &&& 0xe0#8 = 0x80#8 then 0x080000#64
    else if f &&& 0x40#8 = 0x40#8 then 0x0c0000#64
    else 0#64 := by
  revert f; decide

theorem fromClass_low (f : Byte) :
    (Command.fromClass f).extractLsb' 8 8 = 0#8 ∧ (Command.fromClass f).extractLsb' 0 8 = 0#8 := by
  rw [fromClass_cases]
  split_ifs <;> decide

theorem ofWire_cmd1 (f c1 c2 : Byte) : (Command.ofWire f c1 c2).extractLsb' 8 8 = c1 := by
  have h := (fromClass_low f).1
  unfold Command.ofWire
  rw [BitVec.extractLsb'_or, BitVec.extractLsb'_or, h]
  ext i hi
  simp only [BitVec.getElem_or, BitVec.getElem_extractLsb']
  interval_cases i <;> simp

theorem ofWire_cmd2 (f c1 c2 : Byte) : (Command.ofWire f c1 c2).extractLsb' 0 8 = c2 := by
  have h := (fromClass_low f).2
  unfold Command.ofWire
  rw [BitVec.extractLsb'_or, BitVec.extractLsb'_or, h]
  ext i hi
  simp only [BitVec.getElem_or, BitVec.getElem_extractLsb']
  interval_cases i <;> simp

theorem ofWire_class (f c1 c2 : Byte) :
    (Command.ofWire f c1 c2).extractLsb' 16 8 = (Command.fromClass f).extractLsb' 16 8 := by
  unfold Command.ofWire
  rw [BitVec.extractLsb'_or, BitVec.extractLsb'_or]
  ext i hi
  simp only [BitVec.getElem_or, BitVec.getElem_extractLsb']
  interval_cases i <;> simp

end Insteon
