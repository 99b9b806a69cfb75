import Verif.Lemmas.Bits
import Verif.Spec.Wire

/-
C05-C07: commands (commands/command.go).
-/

namespace Insteon
open Spec

/-! ### C05 SubCommand -/

/-- The three bytes of a command as the accessors report them. -/
theorem command_bytes (c : Command) :
    c.command0.toNat = c.toNat / 65536 % 256 ∧ c.command1.toNat = c.toNat / 256 % 256
      ∧ c.command2.toNat = c.toNat % 256 := by
  rw [command0_eq, command1_eq, command2_eq]
  simp only [BitVec.toNat_setWidth, extract_toNat]
  refine ⟨?_, ?_, ?_⟩ <;> omega

theorem subCommand_toNat (c : Command) (x : BitVec 64) :
    (c.subCommand x).toNat = c.toNat / 256 % 65536 * 256 + x.toNat % 256 := by
  have e : c.subCommand x
      = (c.extractLsb' 8 16).setWidth 64 <<< 8 ||| (x.extractLsb' 0 8).setWidth 64 := by
    ext i hi
    simp only [Command.subCommand, BitVec.getElem_or, BitVec.getElem_and, BitVec.getElem_shiftLeft,
      BitVec.getElem_setWidth]
    interval_cases i <;> simp
  have d : (c.extractLsb' 8 16).setWidth 64 <<< 8 ||| (x.extractLsb' 0 8).setWidth 64
      = (c.extractLsb' 8 16).setWidth 64 <<< 8 + (x.extractLsb' 0 8).setWidth 64 := by
    rw [← BitVec.add_eq_or_of_and_eq_zero]
    ext i hi
    simp only [BitVec.getElem_and, BitVec.getElem_shiftLeft, BitVec.getElem_setWidth]
    interval_cases i <;> simp
  rw [e, d]
  simp only [BitVec.toNat_add, BitVec.toNat_shiftLeft, BitVec.toNat_setWidth,
    BitVec.extractLsb'_toNat, Nat.shiftLeft_eq, Nat.shiftRight_eq_div_pow]
  omega

/-- `SubCommand` keeps class and first command byte and replaces the second one by the low
byte of the argument. -/
theorem subCommand_replaces (c : Command) (x : BitVec 64) :
    (c.subCommand x).command0 = c.command0 ∧ (c.subCommand x).command1 = c.command1
      ∧ (c.subCommand x).command2.toNat = x.toNat % 256 := by
  have h := command_bytes c
  have h' := command_bytes (c.subCommand x)
  have e := subCommand_toNat c x
  refine ⟨?_, ?_, ?_⟩
  · apply BitVec.eq_of_toNat_eq
    rw [h'.1, h.1, e]; omega
  · apply BitVec.eq_of_toNat_eq
    rw [h'.2.1, h.2.1, e]; omega
  · rw [h'.2.2, e]; omega

/-- The same for a Go integer of any sign and size: the byte stored is the argument
modulo 256. -/
theorem subCommand_int (c : Command) (x : Int) :
    ((c.subCommand (BitVec.ofInt 64 x)).command2.toNat : Int) = x % 256 := by
  rw [(subCommand_replaces c _).2.2, BitVec.toNat_ofInt]
  omega

example : (Cmd.extendedGetSet.subCommand (BitVec.ofInt 64 (-1))) = 0x012eff#64 := by decide

/-- Only the last of several sub-commands matters. -/
theorem subCommand_last (c : Command) (x y : BitVec 64) :
    (c.subCommand x).subCommand y = c.subCommand y := by
  apply BitVec.eq_of_toNat_eq
  rw [subCommand_toNat, subCommand_toNat, subCommand_toNat]
  omega

/-- Setting the second command byte from text agrees with `SubCommand` on the parsed
number, and bad text changes nothing. -/
theorem command_set (c : Command) (value : Bytes) :
    (∀ i, atoi value = some i → c.set value = (c.subCommand (BitVec.ofInt 64 i), none)) ∧
    (atoi value = none → (c.set value).1 = c ∧ (c.set value).2 ≠ none) := by
  constructor
  · intro i h; simp [Command.set, h, Command.subCommand]
  · intro h; simp [Command.set, h]

example : (Cmd.extendedGetSet.set [0x34#8, 0x32#8]) = (0x012e2a#64, none) := by decide

/-! ### C06 From -/

theorem fromClass_toNat (f : Byte) : (Command.fromClass f).toNat = commandClass f * 65536 := by
  revert f; decide +kernel

/-- A command decoded from the wire is class, first byte and second byte side by side. -/
theorem ofWire_value (f c1 c2 : Byte) :
    (Command.ofWire f c1 c2).toNat = commandClass f * 65536 + c1.toNat * 256 + c2.toNat := by
  have h1 := ofWire_cmd1 f c1 c2
  have h2 := ofWire_cmd2 f c1 c2
  have h0 := ofWire_class f c1 c2
  have hcls : commandClass f ≤ 12 := by
    unfold commandClass; split_ifs <;> omega
  have hlt : (Command.ofWire f c1 c2).toNat < 2 ^ 24 := by
    unfold Command.ofWire
    rw [BitVec.toNat_or, BitVec.toNat_or]
    apply Nat.or_lt_two_pow
    · apply Nat.or_lt_two_pow
      · rw [fromClass_toNat]; omega
      · have := c1.isLt
        simp only [BitVec.toNat_shiftLeft, BitVec.toNat_setWidth, Nat.shiftLeft_eq]; omega
    · have := c2.isLt
      simp only [BitVec.toNat_setWidth]; omega
  have e1 := congrArg BitVec.toNat h1
  have e2 := congrArg BitVec.toNat h2
  have e0 := congrArg BitVec.toNat h0
  rw [extract_toNat] at e1 e2 e0
  rw [extract_toNat, fromClass_toNat] at e0
  omega

/-- `From` keeps both command bytes exactly and chooses the class from the flags. -/
theorem from_components (f c1 c2 : Byte) :
    (Command.ofWire f c1 c2).command0.toNat = commandClass f
      ∧ (Command.ofWire f c1 c2).command1.toNat = c1.toNat
      ∧ (Command.ofWire f c1 c2).command2.toNat = c2.toNat := by
  have h := command_bytes (Command.ofWire f c1 c2)
  have e := ofWire_value f c1 c2
  have := c1.isLt; have := c2.isLt
  have hcls : commandClass f ≤ 12 := by
    unfold commandClass; split_ifs <;> omega
  rw [h.1, h.2.1, h.2.2, e]
  refine ⟨?_, ?_, ?_⟩ <;> omega

/-- The decoded command does not depend on the hop counts. -/
theorem from_ignores_hops (f g c1 c2 : Byte)
    (h : typeNumber f = typeNumber g) (hx : isExtended f ↔ isExtended g) :
    Command.ofWire f c1 c2 = Command.ofWire g c1 c2 := by
  apply BitVec.eq_of_toNat_eq
  rw [ofWire_value, ofWire_value]
  simp only [commandClass, h, hx]

example : Command.ofWire 0x8f#8 0x01#8 0x02#8 = Command.ofWire 0x83#8 0x01#8 0x02#8 := by decide

/-! ### C07 Matches -/

/-- What `Matches` decides: equality of the first command byte only. Missing from the
expected property: the class is not compared. -/
theorem matches_first_byte_partial (a b : Command) :
    a.matches' b = true ↔ a.toNat / 256 % 256 = b.toNat / 256 % 256 := by
  have ha := (command_bytes a).2.1
  have hb := (command_bytes b).2.1
  unfold Command.matches'
  rw [beq_iff_eq, ← ha, ← hb]
  constructor
  · intro h; rw [h]
  · intro h; exact BitVec.eq_of_toNat_eq h

/-- Matching is an equivalence on commands. -/
theorem matches_equivalence :
    Equivalence fun a b : Command => a.matches' b = true := by
  refine ⟨fun a => ?_, fun {a b} h => ?_, fun {a b c} h1 h2 => ?_⟩
  · rw [matches_first_byte_partial]
  · rw [matches_first_byte_partial] at *; exact h.symm
  · rw [matches_first_byte_partial] at *; exact h1.trans h2

/-- Expected and false: a match means same class and same first byte. -/
theorem matches_class_refuted :
    ¬ ∀ a b : Command, a.matches' b = true → a.command0 = b.command0 ∧ a.command1 = b.command1 := by
  intro h
  have := (h Cmd.enterLinkingMode Cmd.enterLinkingModeExt (by decide)).1
  exact absurd this (by decide)

end Insteon
