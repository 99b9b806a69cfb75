import Verif.Model.Link
import Verif.Lemmas.Rune
import Mathlib.Tactic.IntervalCases

/-
Lemmas about the text functions.
-/

namespace Insteon

theorem hexVal_hexDigit (n : Nat) (h : n < 16) : hexVal (hexDigit n) = some n := by
  interval_cases n <;> decide

theorem solid_hexDigit (n : Nat) (h : n < 16) : solid (hexDigit n) = true := by
  interval_cases n <;> decide

theorem hexDigit_ne_newline (n : Nat) (h : n < 16) : hexDigit n ≠ 0x0a#8 := by
  interval_cases n <;> decide

theorem hexDigit_inj {m n : Nat} (hm : m < 16) (hn : n < 16) (h : hexDigit m = hexDigit n) : m = n := by
  have := congrArg hexVal h
  rw [hexVal_hexDigit m hm, hexVal_hexDigit n hn] at this
  exact Option.some.inj this

theorem byte_div16 (b : Byte) : b.toNat / 16 < 16 := by have := b.isLt; omega
theorem byte_mod16 (b : Byte) : b.toNat % 16 < 16 := by omega

theorem skipSpace_cons {b : Byte} {s : Bytes} (h : solid b = true) : skipSpace (b :: s) = some (b :: s) :=
  skipSpace_stop (spaceLen_solid h s)

/-- Two hex digits, whatever their case, scan to their value. -/
theorem scan_two {c1 c2 : Byte} {m n : Nat} (rest : Bytes) (hm : m < 16) (hn : n < 16)
    (h1 : hexVal c1 = some m) (h2 : hexVal c2 = some n) (hs : solid c1 = true) :
    scanHexByte (some 2) (c1 :: c2 :: rest) = some (BitVec.ofNat 8 (16 * m + n), rest) := by
  have hlt : ¬ 255 < 16 * m + n := by omega
  simp [scanHexByte, skipSpace_cons hs, takeHex, h1, h2, hexNumber, hlt]

theorem byte_split (b : Byte) : BitVec.ofNat 8 (16 * (b.toNat / 16) + b.toNat % 16) = b := by
  rw [Nat.div_add_mod]; simp

theorem scan_hex2 (b : Byte) (rest : Bytes) :
    scanHexByte (some 2) (hex2 b ++ rest) = some (b, rest) := by
  have := scan_two rest (byte_div16 b) (byte_mod16 b) (hexVal_hexDigit _ (byte_div16 b))
    (hexVal_hexDigit _ (byte_mod16 b)) (solid_hexDigit _ (byte_div16 b))
  rw [byte_split] at this
  exact this

/-- A whole field of two hex digits scanned with plain `%x`. -/
theorem scan_hex2_field (b : Byte) : scanHexByte none (hex2 b) = some (b, []) := by
  have h1 := byte_div16 b
  have h2 := byte_mod16 b
  have hlt : ¬ 255 < 16 * (b.toNat / 16) + b.toNat % 16 := by omega
  have hb := byte_split b
  simp [scanHexByte, hex2, skipSpace_cons (solid_hexDigit _ h1),
    takeHex, hexVal_hexDigit _ h1, hexVal_hexDigit _ h2, hexNumber, hlt, hb]

theorem hex2_length (b : Byte) : (hex2 b).length = 2 := rfl

theorem hex2_inj {a b : Byte} (h : hex2 a = hex2 b) : a = b := by
  have ha := scan_hex2 a []
  rw [h, scan_hex2 b []] at ha
  simpa using ha.symm

theorem hex2_ne_nil (b : Byte) : hex2 b ≠ [] := by simp [hex2]

theorem hex2_noSpace (b : Byte) : ∀ x ∈ hex2 b, solid x = true := by
  intro x hx
  simp only [hex2, List.mem_cons, List.not_mem_nil, or_false] at hx
  rcases hx with rfl | rfl
  · exact solid_hexDigit _ (byte_div16 b)
  · exact solid_hexDigit _ (byte_mod16 b)

theorem decByte_spec (b : Byte) :
    (∀ x ∈ decByte b, solid x = true) ∧ decByte b ≠ [] ∧ (decByte b).length ≤ 3
      ∧ atoi (decByte b) = some (b.toNat : Int) := by
  revert b; decide +kernel

end Insteon
