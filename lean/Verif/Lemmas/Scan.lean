import Verif.Lemmas.Text
import Verif.Lemmas.Bits
import Verif.Spec.Text

/-
The `fmt.Sscanf` model against the text specification.
-/

namespace Insteon
open Spec

theorem isHexDigit_iff (c : Byte) (v : Nat) : IsHexDigit c v ↔ hexVal c = some v := by
  constructor
  · intro h
    have hv : v < 16 := by
      rcases h with h | h <;>
      · have := (List.getElem?_eq_some_iff.mp h).1
        simpa [lowerDigits, upperDigits, ascii] using this
    rcases h with h | h <;> interval_cases v <;>
      (simp [lowerDigits, upperDigits, ascii] at h; subst h; decide)
  · intro h
    have key : ∀ c : BitVec 8, hexVal c = none ∨ lowerDigits[(hexVal c).getD 0]? = some c ∨
        upperDigits[(hexVal c).getD 0]? = some c := by decide +kernel
    have := key c
    rw [h] at this
    simpa [IsHexDigit] using this

theorem hexVal_lt {c : Byte} {v : Nat} (h : hexVal c = some v) : v < 16 := by
  unfold hexVal at h
  simp only at h
  split_ifs at h <;> simp at h <;> omega

theorem hexChar_iff (c : Byte) : HexChar c ↔ (hexVal c).isSome = true := by
  simp only [HexChar, isHexDigit_iff, Option.isSome_iff_exists]

theorem startsHex_cons (c : Byte) (s : Bytes) : StartsHex (c :: s) ↔ (hexVal c).isSome = true :=
  hexChar_iff c

theorem hexVal_solid {c : Byte} (h : (hexVal c).isSome = true) : solid c = true := by
  revert c; decide

/-- Exact behaviour of `%2x` into a byte. -/
theorem scan2_iff (s r : Bytes) (b : Byte) :
    scanHexByte (some 2) s = some (b, r) ↔
      ∃ w f, s = w ++ f ++ r ∧ Blank w ∧ HexField f b.toNat ∧ (f.length = 2 ∨ ¬ StartsHex r) := by
  constructor
  · intro h
    unfold scanHexByte at h
    cases hsk : skipSpace s with
    | none => simp [hsk] at h
    | some t =>
      obtain ⟨w, hw, hbl, -⟩ := (skipSpace_spec s t).mp hsk
      simp only [hsk, Option.getD_some] at h
      cases t with
      | nil => simp [takeHex] at h
      | cons c t =>
        cases hc : hexVal c with
        | none => simp [takeHex, hc] at h
        | some x =>
          have hx := hexVal_lt hc
          cases t with
          | nil =>
            have h0 : ¬ 255 < x := by omega
            simp [takeHex, hc, hexNumber, h0] at h
            obtain ⟨rfl, rfl⟩ := h
            refine ⟨w, [c], by simp [hw], hbl, Or.inl ⟨c, rfl, ?_⟩, Or.inr (by simp [StartsHex])⟩
            rw [isHexDigit_iff, hc]; simp; omega
          | cons d t =>
            cases hd : hexVal d with
            | none =>
              have h0 : ¬ 255 < x := by omega
              simp [takeHex, hc, hd, hexNumber, h0] at h
              obtain ⟨rfl, rfl⟩ := h
              refine ⟨w, [c], by simp [hw], hbl, Or.inl ⟨c, rfl, ?_⟩, Or.inr ?_⟩
              · rw [isHexDigit_iff, hc]; simp; omega
              · rw [startsHex_cons, hd]; simp
            | some y =>
              have hy := hexVal_lt hd
              have h0 : ¬ 255 < 16 * x + y := by omega
              simp [takeHex, hc, hd, hexNumber, h0] at h
              obtain ⟨rfl, rfl⟩ := h
              refine ⟨w, [c, d], by simp [hw], hbl,
                Or.inr ⟨c, d, x, y, rfl, (isHexDigit_iff c x).mpr hc, (isHexDigit_iff d y).mpr hd,
                  ?_⟩, Or.inl rfl⟩
              rw [BitVec.toNat_ofNat]; omega
  · rintro ⟨w, f, rfl, hbl, hf, hmax⟩
    have hb := b.isLt
    have hhead : ∃ c f', f = c :: f' ∧ (hexVal c).isSome = true := by
      rcases hf with ⟨c, rfl, hc⟩ | ⟨c, d, x, y, rfl, hc, -, -⟩
      · exact ⟨c, [], rfl, by rw [(isHexDigit_iff _ _).mp hc]; rfl⟩
      · exact ⟨c, [d], rfl, by rw [(isHexDigit_iff _ _).mp hc]; rfl⟩
    have hsk : skipSpace (w ++ f ++ r) = some (f ++ r) := by
      obtain ⟨c, f', rfl, hc⟩ := hhead
      rw [skipSpace_spec]
      exact ⟨w, by simp, hbl, spaceLen_solid (hexVal_solid hc) _⟩
    unfold scanHexByte
    rw [hsk]
    simp only [Option.getD_some]
    rcases hf with ⟨c, rfl, hc⟩ | ⟨c, d, x, y, rfl, hc, hd, hv⟩
    · rw [isHexDigit_iff] at hc
      have h0 : ¬ 255 < b.toNat := by omega
      cases r with
      | nil => simp [takeHex, hc, hexNumber, h0]
      | cons e r =>
        have he : hexVal e = none := by
          rcases hmax with hm | hm
          · simp at hm
          · rw [startsHex_cons] at hm; simpa using hm
        simp [takeHex, hc, he, hexNumber, h0]
    · rw [isHexDigit_iff] at hc hd
      have h0 : ¬ 255 < 16 * x + y := by omega
      simp [takeHex, hc, hd, hexNumber, ← hv]
      omega

theorem scanLit_iff (c : Byte) (s r : Bytes) : scanLit c s = some r ↔ s = c :: r := by
  cases s with
  | nil => simp [scanLit]
  | cons b s =>
    by_cases h : b = c
    · simp [scanLit, h]
    · simp [scanLit, h]

theorem scanAddress_eq (s : Bytes) (b1 b2 b3 : Byte) :
    scanAddress s = some (b1, b2, b3) ↔
      ∃ s1 s2 s3, scanHexByte (some 2) s = some (b1, ch '.' :: s1) ∧
        scanHexByte (some 2) s1 = some (b2, ch '.' :: s2) ∧
        scanHexByte (some 2) s2 = some (b3, s3) := by
  unfold scanAddress
  constructor
  · intro h
    split at h
    · simp at h
    · rename_i x1 t1 e1
      split at h
      · simp at h
      · rename_i u1 l1
        split at h
        · simp at h
        · rename_i x2 t2 e2
          split at h
          · simp at h
          · rename_i u2 l2
            split at h
            · simp at h
            · rename_i x3 t3 e3
              simp at h
              obtain ⟨rfl, rfl, rfl⟩ := h
              rw [scanLit_iff] at l1 l2
              subst l1 l2
              exact ⟨u1, u2, t3, e1, e2, e3⟩
  · rintro ⟨s1, s2, s3, h1, h2, h3⟩
    simp [h1, h2, h3, scanLit]

theorem ascii_dot : ascii "." = [ch '.'] := by decide

/-- The address scanner accepts exactly the specified form. -/
theorem scanAddress_iff (s : Bytes) (b1 b2 b3 : Byte) :
    scanAddress s = some (b1, b2, b3) ↔ ∃ rest, AddressForm s b1.toNat b2.toNat b3.toNat rest := by
  rw [scanAddress_eq]
  simp only [scan2_iff, AddressForm, ascii_dot]
  constructor
  · rintro ⟨s1, s2, s3, ⟨w1, f1, rfl, hw1, hf1, -⟩, ⟨w2, f2, rfl, hw2, hf2, -⟩, ⟨w3, f3, rfl, hw3, hf3, hm⟩⟩
    exact ⟨s3, w1, f1, w2, f2, w3, f3, by simp, hw1, hw2, hw3, hf1, hf2, hf3, hm⟩
  · rintro ⟨s3, w1, f1, w2, f2, w3, f3, rfl, hw1, hw2, hw3, hf1, hf2, hf3, hm⟩
    have hdot : ∀ t : Bytes, ¬ StartsHex (ch '.' :: t) := by
      intro t; rw [startsHex_cons]; decide
    exact ⟨w2 ++ f2 ++ [ch '.'] ++ w3 ++ f3 ++ s3, w3 ++ f3 ++ s3, s3,
      ⟨w1, f1, by simp, hw1, hf1, Or.inr (hdot _)⟩, ⟨w2, f2, by simp, hw2, hf2, Or.inr (hdot _)⟩,
      ⟨w3, f3, rfl, hw3, hf3, hm⟩⟩

theorem dotted_eq_withDots (s : Bytes) : dotted s = withDots s := by
  by_cases hl : s.length = 6
  · match s, hl with
    | [a, b, c, d, e, f], _ => simp [dotted, withDots, ascii_dot]
  · rw [dotted, if_neg hl]
    unfold withDots
    split
    · simp at hl
    · rfl

end Insteon
