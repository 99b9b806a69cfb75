import Verif.Lemmas.Scan

/-
C01-C04: addresses (address.go).
-/

namespace Insteon
open Spec

/-! ### C01 address text round trip -/

theorem hexDigit_table (n : Nat) (h : n < 16) : hexDigit n = lowerDigits.getD n 0 := by
  interval_cases n <;> decide

/-- Every address prints as the canonical text of its low 24 bits: lower-case hex digits from
the table, bytes separated by dots. -/
theorem address_text_format (a : Address) :
    a.string = addressText lowerDigits (ascii ".") (a.toNat % 2 ^ 24) := by
  unfold Address.string addressText hex2
  rw [byte32_shr_toNat, byte32_shr_toNat, byte32_toNat, ascii_dot]
  rw [hexDigit_table _ (by omega), hexDigit_table _ (by omega), hexDigit_table _ (by omega),
    hexDigit_table _ (by omega), hexDigit_table _ (by omega), hexDigit_table _ (by omega)]
  have e1 : a.toNat / 2 ^ 16 % 256 / 16 = a.toNat % 2 ^ 24 / 1048576 % 16 := by omega
  have e2 : a.toNat / 2 ^ 16 % 256 % 16 = a.toNat % 2 ^ 24 / 65536 % 16 := by omega
  have e3 : a.toNat / 2 ^ 8 % 256 / 16 = a.toNat % 2 ^ 24 / 4096 % 16 := by omega
  have e4 : a.toNat / 2 ^ 8 % 256 % 16 = a.toNat % 2 ^ 24 / 256 % 16 := by omega
  have e5 : a.toNat % 256 / 16 = a.toNat % 2 ^ 24 / 16 % 16 := by omega
  have e6 : a.toNat % 256 % 16 = a.toNat % 2 ^ 24 % 16 := by omega
  rw [e1, e2, e3, e4, e5, e6]

example : Address.string 0x8f1c05#32 = ascii "8f.1c.05" := by decide

/-- The text is always exactly 8 characters. -/
theorem address_text_length (a : Address) : a.string.length = 8 := by
  simp [Address.string, hex2]

theorem scanAddress_string (a : Address) :
    scanAddress a.string = some (byte32 (a >>> 16), byte32 (a >>> 8), byte32 a) := by
  rw [scanAddress_eq]
  refine ⟨hex2 (byte32 (a >>> 8)) ++ (ch '.' :: hex2 (byte32 a)), hex2 (byte32 a), [], ?_, ?_, ?_⟩
  · rw [← scan_hex2]; simp [Address.string]
  · rw [← scan_hex2]
  · rw [← scan_hex2]; simp

/-- Parsing the text of any address value gives its low 24 bits, whatever the receiver held. -/
theorem address_text_roundtrip (a recv : Address) :
    recv.unmarshalText a.string = (BitVec.ofNat 32 (a.toNat % 2 ^ 24), none) := by
  have h6 : dotted a.string = a.string := by
    rw [dotted, if_neg]; rw [address_text_length]; decide
  unfold Address.unmarshalText
  rw [h6, scanAddress_string]
  simp only [beUint32_bytes, and_ffffff]

/-- Exact round trip on valid (24-bit) addresses; `Set` (command line) behaves the same. -/
theorem address_text_roundtrip_valid (a recv : Address) (h : a.toNat < 2 ^ 24) :
    recv.unmarshalText a.string = (a, none) ∧ recv.set a.string = (a, none)
      ∧ recv.unmarshalText a.marshalText = (a, none) := by
  have e := address_text_roundtrip a recv
  rw [Nat.mod_eq_of_lt h] at e
  have e' : BitVec.ofNat 32 a.toNat = a := by simp
  rw [e'] at e
  exact ⟨e, e, e⟩

example : (0x8f1c05#32 : Address).toNat < 2 ^ 24 := by decide

/-- Distinct 24-bit addresses have distinct texts. -/
theorem address_text_injective (a b : Address) (ha : a.toNat < 2 ^ 24) (hb : b.toNat < 2 ^ 24)
    (h : a.string = b.string) : a = b := by
  have e1 := (address_text_roundtrip_valid a 0 ha).1
  have e2 := (address_text_roundtrip_valid b 0 hb).1
  rw [h, e2] at e1
  exact (congrArg Prod.fst e1).symm

theorem scan_strict {s : Bytes} {v1 v2 v3 : Nat} (h : StrictAddressText s v1 v2 v3) :
    scanAddress (dotted s)
      = some (BitVec.ofNat 8 v1, BitVec.ofNat 8 v2, BitVec.ofNat 8 v3)
      ∧ v1 < 256 ∧ v2 < 256 ∧ v3 < 256 := by
  obtain ⟨f1, f2, f3, hs, l1, l2, l3, hf1, hf2, hf3⟩ := h
  have lt : ∀ f v, HexField f v → v < 256 := by
    rintro f v (⟨c, -, hc⟩ | ⟨c, d, x, y, -, hc, hd, rfl⟩)
    · have := hexVal_lt ((isHexDigit_iff _ _).mp hc); omega
    · have := hexVal_lt ((isHexDigit_iff _ _).mp hc)
      have := hexVal_lt ((isHexDigit_iff _ _).mp hd); omega
  have b1 := lt _ _ hf1
  have b2 := lt _ _ hf2
  have b3 := lt _ _ hf3
  have hd : dotted s = f1 ++ [ch '.'] ++ f2 ++ [ch '.'] ++ f3 := by
    rw [dotted_eq_withDots]
    match f1, l1, f2, l2, f3, l3 with
    | [a, b], _, [c, d], _, [e, f], _ =>
      rcases hs with rfl | rfl
      · simp [withDots, ascii_dot]
      · simp [withDots, ascii_dot]
  refine ⟨?_, b1, b2, b3⟩
  rw [hd, scanAddress_iff]
  refine ⟨[], [], f1, [], f2, [], f3, by simp [ascii_dot], blank_nil, blank_nil,
    blank_nil, ?_, ?_, ?_, Or.inl l3⟩
  · rwa [BitVec.toNat_ofNat, Nat.mod_eq_of_lt b1]
  · rwa [BitVec.toNat_ofNat, Nat.mod_eq_of_lt b2]
  · rwa [BitVec.toNat_ofNat, Nat.mod_eq_of_lt b3]

/-- Every well-formed text (two digits per byte, either case, dotted or not) parses to the
address it spells. -/
theorem address_parse_strict (recv : Address) (s : Bytes) (v1 v2 v3 : Nat)
    (h : StrictAddressText s v1 v2 v3) :
    recv.unmarshalText s = (BitVec.ofNat 32 (v1 * 65536 + v2 * 256 + v3), none) := by
  obtain ⟨hs, b1, b2, b3⟩ := scan_strict h
  unfold Address.unmarshalText
  rw [hs]
  simp only [Prod.mk.injEq, and_true]
  apply BitVec.eq_of_toNat_eq
  rw [beUint32_toNat]
  simp only [BitVec.toNat_ofNat]
  omega

theorem digit_field (ds : List (BitVec 8)) (hds : ds = lowerDigits ∨ ds = upperDigits)
    (x y : Nat) (hx : x < 16) (hy : y < 16) :
    HexField [ds.getD x 0, ds.getD y 0] (16 * x + y) := by
  have key : ∀ z, z < 16 → IsHexDigit (ds.getD z 0) z := by
    intro z hz
    have hlen : z < ds.length := by
      rcases hds with rfl | rfl <;> simpa [lowerDigits, upperDigits, ascii] using hz
    have : ds[z]? = some (ds.getD z 0) := by
      rw [List.getD_eq_getElem?_getD, List.getElem?_eq_getElem hlen]; simp
    rcases hds with rfl | rfl
    · exact Or.inl this
    · exact Or.inr this
  exact Or.inr ⟨_, _, x, y, rfl, key x hx, key y hy, rfl⟩

/-- The undotted form and the upper-case form (and both together) of an address parse to the
same address. -/
theorem address_text_variants (recv : Address) (n : Nat) (h : n < 2 ^ 24)
    (ds : List (BitVec 8)) (hds : ds = lowerDigits ∨ ds = upperDigits)
    (sep : List (BitVec 8)) (hsep : sep = [] ∨ sep = ascii ".") :
    recv.unmarshalText (addressText ds sep n) = (BitVec.ofNat 32 n, none) := by
  have hS : StrictAddressText (addressText ds sep n) (n / 65536) (n / 256 % 256) (n % 256) := by
    refine ⟨[ds.getD (n / 1048576 % 16) 0, ds.getD (n / 65536 % 16) 0],
      [ds.getD (n / 4096 % 16) 0, ds.getD (n / 256 % 16) 0],
      [ds.getD (n / 16 % 16) 0, ds.getD (n % 16) 0], ?_, rfl, rfl, rfl, ?_, ?_, ?_⟩
    · rcases hsep with rfl | rfl
      · right; simp [addressText]
      · left; simp [addressText]
    · have e : n / 65536 = 16 * (n / 1048576 % 16) + n / 65536 % 16 := by omega
      have := digit_field ds hds (n / 1048576 % 16) (n / 65536 % 16) (Nat.mod_lt _ (by decide)) (Nat.mod_lt _ (by decide))
      rw [← e] at this
      exact this
    · have e : n / 256 % 256 = 16 * (n / 4096 % 16) + n / 256 % 16 := by omega
      have := digit_field ds hds (n / 4096 % 16) (n / 256 % 16) (Nat.mod_lt _ (by decide)) (Nat.mod_lt _ (by decide))
      rw [← e] at this
      exact this
    · have e : n % 256 = 16 * (n / 16 % 16) + n % 16 := by omega
      have := digit_field ds hds (n / 16 % 16) (n % 16) (Nat.mod_lt _ (by decide)) (Nat.mod_lt _ (by decide))
      rw [← e] at this
      exact this
  rw [address_parse_strict recv _ _ _ _ hS]
  have e : n / 65536 * 65536 + n / 256 % 256 * 256 + n % 256 = n := by omega
  rw [e]

example : Address.unmarshalText 7#32 (ascii "8F1C05") = (0x8f1c05#32, none) := by decide
example : addressText upperDigits [] 0x8f1c05 = ascii "8F1C05" := by decide

/-! ### C02 parsing is total, safe and bounded -/

/-- Any text either is rejected with the format error and an unchanged receiver, or is accepted
with a value below 2^24 whose three bytes are the ones spelled in the text. -/
theorem address_parse_total (recv : Address) (text : Bytes) :
    recv.unmarshalText text = (recv, some .addrFormat) ∨
    ∃ v1 v2 v3 rest, AddressForm (withDots text) v1 v2 v3 rest
      ∧ v1 < 256 ∧ v2 < 256 ∧ v3 < 256
      ∧ recv.unmarshalText text = (BitVec.ofNat 32 (v1 * 65536 + v2 * 256 + v3), none) := by
  unfold Address.unmarshalText
  cases h : scanAddress (dotted text) with
  | none => left; rfl
  | some r =>
    obtain ⟨b1, b2, b3⟩ := r
    right
    obtain ⟨rest, hr⟩ := (scanAddress_iff _ _ _ _).mp h
    rw [dotted_eq_withDots] at hr
    refine ⟨b1.toNat, b2.toNat, b3.toNat, rest, hr, b1.isLt, b2.isLt, b3.isLt, ?_⟩
    simp only [Prod.mk.injEq, and_true]
    apply BitVec.eq_of_toNat_eq
    rw [beUint32_toNat, BitVec.toNat_ofNat]
    have := b1.isLt; have := b2.isLt; have := b3.isLt
    omega

/-- An accepted text always yields a valid 24-bit address; a rejected one never changes the
receiver. -/
theorem address_parse_bounded (recv : Address) (text : Bytes) :
    ((recv.unmarshalText text).2 = none → (recv.unmarshalText text).1.toNat < 2 ^ 24) ∧
    ((recv.unmarshalText text).2 ≠ none →
      (recv.unmarshalText text) = (recv, some .addrFormat)) := by
  rcases address_parse_total recv text with h | ⟨v1, v2, v3, rest, -, h1, h2, h3, h⟩
  · rw [h]; simp
  · rw [h]
    simp only [BitVec.toNat_ofNat, ne_eq, not_true_eq_false, false_implies, and_true, true_implies]
    omega

example : Address.unmarshalText 7#32 (ascii "no address") = (7#32, some .addrFormat) := by decide
example : Address.unmarshalText 7#32 (ascii "1.2.f") = (0x01020f#32, none) := by decide
/-- Six characters are cut into pairs even if they contain dots. -/
example : Address.unmarshalText 7#32 (ascii "1.2.f0") = (7#32, some .addrFormat) := by decide

/-! ### C03 malformed text -/

/-- Exactly which texts are accepted: three dot-separated fields of one or two hex digits,
each optionally preceded by blanks, followed by anything. Six characters are read as dotted. -/
theorem address_parse_accepts_partial (recv : Address) (text : Bytes) :
    (recv.unmarshalText text).2 = none ↔
      ∃ v1 v2 v3 rest, AddressForm (withDots text) v1 v2 v3 rest := by
  constructor
  · intro h
    rcases address_parse_total recv text with h' | ⟨v1, v2, v3, rest, hf, -⟩
    · rw [h'] at h; simp at h
    · exact ⟨v1, v2, v3, rest, hf⟩
  · rintro ⟨v1, v2, v3, rest, hf⟩
    have lt : ∀ f v, HexField f v → v < 256 := by
      rintro f v (⟨c, -, hc⟩ | ⟨c, d, x, y, -, hc, hd, rfl⟩)
      · have := hexVal_lt ((isHexDigit_iff _ _).mp hc); omega
      · have := hexVal_lt ((isHexDigit_iff _ _).mp hc)
        have := hexVal_lt ((isHexDigit_iff _ _).mp hd); omega
    have hb : v1 < 256 ∧ v2 < 256 ∧ v3 < 256 := by
      obtain ⟨w1, f1, w2, f2, w3, f3, -, -, -, -, h1, h2, h3, -⟩ := hf
      exact ⟨lt _ _ h1, lt _ _ h2, lt _ _ h3⟩
    have e : scanAddress (dotted text)
        = some (BitVec.ofNat 8 v1, BitVec.ofNat 8 v2, BitVec.ofNat 8 v3) := by
      rw [scanAddress_iff, dotted_eq_withDots]
      refine ⟨rest, ?_⟩
      simp only [BitVec.toNat_ofNat]
      rw [Nat.mod_eq_of_lt hb.1, Nat.mod_eq_of_lt hb.2.1, Nat.mod_eq_of_lt hb.2.2]
      exact hf
    simp [Address.unmarshalText, e]

/-- The expected property "only well-formed text is accepted" is false: text after the address
is ignored, and so are missing digits. -/
theorem address_parse_strict_refuted :
    ¬ ∀ (recv : Address) (text : Bytes), (recv.unmarshalText text).2 = none →
        ∃ v1 v2 v3, StrictAddressText text v1 v2 v3 := by
  intro h
  have h1 := h 0 (ascii "01.02.03.04") (by decide)
  obtain ⟨v1, v2, v3, f1, f2, f3, hs, l1, l2, l3, -⟩ := h1
  have hl : (ascii "01.02.03.04").length = 11 := by decide
  rcases hs with hs | hs
  · rw [hs] at hl; simp [ascii, l1, l2, l3] at hl
  · rw [hs] at hl; simp [l1, l2, l3] at hl

/-- Witnesses: a fourth field is dropped, and so is a surplus digit. -/
theorem address_parse_trailing_witness :
    Address.unmarshalText 0 (ascii "01.02.03.04") = (0x010203#32, none) ∧
    Address.unmarshalText 0 (ascii "1.2.345") = (0x010234#32, none) := by decide

/-! ### C04 wire bytes -/

/-- Writing an address and reading it back gives its low 24 bits; exact for valid ones. -/
theorem address_bytes_roundtrip (a : Address) :
    Address.put a.bytes = BitVec.ofNat 32 (a.toNat % 2 ^ 24) := by
  rw [put_bytes, and_ffffff]

theorem address_bytes_roundtrip_valid (a : Address) (h : a.toNat < 2 ^ 24) :
    Address.put a.bytes = a := by
  rw [put_bytes, and_ffffff_of_lt a h]

/-- Most significant byte first, always three bytes. -/
theorem address_bytes_big_endian (a : Address) :
    a.bytes.map BitVec.toNat = [a.toNat / 65536 % 256, a.toNat / 256 % 256, a.toNat % 256] := by
  simp only [Address.bytes, List.map_cons, List.map_nil]
  rw [byte32_shr_toNat, byte32_shr_toNat, byte32_toNat]
  rfl

/-- Any three bytes (with anything after them) read as an address are written back
identically, and the address is their big-endian value. -/
theorem address_put_bytes (b1 b2 b3 : Byte) (rest : Bytes) :
    (Address.put (b1 :: b2 :: b3 :: rest)).bytes = [b1, b2, b3] ∧
    (Address.put (b1 :: b2 :: b3 :: rest)).toNat
      = b1.toNat * 65536 + b2.toNat * 256 + b3.toNat := by
  rw [put_cons3]
  exact ⟨bytes_beUint32 b1 b2 b3, beUint32_toNat b1 b2 b3⟩

/-- `Put` never panics: short buffers read missing bytes as zero. -/
theorem address_put_short (buf : Bytes) :
    Address.put buf = Address.put (buf ++ [0, 0, 0]) := by
  unfold Address.put putByte
  have key : ∀ i, i < 3 → (buf[i]?).getD 0 = ((buf ++ [0, 0, 0])[i]?).getD (0 : Byte) := by
    intro i hi
    by_cases h : i < buf.length
    · rw [List.getElem?_append_left h]
    · rw [List.getElem?_append_right (by omega), List.getElem?_eq_none (by omega)]
      have : i - buf.length < 3 := by omega
      interval_cases hh : (i - buf.length) <;> rfl
  rw [key 0 (by omega), key 1 (by omega), key 2 (by omega)]

example : Address.put [0x8f#8, 0x1c#8] = 0x8f1c00#32 := by decide
example : Address.bytes 0x8f1c05#32 = [0x8f#8, 0x1c#8, 0x05#8] := by decide

end Insteon
