import Verif.Model.Ic
import Verif.Spec.Ic
import Verif.Spec.LinkOps
import Verif.Lemmas.Scan
import Verif.Props.Address
import Verif.Props.Link
import Verif.Props.LinkSearch
import Verif.Props.PlmLinks
import Verif.Props.Network
import Verif.Props.Monitor
import Verif.Props.Live

/-
C119 to C128: the commands of cmd/ic and cmd/anonymize.
-/

namespace Insteon
namespace Ic
open Spec

/-! ### C119 command arguments -/

theorem hexPair_iff (a b : Byte) (v : Nat) :
    HexPair [a, b] v ↔ ∃ x y, hexVal a = some x ∧ hexVal b = some y ∧ v = 16 * x + y := by
  simp [HexPair, HexField, isHexDigit_iff]

theorem low_byte (n : Nat) (h : n < 256) : BitVec.ofInt 64 (n : Int) &&& 0xff#64 = BitVec.ofNat 64 n := by
  apply BitVec.eq_of_toNat_eq
  rw [BitVec.toNat_and, BitVec.ofInt_natCast, BitVec.toNat_ofNat, BitVec.toNat_ofNat, Nat.mod_eq_of_lt (by omega : n < 2 ^ 64),
    Nat.and_two_pow_sub_one_eq_mod n 8]
  omega

theorem low_byte_neg (n : Nat) (h : n < 16) : BitVec.ofInt 64 (-(n : Int)) &&& 0xff#64 = BitVec.ofNat 64 ((256 - n) % 256) := by
  interval_cases n <;> decide

theorem parseInt8_two (a b : Byte) : parseInt8 [a, b] =
    if a = ch '-' then (hexVal b).map fun y : Nat => -(y : Int)
    else if a = ch '+' then (hexVal b).map fun y : Nat => (y : Int)
    else match hexVal a, hexVal b with
      | some x, some y => if 128 ≤ 16 * x + y then none else some ((16 * x + y : Nat) : Int)
      | _, _ => none := by
  unfold parseInt8
  by_cases h1 : a = ch '-'
  · rcases hb : hexVal b with _ | y
    · simp [h1, hexDigits, hb]
    · have := hexVal_lt hb
      simp [h1, hexDigits, hb, hexNumber]
      omega
  · by_cases h2 : a = ch '+'
    · rcases hb : hexVal b with _ | y
      · simp [h2, hexDigits, hb]
      · have := hexVal_lt hb
        have h3 : ch '+' ≠ ch '-' := by decide
        simp [h2, hexDigits, hb, hexNumber, h3]
        omega
    · rcases ha : hexVal a with _ | x <;> rcases hb : hexVal b with _ | y <;> simp [h1, h2, hexDigits, ha, hb, hexNumber]

theorem signed_byte (s : Bytes) (hs : s.length = 2) (v : Nat) :
    SignedByte s v ↔ v < 256 ∧ ∃ i, parseInt8 s = some i ∧ BitVec.ofInt 64 i &&& 0xff#64 = BitVec.ofNat 64 v := by
  obtain ⟨a, b, rfl⟩ : ∃ a b, s = [a, b] := by
    match s, hs with
    | [a, b], _ => exact ⟨a, b, rfl⟩
  have inj : ∀ m n : Nat, m < 256 → n < 256 → BitVec.ofNat 64 m = BitVec.ofNat 64 n → m = n := by
    intro m n hm hn h
    have := congrArg BitVec.toNat h
    simp only [BitVec.toNat_ofNat] at this
    omega
  have hm : hexVal (ch '-') = none := by decide
  have hp : hexVal (ch '+') = none := by decide
  have hpm : ch '+' ≠ ch '-' := by decide
  have e1 : ascii "+" = [ch '+'] := by decide
  have e2 : ascii "-" = [ch '-'] := by decide
  rw [parseInt8_two]
  simp only [SignedByte, hexPair_iff, isHexDigit_iff, e1, e2, List.cons_append, List.nil_append, List.cons.injEq, and_true]
  by_cases h1 : a = ch '-'
  · subst h1
    simp only [if_true, hm, reduceCtorEq, false_and, exists_false, false_or, Ne.symm hpm, true_and]
    constructor
    · rintro ⟨d, x, rfl, hx, rfl⟩
      have := hexVal_lt hx
      exact ⟨by omega, -(x : Int), by simp [hx], low_byte_neg x this⟩
    · rintro ⟨hv, i, hi, hb⟩
      obtain ⟨y, hy, rfl⟩ := Option.map_eq_some_iff.1 hi
      have := hexVal_lt hy
      rw [low_byte_neg y this] at hb
      exact ⟨b, y, rfl, hy, (inj _ _ (by omega) hv hb).symm⟩
  · by_cases h2 : a = ch '+'
    · subst h2
      simp only [if_true, hp, reduceCtorEq, false_and, exists_false, false_or, hpm, if_false, true_and, or_false]
      constructor
      · rintro ⟨d, rfl, hx⟩
        have := hexVal_lt hx
        exact ⟨by omega, (v : Int), by simp [hx], low_byte v (by omega)⟩
      · rintro ⟨hv, i, hi, hb⟩
        obtain ⟨y, hy, rfl⟩ := Option.map_eq_some_iff.1 hi
        have := hexVal_lt hy
        rw [low_byte y (by omega)] at hb
        exact ⟨b, rfl, (inj _ _ (by omega) hv hb) ▸ hy⟩
    · simp only [h1, h2, false_and, exists_false, or_false, if_false]
      constructor
      · rintro ⟨⟨x, y, hx, hy, rfl⟩, hlt⟩
        refine ⟨by omega, ((16 * x + y : Nat) : Int), ?_, low_byte _ (by omega)⟩
        rw [hx, hy]
        simp only
        rw [if_neg (by omega)]
      · rintro ⟨hv, i, hi, hb⟩
        rcases hx : hexVal a with _ | x <;> rcases hy : hexVal b with _ | y <;> rw [hx, hy] at hi <;> simp only [reduceCtorEq] at hi
        split_ifs at hi with hlt
        simp only [Option.some.injEq] at hi
        subst hi
        rw [low_byte _ (by omega)] at hb
        have := inj _ _ (by omega) hv hb
        exact ⟨⟨x, y, rfl, rfl, this.symm⟩, by omega⟩

theorem join_bytes (v1 v2 : Nat) (h1 : v1 < 256) (h2 : v2 < 256) :
    (BitVec.ofNat 64 v1 <<< 8) ||| BitVec.ofNat 64 v2 = BitVec.ofNat 64 (v1 * 256 + v2) := by
  apply BitVec.eq_of_toNat_eq
  rw [BitVec.toNat_or, BitVec.toNat_shiftLeft, BitVec.toNat_ofNat, BitVec.toNat_ofNat, BitVec.toNat_ofNat,
    Nat.mod_eq_of_lt (by omega : v1 < 2 ^ 64), Nat.mod_eq_of_lt (by omega : v2 < 2 ^ 64), Nat.shiftLeft_eq,
    Nat.mod_eq_of_lt (by omega : v1 * 2 ^ 8 < 2 ^ 64), ← Nat.shiftLeft_eq, ← Nat.shiftLeft_add_eq_or_of_lt (by omega : v2 < 2 ^ 8),
    Nat.shiftLeft_eq]
  omega

theorem undotted_iff (s t : Bytes) : Undotted s t ↔ t = withoutPeriod s := by
  have e : (ch '.') = 0x2e#8 := by decide
  induction s generalizing t with
  | nil => simp [Undotted, withoutPeriod]
  | cons b s ih =>
    rw [withoutPeriod, e]
    by_cases hb : b = 0x2e#8
    · subst hb
      rw [if_pos rfl]
      constructor
      · rintro (⟨-, h⟩ | ⟨a, c, h1, h2, rfl⟩)
        · simp at h
        · cases a with
          | nil => simpa using h1.symm
          | cons x a => simp at h1; exact absurd (by simp [h1.1]) h2
      · rintro rfl
        exact Or.inr ⟨[], t, rfl, by simp, rfl⟩
    · rw [if_neg hb]
      constructor
      · rintro (⟨rfl, h⟩ | ⟨a, c, h1, h2, rfl⟩)
        · have := (ih s).1 (Or.inl ⟨rfl, fun hh => h (by simp [hh])⟩)
          rw [← this]
        · cases a with
          | nil => simp at h1; exact absurd h1.1 hb
          | cons x a =>
            simp only [List.cons_append, List.cons.injEq] at h1
            have := (ih (a ++ c)).1 (Or.inr ⟨a, c, h1.2, fun hh => h2 (by simp [hh]), rfl⟩)
            rw [List.cons_append, this, h1.1]
      · rintro rfl
        rcases (ih _).2 rfl with ⟨h1, h2⟩ | ⟨a, c, h1, h2, h3⟩
        · exact Or.inl ⟨by rw [h1], by simp [h2, Ne.symm hb]⟩
        · exact Or.inr ⟨b :: a, c, by simp [h1], by simp [h2, Ne.symm hb], by simp [h3]⟩

/-- C119, what is accepted: without its first period the text must be two pairs of characters, each a signed hex number; the command has the two
bytes. Otherwise there is an error and the command is as before. -/
theorem command_argument_accepts (cmd : Command) (s : Bytes) :
    (∀ c, cmdSet cmd s = (c, none) ↔ ∃ f1 f2 v1 v2, Undotted s (f1 ++ f2) ∧ f1.length = 2 ∧ f2.length = 2 ∧ SignedByte f1 v1 ∧ SignedByte f2 v2
        ∧ c = BitVec.ofNat 64 (v1 * 256 + v2))
      ∧ ((cmdSet cmd s).2 ≠ none → (cmdSet cmd s).1 = cmd) := by
  simp only [undotted_iff]
  unfold cmdSet
  generalize withoutPeriod s = t
  by_cases hl : t.length ≠ 4
  · simp only [if_pos hl]
    refine ⟨fun c => ⟨by simp, ?_⟩, by simp⟩
    rintro ⟨f1, f2, v1, v2, rfl, h1, h2, -⟩
    simp [h1, h2] at hl
  · simp only [if_neg hl]
    have hl : t.length = 4 := not_not.1 hl
    have l1 : (t.take 2).length = 2 := by simp [hl]
    have l2 : (t.drop 2).length = 2 := by simp [hl]
    have split : ∀ f1 f2 : Bytes, f1 ++ f2 = t → f1.length = 2 → f1 = t.take 2 ∧ f2 = t.drop 2 := by
      rintro f1 f2 rfl h
      rw [← h]
      simp
    rcases hp1 : parseInt8 (t.take 2) with _ | c1
    · refine ⟨fun c => ⟨by simp, ?_⟩, fun _ => rfl⟩
      rintro ⟨f1, f2, v1, v2, h, h1, h2, hs, -⟩
      rw [(split f1 f2 h h1).1, signed_byte _ l1, hp1] at hs
      simp at hs
    · dsimp only
      rcases hp2 : parseInt8 (t.drop 2) with _ | c2
      · refine ⟨fun c => ⟨by simp, ?_⟩, fun _ => rfl⟩
        rintro ⟨f1, f2, v1, v2, h, h1, h2, -, hs, -⟩
        rw [(split f1 f2 h h1).2, signed_byte _ l2, hp2] at hs
        simp at hs
      · dsimp only
        refine ⟨fun c => ?_, by simp⟩
        constructor
        · intro h
          simp only [Prod.mk.injEq, and_true] at h
          have ex : ∀ (s : Bytes) i, s.length = 2 → parseInt8 s = some i → ∃ v, v < 256 ∧ SignedByte s v ∧ BitVec.ofInt 64 i &&& 0xff#64 = BitVec.ofNat 64 v := by
            intro s i hs hi
            have hb : (BitVec.ofInt 64 i &&& 0xff#64).toNat < 256 := by
              rw [BitVec.toNat_and]
              exact lt_of_le_of_lt Nat.and_le_right (by decide)
            have he : BitVec.ofInt 64 i &&& 0xff#64 = BitVec.ofNat 64 (BitVec.ofInt 64 i &&& 0xff#64).toNat := by
              rw [BitVec.ofNat_toNat, BitVec.setWidth_eq]
            exact ⟨_, hb, (signed_byte s hs _).2 ⟨hb, i, hi, he⟩, he⟩
          obtain ⟨v1, b1, s1, e1⟩ := ex _ _ l1 hp1
          obtain ⟨v2, b2, s2, e2⟩ := ex _ _ l2 hp2
          refine ⟨t.take 2, t.drop 2, v1, v2, by simp, l1, l2, s1, s2, ?_⟩
          rw [← h, e1, e2, join_bytes v1 v2 b1 b2]
        · rintro ⟨f1, f2, v1, v2, h, h1, h2, s1, s2, rfl⟩
          rw [(split f1 f2 h h1).1, signed_byte _ l1, hp1] at s1
          rw [(split f1 f2 h h1).2, signed_byte _ l2, hp2] at s2
          obtain ⟨b1, i1, q1, e1⟩ := s1
          obtain ⟨b2, i2, q2, e2⟩ := s2
          rw [Option.some.inj q1, Option.some.inj q2, e1, e2, join_bytes v1 v2 b1 b2]

theorem hexPair_no_period {f : Bytes} {v : Nat} (h : HexPair f v) : 0x2e#8 ∉ f := by
  obtain ⟨hl, hf⟩ := h
  match f, hl with
  | [a, b], hl =>
    obtain ⟨x, y, hx, hy, -⟩ := (hexPair_iff a b v).1 ⟨rfl, hf⟩
    have hd : hexVal 0x2e#8 = none := by decide
    simp only [List.mem_cons, List.not_mem_nil, or_false, not_or]
    constructor
    · rintro rfl; simp [hd] at hx
    · rintro rfl; simp [hd] at hy

/-- C119 in part: a command written as two pairs of hex digits, with or without a period, is taken as written if both bytes are below 0x80. -/
theorem command_argument_partial (cmd : Command) (s : Bytes) (v1 v2 : Nat) (h : CommandText s v1 v2) (h1 : v1 < 128) (h2 : v2 < 128) :
    cmdSet cmd s = (BitVec.ofNat 64 (v1 * 256 + v2), none) := by
  obtain ⟨f1, f2, hs, p1, p2⟩ := h
  refine ((command_argument_accepts cmd s).1 _).2 ⟨f1, f2, v1, v2, ?_, p1.1, p2.1, Or.inl ⟨p1, h1⟩, Or.inl ⟨p2, h2⟩, rfl⟩
  have d1 := hexPair_no_period p1
  have d2 := hexPair_no_period p2
  rcases hs with rfl | rfl
  · exact Or.inl ⟨rfl, by simp [d1, d2]⟩
  · exact Or.inr ⟨f1, f2, by simp [ascii], d1, rfl⟩

example : CommandText (ascii "11.7f") 0x11 0x7f :=
  ⟨ascii "11", ascii "7f", Or.inr (by decide), ⟨by decide, Or.inr ⟨_, _, 1, 1, rfl, Or.inl (by decide), Or.inl (by decide), rfl⟩⟩,
    by decide, Or.inr ⟨_, _, 7, 15, rfl, Or.inl (by decide), Or.inl (by decide), rfl⟩⟩

/-- C119 is false of the code: bytes from 0x80 on are rejected. Setting a light to full brightness (11.ff) cannot be written. -/
theorem command_argument_refuted :
    ¬ ∀ (cmd : Command) (s : Bytes) (v1 v2 : Nat), CommandText s v1 v2 → cmdSet cmd s = (BitVec.ofNat 64 (v1 * 256 + v2), none) := by
  intro h
  have := h 0#64 (ascii "11ff") 0x11 0xff
    ⟨ascii "11", ascii "ff", Or.inl (by decide), ⟨by decide, Or.inr ⟨_, _, 1, 1, rfl, Or.inl (by decide), Or.inl (by decide), rfl⟩⟩,
      by decide, Or.inr ⟨_, _, 15, 15, rfl, Or.inl (by decide), Or.inl (by decide), rfl⟩⟩
  revert this
  decide +kernel

/-- Text that is no command is accepted: a sign and one digit stand for a byte. -/
theorem command_argument_sign : cmdSet 0#64 (ascii "11-1") = (0x11ff#64, none) ∧ ¬ ∃ v1 v2, CommandText (ascii "11-1") v1 v2 := by
  refine ⟨by decide +kernel, ?_⟩
  rintro ⟨v1, v2, f1, f2, hs, p1, p2⟩
  have hl1 := p1.1
  have hl2 := p2.1
  have hm : hexVal 0x2d#8 = none := by decide
  match f1, f2, hl1, hl2 with
  | [a, b], [c, d], _, _ =>
    rcases hs with hs | hs
    · have e : (0x2d#8 : Byte) = c := by
        have := congrArg (fun l : Bytes => l[2]?) hs
        exact Option.some.inj this
      obtain ⟨x, y, hx, -⟩ := (hexPair_iff c d v2).1 p2
      rw [← e, hm] at hx
      simp at hx
    · have := congrArg List.length hs
      simp [ascii] at this

/-! ### C120 address arguments -/

/-- C120. Addresses given as arguments are added in order up to the first that is no address; an error is reported exactly if there is one. -/
theorem address_arguments (as : List Address) (ss : List Bytes) :
    ∃ good rest vals, ss = good ++ rest ∧ List.Forall₂ (fun s a => ∀ recv : Address, recv.set s = (a, none)) good vals
      ∧ (addressesSet as ss).1 = as ++ vals
      ∧ ((rest = [] ∧ (addressesSet as ss).2 = none)
        ∨ ∃ s r, rest = s :: r ∧ (∀ recv : Address, recv.set s = (recv, some .addrFormat)) ∧ (addressesSet as ss).2 = some .addrFormat) := by
  induction ss generalizing as with
  | nil => exact ⟨[], [], [], rfl, .nil, by simp [addressesSet], Or.inl ⟨rfl, rfl⟩⟩
  | cons s ss ih =>
    have key : ∀ recv : Address, recv.set s = match scanAddress (dotted s) with
        | none => (recv, some .addrFormat)
        | some (b1, b2, b3) => (beUint32 0 b1 b2 b3, none) := fun recv => rfl
    rcases hs : scanAddress (dotted s) with _ | ⟨b1, b2, b3⟩ <;> rw [hs] at key <;> dsimp only at key
    · refine ⟨[], s :: ss, [], rfl, .nil, ?_, Or.inr ⟨s, ss, rfl, key, ?_⟩⟩ <;> rw [addressesSet, key] <;> simp
    · obtain ⟨good, rest, vals, h1, h2, h3, h4⟩ := ih (as ++ [beUint32 0 b1 b2 b3])
      have e : addressesSet as (s :: ss) = addressesSet (as ++ [beUint32 0 b1 b2 b3]) ss := by rw [addressesSet, key]
      rw [e]
      exact ⟨s :: good, rest, _ :: vals, by simp [h1], .cons key h2, by rw [h3]; simp, h4⟩

theorem fields_join (ws : List Bytes) (h : ∀ w ∈ ws, w ≠ [] ∧ ∀ x ∈ w, solid x = true) : fields (joinWith [ch ' '] ws) = ws := by
  induction ws with
  | nil => rfl
  | cons w ws ih =>
    obtain ⟨hw, hsp⟩ := h w (by simp)
    have ih := ih (fun x hx => h x (by simp [hx]))
    cases ws with
    | nil => rw [joinWith, fields_token_end w hw hsp]
    | cons v ws =>
      have := fields_token_spaces w 1 (joinWith [ch ' '] (v :: ws)) hw hsp (by simp)
      rw [joinWith, List.append_assoc, ← ih]
      exact ih.symm ▸ this

/-- The text of a list of addresses, split at the spaces, is read back as the same addresses. -/
theorem address_list_roundtrip (as : List Address) (h : ∀ a ∈ as, a.toNat < 2 ^ 24) :
    addressesSet [] (fields (addressesString as)) = (as, none) := by
  have hf : fields (addressesString as) = as.map Address.string := by
    apply fields_join
    intro w hw
    obtain ⟨a, -, rfl⟩ := List.mem_map.1 hw
    refine ⟨?_, string_no_space a⟩
    intro h0
    have := address_text_length a
    rw [h0] at this
    simp at this
  rw [hf]
  have gen : ∀ (as acc : List Address), (∀ a ∈ as, a.toNat < 2 ^ 24) → addressesSet acc (as.map Address.string) = (acc ++ as, none) := by
    intro as
    induction as with
    | nil => intro acc _; simp [addressesSet]
    | cons a as ih =>
      intro acc h
      rw [List.map_cons, addressesSet, (address_text_roundtrip_valid a 0#32 (h a (by simp))).2.1]
      dsimp only
      rw [ih _ (fun x hx => h x (by simp [hx]))]
      simp
  simpa using gen as [] h

example : addressesString [0x010203#32, 0xa0b0c0#32] = lit "01.02.03 a0.b0.c0" := by decide +kernel

/-! ### C121 data arguments -/

theorem takeHex_all (s : Bytes) : ∃ ds, s = ds ++ (takeHex s.length s).2 ∧ List.Forall₂ IsHexDigit ds (takeHex s.length s).1
    ∧ ¬ StartsHex (takeHex s.length s).2 := by
  induction s with
  | nil => exact ⟨[], rfl, .nil, id⟩
  | cons b s ih =>
    rw [List.length_cons, takeHex]
    rcases hb : hexVal b with _ | v
    · exact ⟨[], rfl, .nil, by rw [startsHex_cons, hb]; simp⟩
    · obtain ⟨ds, h1, h2, h3⟩ := ih
      exact ⟨b :: ds, by simpa using h1, .cons ((isHexDigit_iff b v).2 hb) h2, h3⟩

theorem takeHex_unique {ds : Bytes} {vs : List Nat} (h : List.Forall₂ IsHexDigit ds vs) (rest : Bytes) (hr : ¬ StartsHex rest) :
    takeHex (ds ++ rest).length (ds ++ rest) = (vs, rest) := by
  induction h with
  | nil =>
    cases rest with
    | nil => rfl
    | cons b rest =>
      rw [List.nil_append, List.length_cons, takeHex]
      rw [startsHex_cons] at hr
      rcases hb : hexVal b with _ | v
      · rfl
      · simp [hb] at hr
  | cons hd _ ih =>
    rw [List.cons_append, List.length_cons, takeHex, (isHexDigit_iff _ _).1 hd]
    simp only [ih]

/-- What a data argument is read as. -/
theorem scan_byteArg (s : Bytes) (b : Byte) :
    (∃ rest, scanHexByte none s = some (b, rest)) ↔ ∃ v, ByteArg s v ∧ v ≤ 255 ∧ b = BitVec.ofNat 8 v := by
  constructor
  · rintro ⟨rest, h⟩
    unfold scanHexByte at h
    rcases hs : skipSpace s with _ | t <;> rw [hs] at h <;> dsimp only [Option.getD_none] at h
    · simp at h
    · obtain ⟨w, hw, hb, -⟩ := (skipSpace_spec s t).1 hs
      obtain ⟨ds, h1, h2, h3⟩ := takeHex_all t
      split_ifs at h with hn hv
      simp only [Option.some.injEq, Prod.mk.injEq] at h
      refine ⟨hexNumber (takeHex t.length t).1, ⟨w, ds, (takeHex t.length t).2, by rw [List.append_assoc, ← h1, hw], hb, ?_, ⟨_, h2, rfl⟩, h3⟩,
        by omega, h.1.symm⟩
      rintro rfl
      cases h2e : (takeHex t.length t).1 with
      | nil => exact hn h2e
      | cons x l => rw [h2e] at h2; cases h2
  · rintro ⟨v, ⟨w, ds, rest, rfl, hb, hne, ⟨vs, hvs, rfl⟩, hr⟩, hv, rfl⟩
    refine ⟨rest, ?_⟩
    have hsk : skipSpace (w ++ ds ++ rest) = some (ds ++ rest) := by
      refine (skipSpace_spec _ _).2 ⟨w, by simp, hb, ?_⟩
      cases hvs with
      | nil => exact absurd rfl hne
      | cons hd _ => exact spaceLen_solid (hexVal_solid (by rw [(isHexDigit_iff _ _).1 hd]; rfl)) _
    unfold scanHexByte
    rw [hsk]
    dsimp only [Option.getD_none]
    rw [takeHex_unique hvs rest hr]
    have hvn : vs ≠ [] := by
      rintro rfl
      cases hvs
      exact hne rfl
    dsimp only
    rw [if_neg hvn, if_neg (by unfold hexNumber; omega)]
    rfl

/-- C121, exactly: data arguments are added in order, each the hex number it begins with, up to the first that does not begin with a hex number
of at most 255; an error is reported exactly if there is one. -/
theorem data_arguments_partial (d : Bytes) (ss : List Bytes) :
    ∃ good rest vals, ss = good ++ rest ∧ List.Forall₂ (fun s v => ByteArg s v ∧ v ≤ 255) good vals
      ∧ (dataSet d ss).1 = d ++ vals.map (BitVec.ofNat 8)
      ∧ ((rest = [] ∧ (dataSet d ss).2 = none) ∨ ∃ s r, rest = s :: r ∧ (¬ ∃ v, ByteArg s v ∧ v ≤ 255) ∧ (dataSet d ss).2 ≠ none) := by
  induction ss generalizing d with
  | nil => exact ⟨[], [], [], rfl, .nil, by simp [dataSet], Or.inl ⟨rfl, rfl⟩⟩
  | cons s ss ih =>
    rcases hs : scanHexByte none s with _ | ⟨b, l⟩
    · refine ⟨[], s :: ss, [], rfl, .nil, by simp [dataSet, hs], Or.inr ⟨s, ss, rfl, ?_, by simp [dataSet, hs]⟩⟩
      rintro ⟨v, h1, h2⟩
      obtain ⟨rest, h⟩ := (scan_byteArg s _).2 ⟨v, h1, h2, rfl⟩
      simp [hs] at h
    · obtain ⟨v, h1, h2, rfl⟩ := (scan_byteArg s b).1 ⟨l, hs⟩
      obtain ⟨good, rest, vals, i1, i2, i3, i4⟩ := ih (d ++ [BitVec.ofNat 8 v])
      have e : dataSet d (s :: ss) = dataSet (d ++ [BitVec.ofNat 8 v]) ss := by rw [dataSet, hs]
      rw [e]
      exact ⟨s :: good, rest, v :: vals, by simp [i1], .cons ⟨h1, h2⟩ i2, by simp [i3], i4⟩

/-- What is printed with two hex digits is read back. -/
theorem data_roundtrip (d bs : Bytes) : dataSet d (bs.map hex2) = (d ++ bs, none) := by
  induction bs generalizing d with
  | nil => simp [dataSet]
  | cons b bs ih =>
    rw [List.map_cons, dataSet, scan_hex2_field]
    dsimp only
    rw [ih]
    simp

/-- C121 is false of the code: what follows the digits is not looked at, so that `0x12` is taken for 0. -/
theorem data_arguments_refuted :
    ¬ ∀ (d : Bytes) (ss : List Bytes), (dataSet d ss).2 = none → ∀ s ∈ ss, ∃ v, HexNumber s v := by
  intro h
  obtain ⟨v, vs, h1, -⟩ := h [] [ascii "0x12"] (by decide +kernel) (ascii "0x12") (by simp)
  have e : ascii "0x12" = [0x30#8, 0x78#8, 0x31#8, 0x32#8] := by decide
  rw [e] at h1
  cases h1 with
  | cons _ h2 =>
    cases h2 with
    | cons h3 _ =>
      rw [isHexDigit_iff] at h3
      have : hexVal 0x78#8 = none := by decide
      simp [this] at h3

example : dataSet [] [ascii "0x12", ascii "1g", ascii " ff"] = ([0#8, 1#8, 0xff#8], none) := by decide +kernel

/-! ### C122 configuration switches -/

/-- One attempt to read the configuration. -/
theorem cfg_read_once (m : CfgModem) (hin : m.inbox = []) :
    ∃ fs a e, Plm.writePacket cfgIO m ⟨PCmd.getConfig, [], 0#8⟩ = (⟨m.cfg, [], fs⟩, .ret a e)
      ∧ (e = none → ∃ k, a = some ⟨0x73#8, [m.cfg, 0#8, 0#8], k⟩) ∧ (m.fates = [] → fs = [] ∧ e = none) := by
  obtain ⟨cfg, inbox, fates⟩ := m
  dsimp only at hin
  subst hin
  rcases fates with _ | ⟨_ | _ | _ | _ | e, fs⟩
  · exact ⟨[], _, _, rfl, fun _ => ⟨_, rfl⟩, fun _ => ⟨rfl, rfl⟩⟩
  · exact ⟨fs, _, _, rfl, fun _ => ⟨_, rfl⟩, by simp⟩
  · exact ⟨fs, _, some .plmNak, rfl, by simp, by simp⟩
  · exact ⟨fs, _, some (.wrapped .plmReadTimeout), rfl, by simp, by simp⟩
  · exact ⟨fs, _, some (.wrapped .plmReadTimeout), rfl, by simp, by simp⟩
  · exact ⟨fs, _, some e, rfl, by simp, by simp⟩

/-- One attempt to set it. -/
theorem cfg_write_once (m : CfgModem) (hin : m.inbox = []) (b : Byte) :
    ∃ cfg fs a e, Plm.writePacket cfgIO m ⟨PCmd.setConfig, [b], 0#8⟩ = (⟨cfg, [], fs⟩, .ret a e)
      ∧ (cfg = b ∨ (cfg = m.cfg ∧ e ≠ none)) ∧ (m.fates = [] → fs = [] ∧ e = none) := by
  obtain ⟨cfg, inbox, fates⟩ := m
  dsimp only at hin
  subst hin
  have hok : ∀ fs, ∃ a, Plm.checkAck ⟨PCmd.setConfig, [b], 0#8⟩ ⟨0x6b#8, [b], 0x06#8⟩ = .ok none ∧ a = (⟨b, [], fs⟩ : CfgModem) := by
    intro fs
    refine ⟨_, ?_, rfl⟩
    simp [Plm.checkAck, Packet.isACK, Packet.isNAK, PCmd.setConfig, PCmd.getInfo, PCmd.getConfig, PCmd.sendInsteonMsg]
  have hno : Plm.checkAck ⟨PCmd.setConfig, [b], 0#8⟩ ⟨0x6b#8, [b], 0x15#8⟩ = .ok (some .plmNak) := by
    simp [Plm.checkAck, Packet.isACK, Packet.isNAK, PCmd.setConfig, PCmd.getInfo, PCmd.getConfig, PCmd.sendInsteonMsg]
  have hcmd : ∀ c : Byte, CfgModem.command c (Packet.marshalBinary ⟨PCmd.setConfig, [b], 0#8⟩) = some (b, ⟨0x6b#8, [b], 0x06#8⟩) := fun c => rfl
  unfold Plm.writePacket
  rcases fates with _ | ⟨_ | _ | _ | _ | e, fs⟩ <;> simp only [cfgIO, hcmd, List.nil_append, (hok []).choose_spec.1, hno]
  · exact ⟨b, [], _, _, rfl, Or.inl rfl, fun _ => ⟨rfl, rfl⟩⟩
  · exact ⟨b, fs, _, _, rfl, Or.inl rfl, by simp⟩
  · exact ⟨cfg, fs, _, some .plmNak, rfl, Or.inr ⟨rfl, by simp⟩, by simp⟩
  · exact ⟨cfg, fs, _, _, rfl, Or.inr ⟨rfl, by simp⟩, by simp⟩
  · exact ⟨b, fs, _, _, rfl, Or.inl rfl, by simp⟩
  · exact ⟨cfg, fs, _, _, rfl, Or.inr ⟨rfl, by simp⟩, by simp⟩

theorem cfg_read (retries : Nat) (m : CfgModem) (hin : m.inbox = []) :
    ∃ fs c e, Plm.config cfgIO retries m = (⟨m.cfg, [], fs⟩, .ok (c, e)) ∧ (e = none → c = m.cfg) ∧ (m.fates = [] → fs = [] ∧ e = none) := by
  have loop : ∀ (n : Nat) (m : CfgModem) (cur : PRes), m.inbox = [] → 0 < n →
      ∃ fs a e, retryLoop (Plm.writePacket cfgIO) true ⟨PCmd.getConfig, [], 0#8⟩ n m cur = (⟨m.cfg, [], fs⟩, .ret a e)
        ∧ (e = none → ∃ k, a = some ⟨0x73#8, [m.cfg, 0#8, 0#8], k⟩) ∧ (m.fates = [] → fs = [] ∧ e = none) := by
    intro n
    induction n with
    | zero => intro _ _ _ h; omega
    | succ n ih =>
      intro m cur hin _
      obtain ⟨fs, a, e, h1, h2, h3⟩ := cfg_read_once m hin
      rw [retryLoop, h1]
      dsimp only
      split_ifs with hr
      · rcases Nat.eq_zero_or_pos n with rfl | hn
        · exact ⟨fs, a, e, rfl, h2, h3⟩
        · obtain ⟨fs', a', e', i1, i2, i3⟩ := ih ⟨m.cfg, [], fs⟩ (.ret a e) rfl hn
          refine ⟨fs', a', e', i1, i2, fun hf => ?_⟩
          exact i3 (h3 hf).1
      · exact ⟨fs, a, e, rfl, h2, h3⟩
  obtain ⟨fs, a, e, h1, h2, h3⟩ := loop (((retries : Int) + 1).toNat) m (.ret none none) hin (by omega)
  unfold Plm.config retryWrite
  rw [h1]
  cases e with
  | some e => exact ⟨fs, _, some e, rfl, by simp, h3⟩
  | none =>
    obtain ⟨k, rfl⟩ := h2 rfl
    exact ⟨fs, m.cfg, none, rfl, fun _ => rfl, h3⟩

theorem cfg_write (retries : Nat) (m : CfgModem) (hin : m.inbox = []) (c : Byte) :
    ∃ cfg fs e, Plm.setConfig cfgIO retries m c = (⟨cfg, [], fs⟩, .ok e) ∧ (cfg = c &&& 0xf0#8 ∨ (cfg = m.cfg ∧ e ≠ none))
      ∧ (m.fates = [] → fs = [] ∧ e = none) := by
  have loop : ∀ (b : Byte) (n : Nat) (m : CfgModem) (cur : PRes), m.inbox = [] → 0 < n →
      ∃ cfg fs a e, retryLoop (Plm.writePacket cfgIO) true ⟨PCmd.setConfig, [b], 0#8⟩ n m cur = (⟨cfg, [], fs⟩, .ret a e)
        ∧ (cfg = b ∨ (cfg = m.cfg ∧ e ≠ none)) ∧ (m.fates = [] → fs = [] ∧ e = none) := by
    intro b n
    induction n with
    | zero => intro _ _ _ h; omega
    | succ n ih =>
      intro m cur hin _
      obtain ⟨cfg, fs, a, e, h1, h2, h3⟩ := cfg_write_once m hin b
      rw [retryLoop, h1]
      dsimp only
      split_ifs with hr
      · rcases Nat.eq_zero_or_pos n with rfl | hn
        · exact ⟨cfg, fs, a, e, rfl, h2, h3⟩
        · obtain ⟨cfg', fs', a', e', i1, i2, i3⟩ := ih ⟨cfg, [], fs⟩ (.ret a e) rfl hn
          refine ⟨cfg', fs', a', e', i1, ?_, fun hf => i3 (h3 hf).1⟩
          rcases i2 with i2 | ⟨i2, i2'⟩
          · exact Or.inl i2
          · rcases h2 with h2 | ⟨h2, -⟩
            · exact Or.inl (i2.trans h2)
            · exact Or.inr ⟨i2.trans h2, i2'⟩
      · exact ⟨cfg, fs, a, e, rfl, h2, h3⟩
  obtain ⟨cfg, fs, a, e, h1, h2, h3⟩ := loop (c &&& 0xf0#8) (((retries : Int) + 1).toNat) m (.ret none none) hin (by omega)
  unfold Plm.setConfig retryWrite Config.marshalBinary
  rw [h1]
  exact ⟨cfg, fs, e, rfl, h2, h3⟩

theorem changeFlag_spec (set : Bool) (flag : Bytes) (c : Byte) :
    (∀ c', changeFlag set flag c = some c' → ∃ pos, (flag, pos) ∈ flagLetters ∧ Switched pos set c (c' &&& 0xf0#8))
      ∧ (changeFlag set flag c = none ↔ ∀ pos, (flag, pos) ∉ flagLetters) := by
  have bits : ∀ (set : Bool) (c : Byte),
      Switched 7 set c ((if set then Config.setAutomaticLinking c else Config.clearAutomaticLinking c) &&& 0xf0#8)
      ∧ Switched 6 set c ((if set then Config.setMonitorMode c else Config.clearMonitorMode c) &&& 0xf0#8)
      ∧ Switched 5 set c ((if set then Config.setAutomaticLED c else Config.clearAutomaticLED c) &&& 0xf0#8)
      ∧ Switched 4 set c ((if set then Config.setDeadmanMode c else Config.clearDeadmanMode c) &&& 0xf0#8) := by
    have all : ∀ pos (set : Bool) (c c' : Byte), (c'.getLsbD 4 = (if 4 = pos then set else c.getLsbD 4) ∧ c'.getLsbD 5 = (if 5 = pos then set else c.getLsbD 5)
        ∧ c'.getLsbD 6 = (if 6 = pos then set else c.getLsbD 6) ∧ c'.getLsbD 7 = (if 7 = pos then set else c.getLsbD 7)) → Switched pos set c c' := by
      rintro pos set c c' ⟨h4, h5, h6, h7⟩ i hi1 hi2
      interval_cases i <;> assumption
    intro set c
    refine ⟨all _ _ _ _ ?_, all _ _ _ _ ?_, all _ _ _ _ ?_, all _ _ _ _ ?_⟩ <;> revert set c <;> decide +kernel
  obtain ⟨b1, b2, b3, b4⟩ := bits set c
  have e : ∀ s : String, lit s = ascii s := fun s => rfl
  have mem : ∀ pos, (flag, pos) ∈ flagLetters → flag = lit "L" ∨ flag = lit "M" ∨ flag = lit "A" ∨ flag = lit "D" := by
    intro pos h
    simp only [flagLetters, List.mem_cons, Prod.mk.injEq, List.not_mem_nil, or_false] at h
    simp only [e]
    tauto
  unfold changeFlag
  by_cases h1 : flag = lit "L"
  · rw [if_pos h1]
    exact ⟨fun c' h => ⟨7, by simp [flagLetters, h1, e], Option.some.inj h ▸ b1⟩, by simp, fun h => absurd (h 7) (by simp [flagLetters, h1, e])⟩
  rw [if_neg h1]
  by_cases h2 : flag = lit "M"
  · rw [if_pos h2]
    exact ⟨fun c' h => ⟨6, by simp [flagLetters, h2, e], Option.some.inj h ▸ b2⟩, by simp, fun h => absurd (h 6) (by simp [flagLetters, h2, e])⟩
  rw [if_neg h2]
  by_cases h3 : flag = lit "A"
  · rw [if_pos h3]
    exact ⟨fun c' h => ⟨5, by simp [flagLetters, h3, e], Option.some.inj h ▸ b3⟩, by simp, fun h => absurd (h 5) (by simp [flagLetters, h3, e])⟩
  rw [if_neg h3]
  by_cases h4 : flag = lit "D"
  · rw [if_pos h4]
    exact ⟨fun c' h => ⟨4, by simp [flagLetters, h4, e], Option.some.inj h ▸ b4⟩, by simp, fun h => absurd (h 4) (by simp [flagLetters, h4, e])⟩
  rw [if_neg h4]
  refine ⟨by simp, fun _ pos h => ?_, fun _ => rfl⟩
  rcases mem pos h with h | h | h | h
  · exact h1 h
  · exact h2 h
  · exact h3 h
  · exact h4 h

/-- C122. Whatever happens to the commands on their way, `setflag` and `clearflag` return, and: on success exactly the named switch has been switched; on
an error that, or nothing; a letter that is no switch is an error and changes nothing. If nothing goes wrong, a switch is switched. -/
theorem flag_command (retries : Nat) (set : Bool) (flag : Bytes) (m : CfgModem) (hin : m.inbox = []) :
    ∃ cfg fs e, flagCmd cfgIO retries set flag m = (⟨cfg, [], fs⟩, .ok e)
      ∧ (e = none → ∃ pos, (flag, pos) ∈ flagLetters ∧ Switched pos set m.cfg cfg)
      ∧ (cfg = m.cfg ∨ ∃ pos, (flag, pos) ∈ flagLetters ∧ Switched pos set m.cfg cfg)
      ∧ (m.fates = [] → (∃ pos, (flag, pos) ∈ flagLetters) → e = none) := by
  obtain ⟨fs, c, e, h1, h2, h3⟩ := cfg_read retries m hin
  unfold flagCmd
  rw [h1]
  cases e with
  | some e => exact ⟨m.cfg, fs, some e, rfl, by simp, Or.inl rfl, fun h => absurd (h3 h).2 (by simp)⟩
  | none =>
    obtain rfl := h2 rfl
    dsimp only
    obtain ⟨s1, s2⟩ := changeFlag_spec set flag m.cfg
    rcases hc : changeFlag set flag m.cfg with _ | c'
    · refine ⟨m.cfg, fs, _, rfl, by simp, Or.inl rfl, fun _ h => ?_⟩
      obtain ⟨pos, hp⟩ := h
      exact absurd hp (s2.1 hc pos)
    · obtain ⟨pos, hp, hsw⟩ := s1 c' hc
      obtain ⟨cfg, fs', e, w1, w2, w3⟩ := cfg_write retries ⟨m.cfg, [], fs⟩ rfl c'
      dsimp only
      rw [w1]
      refine ⟨cfg, fs', e, rfl, ?_, ?_, fun hf _ => (w3 (h3 hf).1).2⟩
      · intro he
        rcases w2 with rfl | ⟨-, w2⟩
        · exact ⟨pos, hp, hsw⟩
        · exact absurd he w2
      · rcases w2 with rfl | ⟨w2, -⟩
        · exact Or.inr ⟨pos, hp, hsw⟩
        · exact Or.inl w2

example : flagCmd cfgIO 3 true (lit "M") ⟨0x90#8, [], [.refused, .done, .refused]⟩ = (⟨0xd0#8, [], []⟩, .ok none) := by rfl

/-- The monitor command switches monitor mode on and nothing else before it listens. -/
theorem monitor_switches_on (retries : Nat) (m : CfgModem) (hin : m.inbox = []) :
    ∃ cfg fs e, monConfig cfgIO retries m = (⟨cfg, [], fs⟩, .ok e) ∧ (e = none → Switched 6 true m.cfg cfg)
      ∧ (cfg = m.cfg ∨ Switched 6 true m.cfg cfg) ∧ (m.fates = [] → e = none) := by
  have key : monConfig cfgIO retries m = flagCmd cfgIO retries true (lit "M") m := by
    unfold monConfig flagCmd
    rcases Plm.config cfgIO retries m with ⟨s, ⟨c, _ | e⟩ | e | _⟩ <;> rfl
  have hM : ∀ pos, (lit "M", pos) ∈ flagLetters → pos = 6 := by
    intro pos h
    simp only [flagLetters, List.mem_cons, Prod.mk.injEq, List.not_mem_nil, or_false] at h
    have n1 : lit "M" ≠ ascii "L" ∧ lit "M" ≠ ascii "A" ∧ lit "M" ≠ ascii "D" := by decide
    simp [n1] at h
    exact h.2
  obtain ⟨cfg, fs, e, h1, h2, h3, h4⟩ := flag_command retries true (lit "M") m hin
  refine ⟨cfg, fs, e, key.trans h1, ?_, ?_, fun hf => h4 hf ⟨6, by decide⟩⟩
  · intro he
    obtain ⟨pos, hp, hs⟩ := h2 he
    exact hM pos hp ▸ hs
  · rcases h3 with h3 | ⟨pos, hp, hs⟩
    · exact Or.inl h3
    · exact Or.inr (hM pos hp ▸ hs)

/-! ### C123 linking from the command line -/

theorem link_one (nd : NetDef) (who : Address → Option Nat) (stranger : Address → Bool) (p d : Nat) (controller responder : Bool) (g : Group)
    (a : Address) (rest : List Address) (n : Net) (hd : who a = some d) :
    linkCmd (netOpen nd who stranger) (netDevice nd p) controller responder g (a :: rest) n
      = (let r := if controller then LinkOps.forceLink g (netDevice nd p) (netDevice nd d) n else (n, none)
         let r := if r.2 = none ∧ responder = true then LinkOps.forceLink g (netDevice nd d) (netDevice nd p) r.1 else r
         (r.1, .ok r.2)) := by
  unfold linkCmd netOpen
  rw [hd]
  cases stranger a <;> rfl

theorem link_skip (nd : NetDef) (who : Address → Option Nat) (stranger : Address → Bool) (p : Nat) (controller responder : Bool) (g : Group)
    (before rest : List Address) (n : Net) (h : ∀ a ∈ before, who a = none) :
    linkCmd (netOpen nd who stranger) (netDevice nd p) controller responder g (before ++ rest) n
      = linkCmd (netOpen nd who stranger) (netDevice nd p) controller responder g rest n := by
  induction before with
  | nil => rfl
  | cons a before ih =>
    have hn : (some Err.devReadTimeout : Option Err) ≠ some .notLinked := by decide
    have := ih (fun x hx => h x (by simp [hx]))
    rw [List.cons_append, linkCmd, netOpen, h a (by simp)]
    simp only [if_neg hn]
    exact this

/-- A link made between `c` and `r` leaves the other links where they are. -/
theorem linked_keeps (nd : NetDef) (ok : nd.Ok) (g : Group) (c r : Nat) (n n' : Net) (h : n'.db = n.db ∨ n'.db = linked nd g c r n.db) :
    (∀ x, x ≠ c → x ≠ r → n'.db x = n.db x) ∧ ∀ x k a g', n.Has x k a g' → n'.Has x k a g' := by
  rcases h with h | h
  · refine ⟨fun x _ _ => by rw [h], ?_⟩
    rintro x k a g' ⟨l, hl, hh⟩
    exact ⟨l, by rw [h]; exact hl, hh⟩
  · refine ⟨fun x h1 h2 => by rw [h, linked, if_neg h2, if_neg h1], ?_⟩
    rintro x k a g' ⟨l, hl, hh⟩
    refine ⟨l, ?_, hh⟩
    rw [h, linked]
    split_ifs with q1 q2
    · subst q1
      exact (ok.install _ _ _ hh.1 (ok.record _ _ _).1).2 (Or.inr hl)
    · subst q2
      exact (ok.install _ _ _ hh.1 (ok.record _ _ _).1).2 (Or.inr hl)
    · exact hl

/-- C123 in part: the first device named that answers is the one that is dealt with. The command returns; if it reports success this device is linked in the way asked for,
and if it reports an error that is one that happened. Whatever happens, the databases of all others are as before and no link is lost. -/
theorem link_command_partial (nd : NetDef) (ok : nd.Ok) (who : Address → Option Nat) (stranger : Address → Bool) (p d : Nat) (hpd : p ≠ d)
    (controller responder : Bool) (g : Group) (before rest : List Address) (n : Net) (hm : n.mode = none) (hb : ∀ a ∈ before, who a = none)
    (hd : who (nd.addr d) = some d) :
    ∃ n' err, linkCmd (netOpen nd who stranger) (netDevice nd p) controller responder g (before ++ nd.addr d :: rest) n = (n', .ok err) ∧
      (err = none → (controller = true → n'.Has p true (nd.addr d) g ∧ n'.Has d false (nd.addr p) g)
        ∧ (responder = true → n'.Has d true (nd.addr p) g ∧ n'.Has p false (nd.addr d) g)) ∧
      (∀ e, err = some e → e ∈ errors n.fates) ∧
      (∀ x, x ≠ p → x ≠ d → n'.db x = n.db x) ∧
      ∀ x c a g', n.Has x c a g' → n'.Has x c a g' := by
  rw [link_skip nd who stranger p controller responder g before _ n hb, link_one nd who stranger p d controller responder g _ rest n hd]
  cases controller with
  | false =>
    cases responder with
    | false => exact ⟨n, none, by simp, fun _ => ⟨by simp, by simp⟩, by simp, fun _ _ _ => rfl, fun _ _ _ _ h => h⟩
    | true =>
      rcases hf : LinkOps.forceLink g (netDevice nd d) (netDevice nd p) n with ⟨n1, e⟩
      obtain ⟨-, he, hdb, hok⟩ := force_link_net nd g d p (Ne.symm hpd) n n1 e hm hf
      obtain ⟨k1, k2⟩ := linked_keeps nd ok g d p n n1 hdb
      refine ⟨n1, e, by simp [hf], ?_, he, fun x h1 h2 => k1 x h2 h1, k2⟩
      rintro rfl
      exact ⟨by simp, fun _ => linked_has nd ok g d p (Ne.symm hpd) n n1 (hok rfl).1⟩
  | true =>
    rcases hf : LinkOps.forceLink g (netDevice nd p) (netDevice nd d) n with ⟨n1, e⟩
    obtain ⟨hs, he, hdb, hok⟩ := force_link_net nd g p d hpd n n1 e hm hf
    obtain ⟨k1, k2⟩ := linked_keeps nd ok g p d n n1 hdb
    cases e with
    | some e => exact ⟨n1, some e, by simp, by simp, he, k1, k2⟩
    | none =>
      obtain ⟨hdb1, hm1⟩ := hok rfl
      have l1 := linked_has nd ok g p d hpd n n1 hdb1
      cases responder with
      | false => exact ⟨n1, none, by simp, fun _ => ⟨fun _ => l1, by simp⟩, by simp, k1, k2⟩
      | true =>
        rcases hf2 : LinkOps.forceLink g (netDevice nd d) (netDevice nd p) n1 with ⟨n2, e2⟩
        obtain ⟨-, he2, hdb2, hok2⟩ := force_link_net nd g d p (Ne.symm hpd) n1 n2 e2 hm1 hf2
        obtain ⟨k3, k4⟩ := linked_keeps nd ok g d p n1 n2 hdb2
        refine ⟨n2, e2, by simp [hf2], ?_, fun e h => ?_, fun x h1 h2 => (k3 x h2 h1).trans (k1 x h1 h2), fun x c a g' h => k4 _ _ _ _ (k2 _ _ _ _ h)⟩
        · rintro rfl
          exact ⟨fun _ => ⟨k4 _ _ _ _ l1.1, k4 _ _ _ _ l1.2⟩, fun _ => linked_has nd ok g d p (Ne.symm hpd) n1 n2 (hok2 rfl).1⟩
        · exact errors_suffix hs e (he2 e h)

/-- Devices 1 and 2 of the network of addresses 1, 2, 3, … answer. -/
def twoAnswer : Address → Option Nat := fun a => if a = 2 then some 1 else if a = 3 then some 2 else none

example : (linkCmd (netOpen plainNet twoAnswer fun a => a == 2) (netDevice plainNet 0) true true 1 [9, 2] ⟨fun _ => [], none, []⟩).2 = .ok none := by decide +kernel

/-- C123 is false of the code: only the first device that answers is linked, and success is reported. -/
theorem link_command_refuted :
    ¬ ∀ (nd : NetDef) (who : Address → Option Nat) (stranger : Address → Bool) (p : Nat) (g : Group) (addrs : List Address) (n n' : Net),
      nd.Ok → n.mode = none → (∀ a d, who a = some d → nd.addr d = a ∧ d ≠ p) → (∀ a ∈ addrs, who a ≠ none) →
      linkCmd (netOpen nd who stranger) (netDevice nd p) true false g addrs n = (n', .ok none) → ∀ a ∈ addrs, n'.Has p true a g := by
  intro h
  have := h plainNet twoAnswer (fun _ => false) 0 1 [2, 3] ⟨fun _ => [], none, []⟩ _ plainNet_ok rfl (by
    intro a d
    unfold twoAnswer
    split_ifs with h1 h2
    · rintro ⟨⟩; rw [h1]; decide
    · rintro ⟨⟩; rw [h2]; decide
    · simp) (by
    intro a ha
    simp only [List.mem_cons, List.not_mem_nil, or_false] at ha
    rcases ha with rfl | rfl <;> decide) rfl 3 (by simp)
  obtain ⟨l, hl, hh⟩ := this
  have e : (linkCmd (netOpen plainNet twoAnswer fun _ => false) (netDevice plainNet 0) true false 1 [2, 3] ⟨fun _ => [], none, []⟩).1.db 0
      = [⟨0xe2, 1, 2, 0, 0, 0⟩] := by decide +kernel
  have hl' : l ∈ (linkCmd (netOpen plainNet twoAnswer fun _ => false) (netDevice plainNet 0) true false 1 [2, 3] ⟨fun _ => [], none, []⟩).1.db 0 := hl
  rw [e, List.mem_singleton] at hl'
  have := hh.2.2.1
  rw [hl'] at this
  revert this
  decide

/-- Devices that do not answer are passed over, and success is reported too. -/
theorem link_command_unreachable (nd : NetDef) (who : Address → Option Nat) (stranger : Address → Bool) (p : Nat) (controller responder : Bool) (g : Group)
    (addrs : List Address) (n : Net) (h : ∀ a ∈ addrs, who a = none) :
    linkCmd (netOpen nd who stranger) (netDevice nd p) controller responder g addrs n = (n, .ok none) := by
  induction addrs with
  | nil => rfl
  | cons a addrs ih =>
    have hn : (some Err.devReadTimeout : Option Err) ≠ some .notLinked := by decide
    have := ih (fun x hx => h x (by simp [hx]))
    rw [linkCmd, netOpen, h a (by simp)]
    simp only [if_neg hn]
    exact this

/-! ### C124 unlinking from the command line -/

/-- C124 in part, all that is true: the command returns without an error. -/
theorem unlink_command_partial (nd : NetDef) (who : Address → Option Nat) (stranger : Address → Bool) (p : Nat) (addrs : List Address) (n : Net) :
    unlinkCmd (netOpen nd who stranger) (netDevice nd p) addrs n = (n, .ok none) := rfl

/-- C124 is false of the code: the command reports success, and the device is still linked. -/
theorem unlink_command_refuted :
    ¬ ∀ (nd : NetDef) (who : Address → Option Nat) (stranger : Address → Bool) (p : Nat) (addrs : List Address) (n n' : Net),
      nd.Ok → n.mode = none → (∀ a ∈ addrs, who a ≠ none) →
      unlinkCmd (netOpen nd who stranger) (netDevice nd p) addrs n = (n', .ok none) → ∀ a ∈ addrs, ∀ g c, ¬ n'.Has p c a g := by
  intro h
  refine h plainNet twoAnswer (fun _ => false) 0 [2] ⟨fun _ => [⟨0xe2, 1, 2, 0, 0, 0⟩], none, []⟩ _ plainNet_ok rfl (by
    intro a ha
    simp only [List.mem_cons, List.not_mem_nil, or_false] at ha
    subst ha; decide) rfl 2 (by simp) 1 true ⟨⟨0xe2, 1, 2, 0, 0, 0⟩, by simp, ?_⟩
  exact plainNet_ok.record true 1 2

/-- C124, what the loop of the command would do if its list had been filled, when all calls get through: devices that do not know the modem are
passed over; the first other one decides. If it does not answer, nothing changes and this is the error. Otherwise it and the modem lose exactly
their in-use records of the group that name each other, in both roles, and there is no error. The rest of the list is not looked at. -/
theorem unlink_loop_partial (nd : NetDef) (who : Address → Option Nat) (stranger : Address → Bool) (p : Nat) (g : Group)
    (before : List Address) (hb : ∀ a ∈ before, who a ≠ none ∧ stranger a = true) (n : Net) (hf : n.fates = []) :
    unlinkLoop (netOpen nd who stranger) (netDevice nd p) g before n = (n, .ok none) ∧
    (∀ a rest, who a = none →
      unlinkLoop (netOpen nd who stranger) (netDevice nd p) g (before ++ a :: rest) n = (n, .ok (some .devReadTimeout))) ∧
    ∀ d rest, d ≠ p → who (nd.addr d) = some d → stranger (nd.addr d) = false →
      ∃ n', unlinkLoop (netOpen nd who stranger) (netDevice nd p) g (before ++ nd.addr d :: rest) n = (n', .ok none) ∧
        (∀ x, x ≠ p → x ≠ d → n'.db x = n.db x) ∧
        (∀ l, inUseBit l.flags → (l ∈ n'.db p ↔ l ∈ n.db p ∧ ¬ (l.address = nd.addr d ∧ l.group = g))) ∧
        (∀ l, inUseBit l.flags → (l ∈ n'.db d ↔ l ∈ n.db d ∧ ¬ (l.address = nd.addr p ∧ l.group = g))) := by
  have skip : ∀ rest, unlinkLoop (netOpen nd who stranger) (netDevice nd p) g (before ++ rest) n
      = unlinkLoop (netOpen nd who stranger) (netDevice nd p) g rest n := by
    intro rest
    induction before with
    | nil => rfl
    | cons a before ih =>
      obtain ⟨h1, h2⟩ := hb a (by simp)
      obtain ⟨d, hd⟩ := Option.ne_none_iff_exists'.1 h1
      rw [List.cons_append, unlinkLoop, netOpen, hd]
      simp only [h2, if_true]
      exact ih fun x hx => hb x (by simp [hx])
  refine ⟨?_, fun a rest ha => ?_, fun d rest hdp hd hs => ?_⟩
  · have := skip []
    rwa [List.append_nil] at this
  · rw [skip, unlinkLoop, netOpen, ha]
    rfl
  · rw [skip, unlinkLoop, netOpen, hd]
    simp only [hs, Bool.false_eq_true, if_false]
    rw [unlink_net nd g d p hdp n hf]
    simp only [true_or, if_true]
    rw [unlink_net nd g p d (Ne.symm hdp) _ (by exact hf)]
    refine ⟨_, rfl, fun x h1 h2 => by simp [h1, h2], fun l hu => ?_, fun l hu => ?_⟩
    · simp only [if_neg (Ne.symm hdp), if_true, freeHalf_mem _ _ _ _ _ hu, HalfLink, hu, true_and, Bool.false_eq_true, iff_false, iff_true]
      tauto
    · simp only [if_neg hdp, if_true, freeHalf_mem _ _ _ _ _ hu, HalfLink, hu, true_and, Bool.false_eq_true, iff_false, iff_true]
      tauto

/-- A list with a device that does not know the modem and one that does. -/
example : (∀ a ∈ [(3 : Address)], twoAnswer a ≠ none ∧ (a == (3 : Address)) = true) ∧ twoAnswer (plainNet.addr 1) = some 1 ∧ (plainNet.addr 1 == (3 : Address)) = false := by
  refine ⟨?_, by decide, by decide⟩
  intro a ha
  simp only [List.mem_cons, List.not_mem_nil, or_false] at ha
  subst ha; decide

/-! ### C125 editing links -/

theorem textNormal_small (l : LinkRecord) : (textNormal l).address.toNat < 2 ^ 24 := by
  simp only [textNormal, BitVec.toNat_ofNat]
  omega

/-- C125 in part. Editing the links of a modem that keeps to the protocol: if the editor fails, nothing is changed, or the text does not parse, the modem's
database stays as it is; if the new text consists of records, blank lines and comments, the modem has exactly these records, in order, as far as the text tells
them. -/
theorem edit_links_partial (k : ModemKind) (hk : k.lawful) (retries : Nat) (m : ModemSt) (cached : List LinkRecord) (edit : Bytes → Except Err Bytes)
    (hne : m.db ≠ []) (h8 : ∀ r ∈ m.db, r.length = 8) (hin : m.inbox = []) :
    let text := linksToText (m.db.map recordOf) true
    ∃ fuel₀, ∀ fuel ≥ fuel₀, ∀ result, plmEdit (Plm.asWriter k.io) retries fuel edit (m, cached) = result →
      (∀ e, edit text = .error e → ∃ m' c, result = some ((m', c), .ok (some e)) ∧ m'.db = m.db)
      ∧ (edit text = .ok text → ∃ m' c, result = some ((m', c), .ok none) ∧ m'.db = m.db)
      ∧ (∀ t, edit text = .ok t → (textToLinks t).2 ≠ none → ∃ m' c e, result = some ((m', c), .ok (some e)) ∧ m'.db = m.db)
      ∧ (∀ ls : List Line, (∀ l ∈ ls, l.ok) → edit text = .ok (unlines (ls.map lineText)) → unlines (ls.map lineText) ≠ text →
          ((Line.records ls).map textNormal).Pairwise (fun a b => ¬ SameLink a b) →
          ∃ m' c, result = some ((m', c), .ok none) ∧ m'.db = (Line.records ls).map fun l => rawOf (textNormal l)) := by
  intro text
  obtain ⟨f0, m1, hdb, hin1, hl⟩ := modem_links_complete k hk retries m cached h8 hin
  refine ⟨f0, fun fuel hf result hres => ?_⟩
  have hlen : (m.db.map recordOf).length ≠ 0 := by
    rw [List.length_map]
    exact fun h => hne (List.length_eq_zero_iff.1 h)
  unfold plmEdit editLinks at hres
  dsimp only at hres
  rw [hl fuel hf] at hres
  dsimp only at hres
  rw [if_neg hlen] at hres
  refine ⟨?_, ?_, ?_, ?_⟩
  · intro e he
    rw [show edit (linksToText (m.db.map recordOf) true) = _ from he] at hres
    exact ⟨m1, _, hres.symm, hdb⟩
  · intro he
    rw [show edit (linksToText (m.db.map recordOf) true) = _ from he] at hres
    dsimp only at hres
    rw [if_pos rfl] at hres
    exact ⟨m1, _, hres.symm, hdb⟩
  · intro t he ht
    rw [show edit (linksToText (m.db.map recordOf) true) = _ from he] at hres
    dsimp only at hres
    have hnt : ¬ linksToText (m.db.map recordOf) true = t := by
      rintro rfl
      rw [links_text_roundtrip] at ht
      exact ht rfl
    rw [if_neg hnt] at hres
    rcases hp : textToLinks t with ⟨ls, _ | e⟩
    · rw [hp] at ht
      exact absurd rfl ht
    · rw [hp] at hres
      exact ⟨m1, _, e, hres.symm, hdb⟩
  · intro ls hok he hnt hdist
    rw [show edit (linksToText (m.db.map recordOf) true) = _ from he] at hres
    dsimp only at hres
    rw [if_neg (fun h => hnt h.symm), link_file_parse ls hok] at hres
    dsimp only at hres
    have hw := modem_rewrite_partial k hk m1 ((Line.records ls).map textNormal) (by rw [hdb]; exact h8) hin1 hdist (by
      intro l hl
      obtain ⟨x, -, rfl⟩ := List.mem_map.1 hl
      exact textNormal_small x)
    rw [hdb] at hw
    rw [hw] at hres
    exact ⟨_, _, hres.symm, by simp⟩

/-- A modem with two records, and an editor that deletes the second. -/
def twoRecords : ModemSt := ⟨[[0xe2, 1, 0xaa, 0xbb, 0xcc, 1, 2, 3], [0xa2, 5, 0, 0, 9, 0, 0, 0]], 0, [], 0⟩

def dropSecond : Bytes → Except Err Bytes := fun _ => .ok (unlines ([Line.comment [] [], .record ⟨0xe2, 1, 0xaabbcc, 1, 2, 3⟩].map lineText))

/-- A database, an editor and a text that meet the hypotheses of C125's last case. -/
example : twoRecords.db ≠ [] ∧ (∀ r ∈ twoRecords.db, r.length = 8) ∧ twoRecords.inbox = [] ∧ chattyModem.lawful
    ∧ unlines ([Line.comment [] [], .record ⟨0xe2, 1, 0xaabbcc, 1, 2, 3⟩].map lineText) ≠ linksToText (twoRecords.db.map recordOf) true
    ∧ ((Line.records [Line.comment [] [], .record ⟨0xe2, 1, 0xaabbcc, 1, 2, 3⟩]).map textNormal).Pairwise (fun a b => ¬ SameLink a b)
    ∧ (plmEdit (Plm.asWriter chattyModem.io) 3 20 dropSecond (twoRecords, [])).map (fun x => (x.1.1.db, x.2))
      = some ([rawOf (textNormal ⟨0xe2, 1, 0xaabbcc, 1, 2, 3⟩)], .ok none) :=
  ⟨by simp [twoRecords], by simp [twoRecords], rfl, chattyModem_lawful, by decide +kernel, by simp [Line.records], by decide +kernel⟩

/-- C125 is false of the code: a record whose line is left alone is changed nevertheless, since the text does not show all of its flags. -/
theorem edit_links_refuted :
    ¬ ∀ (k : ModemKind) (m : ModemSt) (edit : Bytes → Except Err Bytes) (fuel : Nat) (ls : List Line) (m' : ModemSt) (c : List LinkRecord) (r : Bytes),
      k.lawful → (∀ r ∈ m.db, r.length = 8) → m.inbox = [] → (∀ l ∈ ls, l.ok) →
      edit (linksToText (m.db.map recordOf) true) = .ok (unlines (ls.map lineText)) →
      plmEdit (Plm.asWriter k.io) 3 fuel edit (m, []) = some ((m', c), .ok none) →
      r ∈ m.db → Line.record (recordOf r) ∈ ls → r ∈ m'.db := by
  intro h
  have hres : (plmEdit (Plm.asWriter chattyModem.io) 3 20 dropSecond (twoRecords, [])).map (fun x => (x.1.1.db, x.2))
      = some ([[0xc2#8, 1#8, 0xaa#8, 0xbb#8, 0xcc#8, 1#8, 2#8, 3#8]], .ok none) := by decide +kernel
  rcases hp : plmEdit (Plm.asWriter chattyModem.io) 3 20 dropSecond (twoRecords, []) with _ | ⟨⟨m', c⟩, o⟩
  · rw [hp] at hres; simp at hres
  · rw [hp] at hres
    simp only [Option.map_some, Option.some.injEq, Prod.mk.injEq] at hres
    obtain ⟨h1, rfl⟩ := hres
    have := h chattyModem twoRecords dropSecond 20 [Line.comment [] [], .record ⟨0xe2, 1, 0xaabbcc, 1, 2, 3⟩] m' c [0xe2, 1, 0xaa, 0xbb, 0xcc, 1, 2, 3]
      chattyModem_lawful (by simp [twoRecords]) rfl (by simp [Line.ok, blank_nil]) rfl hp (by simp [twoRecords]) (by
        have : recordOf [0xe2, 1, 0xaa, 0xbb, 0xcc, 1, 2, 3] = ⟨0xe2, 1, 0xaabbcc, 1, 2, 3⟩ := by decide
        rw [this]
        simp)
    rw [h1] at this
    revert this
    decide

/-! ### C126 a failed edit -/

/-- C126 in part: if the links cannot be read by a program that has not read them before, nothing is written. -/
theorem edit_unreadable_partial {σ : Type} (io : PlmIO σ) (retries : Int) (fuel : Nat) (edit : Bytes → Except Err Bytes) (s s' : σ)
    (ls : List LinkRecord) (e : Err) (h : PlmLinks.links (Plm.asWriter io) retries fuel s [] = some (s', .ok (ls, some e))) :
    ∃ e', plmEdit (Plm.asWriter io) retries fuel edit (s, []) = some ((s', []), .ok (some e')) := by
  obtain ⟨rfl, -⟩ := (modem_links_errors io retries fuel s s' [] ls (some e) h).2 e rfl
  unfold plmEdit editLinks
  dsimp only
  rw [h]
  exact ⟨_, rfl⟩

/-- The port may be broken. -/
example : (PlmLinks.links (Plm.asWriter (⟨fun s _ => (s, some (.other 9)), fun s => (s, .timeout), fun s => (s, .timeout)⟩ : PlmIO Unit)) 3 9 () []).map (·.2)
    = some (.ok ([], some (.other 9))) := by decide +kernel

/-- C126 is false of the code: the old records are deleted first. If the modem then refuses a new one, the command reports the error, and the database is empty. -/
theorem edit_failed_refuted :
    ¬ ∀ (k : ModemKind) (m : ModemSt) (edit : Bytes → Except Err Bytes) (fuel : Nat) (m' : ModemSt) (c : List LinkRecord) (e : Err),
      k.lawful → (∀ r ∈ m.db, r.length = 8) → m.inbox = [] →
      plmEdit (Plm.asWriter (fullIO k)) 3 fuel edit (m, []) = some ((m', c), .ok (some e)) → m'.db = m.db := by
  intro h
  have hres : (plmEdit (Plm.asWriter (fullIO chattyModem)) 3 20 dropSecond (twoRecords, [])).map (fun x => (x.1.1.db, x.2))
      = some ([], .ok (some .plmNak)) := by decide +kernel
  rcases hp : plmEdit (Plm.asWriter (fullIO chattyModem)) 3 20 dropSecond (twoRecords, []) with _ | ⟨⟨m', c⟩, o⟩
  · rw [hp] at hres; simp at hres
  · rw [hp] at hres
    simp only [Option.map_some, Option.some.injEq, Prod.mk.injEq] at hres
    obtain ⟨h1, rfl⟩ := hres
    have := h chattyModem twoRecords dropSecond 20 m' c .plmNak chattyModem_lawful (by simp [twoRecords]) rfl hp
    rw [h1] at this
    simp [twoRecords] at this

/-! ### C127 anonymizing a file -/

theorem join_lines (cs : List Bytes) (h : cs ≠ []) : joinWith [0x0a#8] (cs ++ [[]]) = unlines cs := by
  induction cs with
  | nil => exact absurd rfl h
  | cons c cs ih =>
    cases cs with
    | nil => simp [joinWith, unlines]
    | cons d cs =>
      have := ih (by simp)
      rw [List.cons_append] at this
      rw [List.cons_append, List.cons_append, joinWith, this]
      simp [unlines]

theorem comment_lines (lines : List Bytes) (h : ∀ l ∈ lines, 0x0a#8 ∉ l) :
    joinWith [0x0a#8] (commentLines (unlines lines)) = unlines (lines.filter fun l => l.head? == some (ch '#')) := by
  unfold commentLines
  rw [splitLines_unlines _ h, List.filter_append]
  have e : List.filter (fun l : Bytes => l.head? == some (ch '#')) [[]] = [] := by decide
  rw [e, List.append_nil]
  dsimp only
  split_ifs with h0
  · rw [h0]; rfl
  · exact join_lines _ h0

theorem textNormal_of (l : LinkRecord) (a : Address) (ha : a.toNat < 2 ^ 24) :
    textNormal { textNormal l with address := a } = { textNormal l with address := a } := by
  have hf : ∀ f : Byte, BitVec.ofNat 8 ((if inUseBit (BitVec.ofNat 8 ((if inUseBit f then 128 else 0) + (if controllerBit f then 64 else 0) + 2)) then 128 else 0)
      + (if controllerBit (BitVec.ofNat 8 ((if inUseBit f then 128 else 0) + (if controllerBit f then 64 else 0) + 2)) then 64 else 0) + 2)
      = BitVec.ofNat 8 ((if inUseBit f then 128 else 0) + (if controllerBit f then 64 else 0) + 2) := by decide +kernel
  have h := hf l.flags
  simp only [textNormal, LinkRecord.mk.injEq, and_true, true_and]
  refine ⟨h, ?_⟩
  rw [Nat.mod_eq_of_lt ha]
  simp

/-- C127 in part. A file of records, blank lines and comments: the anonymized file keeps the lines that begin with `#` and has the same records, in order, but for
their addresses. Equal addresses are replaced by equal ones: the `k`-th different address of the file becomes the `k`-th random number, cut to three bytes. -/
theorem anonymize_file_partial (rand : Nat → BitVec 32) (ls : List Line) (h : ∀ l ∈ ls, l.ok) :
    ∃ (f : Address → Address) (text : Bytes), anonymizeFile rand (unlines (ls.map lineText)) = .ok text
      ∧ textToLinks text = ((Line.records ls).map fun l => { textNormal l with address := f (textNormal l).address }, none)
      ∧ (∀ (k : Nat) (a : Address), (firsts ((Line.records ls).map fun l => (textNormal l).address))[k]? = some a →
          f a = BitVec.ofNat 32 ((rand k).toNat % 2 ^ 24))
      ∧ ∃ records, text = unlines ((ls.map lineText).filter fun l => l.head? == some 0x23#8) ++ records := by
  have e23 : ch '#' = 0x23#8 := by decide
  have hnl : ∀ l ∈ ls.map lineText, 0x0a#8 ∉ l := by
    intro l hl
    obtain ⟨x, hx, rfl⟩ := List.mem_map.1 hl
    exact lineText_no_newline x (h x hx)
  obtain ⟨f, h1, h2⟩ := anonymize_links rand ((Line.records ls).map textNormal) []
  refine ⟨f, unlines ((ls.map lineText).filter fun l => l.head? == some (ch '#'))
    ++ linksToText (LinkOps.anonymize rand ((Line.records ls).map textNormal) []) false, ?_, ?_, ?_, ?_⟩
  · unfold anonymizeFile
    rw [link_file_parse ls h]
    dsimp only
    rw [comment_lines _ hnl]
  · rw [h1, List.map_map]
    let cs : List Line := ((ls.map lineText).filter fun l => l.head? == some (ch '#')).map fun l => Line.comment [] l.tail
    have hcs : cs.map lineText = (ls.map lineText).filter fun l => l.head? == some (ch '#') := by
      rw [List.map_map]
      conv => rhs; rw [← List.map_id ((ls.map lineText).filter fun l => l.head? == some (ch '#'))]
      apply List.map_congr_left
      intro l hl
      rw [List.mem_filter] at hl
      have e : ascii "#" = [ch '#'] := by decide
      cases l with
      | nil => simp at hl
      | cons b l =>
        have hb : b = ch '#' := by simpa using hl.2
        simp [lineText, e, hb]
    have hsmall : ∀ a ∈ ((Line.records ls).map textNormal).map (·.address), (f a).toNat < 2 ^ 24 := by
      intro a ha
      obtain ⟨i, hi⟩ := List.mem_iff_getElem?.1 ((mem_firsts _ _).2 ha)
      rw [h2 i a hi, substitute, if_neg (by simp)]
      simp only [BitVec.toNat_ofNat]
      omega
    have hp := link_file_parse (cs ++ ((Line.records ls).map (fun l => { textNormal l with address := f (textNormal l).address })).map Line.record) (by
      intro l hl
      rcases List.mem_append.1 hl with hl | hl
      · obtain ⟨x, hx, rfl⟩ := List.mem_map.1 hl
        rw [List.mem_filter] at hx
        refine ⟨blank_nil, fun hm => hnl x hx.1 (List.mem_of_mem_tail hm)⟩
      · obtain ⟨x, -, rfl⟩ := List.mem_map.1 hl
        trivial)
    have hrec : ∀ (bs : List Bytes) (ks : List Line), Line.records ((bs.map fun l => Line.comment [] l.tail) ++ ks) = Line.records ks := by
      intro bs ks
      induction bs with
      | nil => rfl
      | cons b bs ih => simpa [Line.records] using ih
    rw [hrec, records_map, List.map_append, hcs, unlines_append, List.map_map, List.map_map] at hp
    have hl : linksToText (List.map ((fun l => { l with address := f l.address }) ∘ textNormal) (Line.records ls)) false
        = unlines (List.map (lineText ∘ Line.record) (List.map (fun l => { textNormal l with address := f (textNormal l).address }) (Line.records ls))) := by
      simp only [linksToText, List.map_map]
      rfl
    rw [hl]
    rw [List.map_map] at hp ⊢
    rw [hp]
    congr 1
    apply List.map_congr_left
    intro l hl
    exact textNormal_of l _ (hsmall _ (List.mem_map_of_mem (f := (·.address)) (List.mem_map_of_mem (f := textNormal) hl)))
  · intro k a hk
    rw [h2 k a (by rw [List.map_map]; exact hk), substitute, if_neg (by simp)]
    rfl
  · exact ⟨_, rfl⟩

/-- C127 in part: if no random number is an address of the file, the records of the anonymized file have none of its addresses. -/
theorem anonymize_unknown (rand : Nat → BitVec 32) (ls : List Line) (h : ∀ l ∈ ls, l.ok)
    (hr : ∀ k, ∀ l ∈ Line.records ls, (rand k).toNat % 2 ^ 24 ≠ l.address.toNat % 2 ^ 24) (text : Bytes)
    (ht : anonymizeFile rand (unlines (ls.map lineText)) = .ok text) :
    ∀ l ∈ Line.records ls, ∀ l' ∈ (textToLinks text).1, l'.address.toNat ≠ l.address.toNat % 2 ^ 24 := by
  obtain ⟨f, text', h1, h2, h3, -⟩ := anonymize_file_partial rand ls h
  rw [ht] at h1
  obtain rfl := Except.ok.inj h1
  rw [h2]
  intro l hl l' hl' e
  obtain ⟨l0, hl0, rfl⟩ := List.mem_map.1 hl'
  obtain ⟨k, hk⟩ := List.mem_iff_getElem?.1 ((mem_firsts _ _).2 (List.mem_map_of_mem (f := fun l : LinkRecord => (textNormal l).address) hl0))
  have e' : (f (textNormal l0).address).toNat = l.address.toNat % 2 ^ 24 := e
  rw [h3 k _ hk, BitVec.toNat_ofNat, Nat.mod_eq_of_lt (by omega)] at e'
  exact hr k l hl e'

example : ∀ k, ∀ l ∈ Line.records [.comment [] (lit " kitchen"), .record ⟨0xe2, 1, 0x0a0b0c, 0, 0, 0⟩], ((fun n => BitVec.ofNat 32 (n % 7)) k : BitVec 32).toNat % 2 ^ 24
    ≠ l.address.toNat % 2 ^ 24 := by
  intro k l hl
  simp only [Line.records, List.mem_singleton] at hl
  subst hl
  have : k % 7 < 7 := Nat.mod_lt _ (by decide)
  rw [show (0x0a0b0c : BitVec 32).toNat % 2 ^ 24 = 658188 by decide, BitVec.toNat_ofNat]
  omega

/-- A file that does not parse is left as it is. -/
theorem anonymize_unparsed (rand : Nat → BitVec 32) (input : Bytes) (h : (textToLinks input).2 ≠ none) :
    ∃ e, anonymizeFile rand input = .error e := by
  unfold anonymizeFile
  rcases hp : textToLinks input with ⟨ls, _ | e⟩
  · rw [hp] at h; exact absurd rfl h
  · exact ⟨e, rfl⟩

example : anonymizeFile (fun n => BitVec.ofNat 32 (n + 7)) (lit "# a\n\nUC 1 0a.0b.0c 00 00 00\nUR 2 0d.0e.0f 00 00 00\nUR 1 0a.0b.0c 00 00 00\n")
    = .ok (lit "# a\nUC        1 00.00.07   00 00 00\nUR        2 00.00.08   00 00 00\nUR        1 00.00.07   00 00 00\n") := by decide +kernel

example : ∃ e, anonymizeFile (fun _ => 0#32) (lit "UX 1 0a.0b.0c 00 00 00") = .error e := anonymize_unparsed _ _ (by decide +kernel)

/-- C127 is false of the code: an address in a comment stays in the file. -/
theorem anonymize_file_refuted :
    ¬ ∀ (rand : Nat → BitVec 32) (ls : List Line) (text : Bytes), (∀ l ∈ ls, l.ok) → (∀ n a, a ∈ (Line.records ls).map (·.address) → rand n ≠ a) →
      anonymizeFile rand (unlines (ls.map lineText)) = .ok text → ∀ a ∈ (Line.records ls).map (·.address), ¬ a.string <:+: text := by
  intro h
  refine h (fun _ => 5#32) [.comment [] (lit " kitchen 0a.0b.0c"), .record ⟨0xe2, 1, 0x0a0b0c, 0, 0, 0⟩] _ ?_ ?_ rfl 0x0a0b0c#32 ?_ ?_
  · intro l hl
    simp only [List.mem_cons, List.not_mem_nil, or_false] at hl
    rcases hl with rfl | rfl
    · exact ⟨blank_nil, by decide⟩
    · trivial
  · intro n a ha
    simp [Line.records] at ha
    subst ha
    decide
  · simp [Line.records]
  · refine ⟨lit "# kitchen ", lit "\nUC        1 00.00.05   00 00 00\n", ?_⟩
    decide +kernel

/-! ### C128 monitoring -/

/-- Reads that do not end the monitor: a message, or a timeout. -/
def goesOn : MRes → Prop
  | .ret (some _) none => True
  | .ret _ (some e) => e.is .insReadTimeout = true
  | _ => False

theorem monLoop_goes_on {σ : Type} (io : MsgIO σ) (n : Nat) (s : σ) (h : ∀ r ∈ (performAll io (List.replicate n .read) s).2, goesOn r) :
    monLoop io n s = ((performAll io (List.replicate n .read) s).1, none) := by
  induction n generalizing s with
  | zero => rfl
  | succ n ih =>
    simp only [List.replicate_succ, performAll, MonOp.perform, List.mem_cons, forall_eq_or_imp] at h ⊢
    obtain ⟨h1, h2⟩ := h
    have := ih _ h2
    rw [monLoop]
    rcases hr : io.read s with ⟨t, ⟨m, e⟩ | _⟩ <;> rw [hr] at h1 this <;> dsimp only at h1 this ⊢
    · cases e with
      | none => exact this
      | some e =>
        have h1 : e.is .insReadTimeout = true := by cases m <;> exact h1
        dsimp only
        rw [if_pos h1]
        exact this
    · exact h1.elim

/-- The PLM as the monitor uses it: only reading matters. -/
def listening : MsgIO (List Hearing) := ⟨Plm.read hearingIO, fun s _ => (s, .ret none (some .insReadTimeout))⟩

theorem listening_reads (script : List (Option Message)) (h : ∀ m, some m ∈ script → Proper m) :
    (performAll listening (List.replicate script.length .read) (Hearing.of script)).2
      = script.map fun | some m => .ret (some m) none | none => .ret none (some (.wrapped .insReadTimeout)) := by
  induction script with
  | nil => rfl
  | cons x script ih =>
    have ih := ih (fun m hm => h m (by simp [hm]))
    cases x with
    | none =>
      simp only [List.length_cons, List.replicate_succ, performAll, MonOp.perform, List.map_cons, List.cons.injEq]
      exact ⟨rfl, ih⟩
    | some m =>
      have hd := heard_decode m (h m (by simp))
      have hr : listening.read (Hearing.of (some m :: script)) = (Hearing.of script, .ret (some m) none) := by
        show (Hearing.of script, MRes.ret (some (Message.zero.unmarshalBinary (heard m).packet.payload).1) (Message.zero.unmarshalBinary (heard m).packet.payload).2) = _
        rw [hd]
      simp only [List.length_cons, List.replicate_succ, performAll, MonOp.perform, List.map_cons, hr, ih]

/-- C128 in part: however long the line is quiet in between, the monitor goes on and shows every message, one line each, in order. -/
theorem monitor_command_partial (errText : Err → Bytes) (he : ∀ e, 0x0a#8 ∉ errText e) (db : Option (Address → Option DeviceInfo))
    (script : List (Option Message)) (h : ∀ m, some m ∈ script → Proper m) :
    ∃ s ls, monLoop (Monitor.over errText db listening) script.length (Monitor.init (Hearing.of script)) = (s, none)
      ∧ s.out = ls.flatten ∧ List.Forall₂ Shows (script.filterMap id) ls := by
  have hreads := listening_reads script h
  have hseen : ∀ script : List (Option Message), seenAll (List.replicate script.length .read)
      (script.map fun | some m => MRes.ret (some m) none | none => .ret none (some (.wrapped .insReadTimeout))) = script.filterMap id := by
    intro script
    induction script with
    | nil => rfl
    | cons x script ih => cases x <;> simp [seenAll, MonOp.seen, List.replicate_succ, ih]
  obtain ⟨t1, t2, ls, t3, t4⟩ := Monitor.monitor_transparent errText he db listening (List.replicate script.length .read) (Hearing.of script) (by
    rw [hreads]
    intro p hp
    have hp2 := (List.of_mem_zip hp).2
    have hp1 := List.eq_of_mem_replicate (List.of_mem_zip hp).1
    obtain ⟨x, -, hx⟩ := List.mem_map.1 hp2
    rw [hp1, ← hx]
    cases x <;> exact id)
  rw [hreads, hseen] at t4
  refine ⟨_, ls, monLoop_goes_on _ _ _ ?_, t3, t4⟩
  rw [t1, hreads]
  intro r hr
  obtain ⟨x, -, rfl⟩ := List.mem_map.1 hr
  cases x with
  | none => show (Err.wrapped .insReadTimeout).is .insReadTimeout = true; decide
  | some m => trivial

example : (monLoop (Monitor.over (fun _ => []) none listening) 3
    (Monitor.init (Hearing.of [some ⟨1, 0x040506#32, 0x0f#8, 0x001100#64, []⟩, none, some ⟨2, 0x040506#32, 0x0f#8, 0x001300#64, []⟩]))).1.out
    = lit "SD 00.00.01 -> 04.05.06 3:3 Light On\nSD 00.00.02 -> 04.05.06 3:3 Light Off\n" := by decide +kernel

/-- C128 is false of the code: one message damaged on its way, here one whose flags announce more bytes than it has, ends the monitor. -/
theorem monitor_command_refuted :
    ¬ ∀ (before after : List (Option Message)) (p : Packet), (∀ m, some m ∈ before ++ after → Proper m) → p.command = 0x50#8 → p.payload.length = 9 →
      (monLoop (Monitor.over (fun _ => []) none listening) (before.length + 1 + after.length)
        (Monitor.init (Hearing.of before ++ .packet p :: Hearing.of after))).2 = none := by
  intro h
  have := h [] [] ⟨0x50#8, [0, 0, 1, 4, 5, 6, 0x1f, 0x11, 0xff], 0⟩ (by simp) rfl rfl
  revert this
  decide +kernel

end Ic
end Insteon
