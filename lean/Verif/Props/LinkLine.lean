import Mathlib.Data.List.Induction
import Verif.Props.Link

/-
C21: exactly which record a line of text is read as.
-/

namespace Insteon
open Insteon.Spec

theorem word_fresh {f : Bytes} (h : Word f) : spaceLen f = 0 := by
  rw [spaceLen_eq_zero]
  rintro c hc t rfl
  exact h.2 c hc ⟨[], t, by simp⟩

/-- The words are unique and are the fields. -/
theorem words_fields {s : Bytes} {fs : List Bytes} (h : Words s fs) : fields s = fs := by
  induction h with
  | nothing w hw =>
    have := fields_white hw []
    rw [List.append_nil] at this
    rw [this]; rfl
  | last w f hw hf =>
    rw [fields_white hw]
    have := fieldsAux_token f [] [] hf.2 fresh_nil
    unfold fields
    rw [List.append_nil] at this
    rw [this]
    simp [fieldsAux, hf.1]
  | next w f c s fs hw hf hc _ ih =>
    rw [List.append_assoc, List.append_assoc, fields_white hw]
    unfold fields at ih ⊢
    rw [fieldsAux_token f [] _ hf.2 (fresh_white hc s), List.append_nil, fieldsAux_char hc, if_neg (by simpa using hf.1), List.reverse_reverse, ih]

theorem words_white {w s : Bytes} {fs : List Bytes} (hw : White w) (h : Words s fs) : Words (w ++ s) fs := by
  cases h with
  | nothing v h => exact .nothing _ (white_append hw h)
  | last v f h1 h2 =>
    have := Words.last (w ++ v) f (white_append hw h1) h2
    rwa [List.append_assoc] at this
  | next v f c s fs h1 h2 h3 h4 =>
    have := Words.next (w ++ v) f c s fs (white_append hw h1) h2 h3 h4
    simpa [List.append_assoc] using this

theorem fields_words_aux (n : Nat) : ∀ s : Bytes, s.length ≤ n → Words s (fieldsAux 0 [] s) ∧
    ∀ acc, acc ≠ [] → (∀ p q, acc.reverse = p ++ q → q ≠ [] → spaceLen (q ++ s) = 0) → Words (acc.reverse ++ s) (fieldsAux 0 acc s) := by
  have word : ∀ acc s : Bytes, acc ≠ [] → (∀ p q, acc.reverse = p ++ q → q ≠ [] → spaceLen (q ++ s) = 0) → Word acc.reverse := by
    refine fun acc s ha hcl => ⟨by simpa using ha, ?_⟩
    rintro c hc ⟨p, q, hpq⟩
    have := hcl p (utf8 c ++ q) (by rw [← hpq, List.append_assoc]) (by simp [utf8_ne_nil])
    rw [List.append_assoc, spaceLen_white hc] at this
    have := utf8_length_pos c
    omega
  have nil : Words [] (fieldsAux 0 [] []) ∧
      ∀ acc, acc ≠ [] → (∀ p q, acc.reverse = p ++ q → q ≠ [] → spaceLen (q ++ []) = 0) → Words (acc.reverse ++ []) (fieldsAux 0 acc []) := by
    refine ⟨.nothing [] white_nil, fun acc ha hcl => ?_⟩
    rw [fieldsAux, if_neg ha, List.append_nil]
    exact .last [] _ white_nil (word acc [] ha hcl)
  induction n with
  | zero =>
    intro s hs
    have : s = [] := List.length_eq_zero_iff.mp (by omega)
    subst this
    exact nil
  | succ n ih =>
    intro s hs
    rcases s with _ | ⟨b, s⟩
    · exact nil
    · by_cases h0 : spaceLen (b :: s) = 0
      · have ihs := (ih s (by simp only [List.length_cons] at hs; omega)).2
        refine ⟨?_, fun acc ha hcl => ?_⟩
        · rw [fieldsAux, if_pos h0]
          refine ihs [b] (by simp) fun p q hpq hq => ?_
          have : p = [] ∧ q = [b] := by
            rcases p with _ | ⟨x, p⟩
            · exact ⟨rfl, by simpa using hpq.symm⟩
            · simp only [List.reverse_singleton, List.cons_append, List.cons.injEq] at hpq
              exact absurd (List.append_eq_nil_iff.mp hpq.2.symm).2 hq
          rw [this.2]; exact h0
        · rw [fieldsAux, if_pos h0]
          have := ihs (b :: acc) (by simp) fun p q hpq hq => by
            rw [List.reverse_cons] at hpq
            rcases List.eq_nil_or_concat q with rfl | ⟨q', x, rfl⟩
            · exact absurd rfl hq
            · rw [List.concat_eq_append, ← List.append_assoc] at hpq
              obtain ⟨h1, h2⟩ := List.append_inj' hpq rfl
              obtain rfl : b = x := by simpa using h2
              rw [List.concat_eq_append, List.append_assoc]
              rcases q' with _ | ⟨y, q'⟩
              · exact h0
              · exact hcl p (y :: q') h1 (by simp)
          simpa using this
      · obtain ⟨c, hc, u, hu⟩ := spaceLen_ne_zero h0
        have hl := utf8_length_pos c
        have hlen := congrArg List.length hu
        rw [List.length_append] at hlen
        have ihu := (ih u (by omega)).1
        rw [hu]
        refine ⟨?_, fun acc ha hcl => ?_⟩
        · rw [fieldsAux_char hc, if_pos rfl]
          have := words_white (white_cons hc white_nil) ihu
          simpa using this
        · rw [fieldsAux_char hc, if_neg ha]
          have := Words.next [] acc.reverse c u _ white_nil (word acc _ ha hcl) hc ihu
          simpa [List.append_assoc] using this

theorem words_iff (s : Bytes) (fs : List Bytes) : Words s fs ↔ fields s = fs :=
  ⟨words_fields, fun h => h ▸ (fields_words_aux s.length s (Nat.le_refl _)).1⟩

theorem words_are_words {s : Bytes} {fs : List Bytes} (h : Words s fs) : ∀ f ∈ fs, Word f := by
  induction h with
  | nothing => simp
  | last w f _ hf => simpa using hf
  | next w f c s fs _ hf _ _ ih =>
    intro g hg
    rcases List.mem_cons.mp hg with rfl | hg
    · exact hf
    · exact ih g hg

theorem takeHex_append (f : Bytes) : ∀ n, f.length ≤ n → ∃ ds : Bytes, f = ds ++ (takeHex n f).2 ∧ ds.map hexVal = (takeHex n f).1.map some ∧ ¬ StartsHex (takeHex n f).2 := by
  induction f with
  | nil => intro n _; cases n <;> exact ⟨[], rfl, rfl, id⟩
  | cons b s ih =>
    intro n hn
    obtain ⟨n, rfl⟩ : ∃ m, n = m + 1 := ⟨n - 1, by simp only [List.length_cons] at hn; omega⟩
    rw [takeHex]
    rcases hv : hexVal b with _ | v
    · refine ⟨[], rfl, rfl, ?_⟩
      rintro ⟨v, h⟩
      rw [isHexDigit_iff, hv] at h
      cases h
    · obtain ⟨ds, h1, h2, h3⟩ := ih n (by simp only [List.length_cons] at hn; omega)
      refine ⟨b :: ds, ?_, ?_, h3⟩
      · dsimp only; rw [List.cons_append, ← h1]
      · dsimp only; rw [List.map_cons, List.map_cons, h2, hv]

theorem hexNumeral_iff (ds : Bytes) (v : Nat) : HexNumeral ds v ↔ ds ≠ [] ∧ ∃ ns, ds.map hexVal = ns.map some ∧ v = hexNumber ns := by
  constructor
  · intro h
    induction h with
    | one c v h => exact ⟨by simp, [v], by simp [(isHexDigit_iff _ _).mp h], by simp [hexNumber]⟩
    | more ds v c x _ hc ih =>
      obtain ⟨-, ns, h1, h2⟩ := ih
      refine ⟨by simp, ns ++ [x], by simp [h1, (isHexDigit_iff _ _).mp hc], ?_⟩
      rw [hexNumber, List.foldl_append, h2]; rfl
  · rintro ⟨hne, ns, h1, rfl⟩
    induction ds using List.reverseRecOn generalizing ns with
    | nil => exact absurd rfl hne
    | append_singleton ds c ih =>
      rcases List.eq_nil_or_concat ns with rfl | ⟨ns, x, rfl⟩
      · simp at h1
      · rw [List.map_append, List.concat_eq_append, List.map_append] at h1
        have h1 := List.append_inj' h1 rfl
        have hc : IsHexDigit c x := (isHexDigit_iff _ _).mpr (by simpa using h1.2)
        rw [List.concat_eq_append]
        rcases ds with _ | ⟨d, ds⟩
        · rcases ns with _ | ⟨n, ns⟩
          · simpa [hexNumber] using HexNumeral.one c x hc
          · simp at h1
        · have := ih (by simp) ns h1.1
          have h2 := HexNumeral.more _ _ c x this hc
          have e : hexNumber (ns ++ [x]) = 16 * hexNumber ns + x := by rw [hexNumber, List.foldl_append]; rfl
          rw [e]; exact h2

theorem hexStart_unique (ds ds' rest rest' : Bytes) (hd : ∀ c ∈ ds, HexChar c) (hd' : ∀ c ∈ ds', HexChar c) (hr : ¬ StartsHex rest) (hr' : ¬ StartsHex rest')
    (h : ds ++ rest = ds' ++ rest') : ds = ds' := by
  induction ds generalizing ds' with
  | nil =>
    rcases ds' with _ | ⟨c, ds'⟩
    · rfl
    · rw [List.nil_append] at h; rw [h] at hr; exact absurd (hd' c (by simp)) hr
  | cons c ds ih =>
    rcases ds' with _ | ⟨c', ds'⟩
    · rw [List.nil_append] at h; rw [← h] at hr'; exact absurd (hd c (by simp)) hr'
    · simp only [List.cons_append, List.cons.injEq] at h
      rw [h.1, ih ds' (fun c hc => hd c (by simp [hc])) (fun c hc => hd' c (by simp [hc])) h.2]

theorem digits_chars {ds : Bytes} {ns : List Nat} (h : ds.map hexVal = ns.map some) : ∀ c ∈ ds, HexChar c := by
  intro c hc
  have : hexVal c ∈ ns.map some := h ▸ List.mem_map_of_mem hc
  obtain ⟨n, -, hn⟩ := List.mem_map.mp this
  exact ⟨n, (isHexDigit_iff _ _).mpr hn.symm⟩

/-- Data of a record. -/
theorem scanData_reads (o b : Byte) (f : Bytes) (hf : Word f) : LinkRecord.scanData o f = (b, none) ↔ HexStart f b.toNat := by
  have hs : skipSpace f = some f := skipSpace_stop (word_fresh hf)
  obtain ⟨ds, h1, h2, h3⟩ := takeHex_append f f.length (Nat.le_refl _)
  have hval : ∀ v, HexStart f v ↔ ds ≠ [] ∧ v = hexNumber (takeHex f.length f).1 := by
    intro v
    constructor
    · rintro ⟨es, rest, he, hn, hr⟩
      obtain ⟨hne, ns, h4, h5⟩ := (hexNumeral_iff es v).mp hn
      have : ds = es := hexStart_unique ds es _ rest (digits_chars h2) (digits_chars h4) h3 hr (h1 ▸ he)
      subst this
      refine ⟨hne, ?_⟩
      rw [h5]
      rw [h2] at h4
      rw [List.map_inj_right (fun _ _ h => Option.some.inj h)] at h4
      rw [h4]
    · rintro ⟨hne, rfl⟩
      exact ⟨ds, _, h1, (hexNumeral_iff ds _).mpr ⟨hne, _, h2, rfl⟩, h3⟩
  have hemp : (takeHex f.length f).1 = [] ↔ ds = [] := by
    constructor
    · intro h; rw [h] at h2; simpa using h2
    · intro h; rw [h] at h2; simpa using h2.symm
  rw [hval]
  unfold LinkRecord.scanData scanHexByte
  rw [hs]
  simp only [Option.getD_none]
  by_cases he : (takeHex f.length f).1 = []
  · simp [he, hemp.mp he]
  · have hd : ds ≠ [] := fun h => he (hemp.mpr h)
    by_cases hb : 255 < hexNumber (takeHex f.length f).1
    · have : b.toNat < 256 := b.isLt
      simp only [he, hb, if_true, if_false]
      simp only [Prod.mk.injEq, reduceCtorEq, and_false, false_iff]
      rintro ⟨-, h⟩
      omega
    · simp only [he, hb, if_false, Prod.mk.injEq, and_true, hd, ne_eq, not_false_eq_true, true_and]
      constructor
      · rintro rfl
        simp only [BitVec.toNat_ofNat]
        omega
      · intro h
        rw [← h]
        simp

theorem address_reads (recv a : Address) (text : Bytes) : recv.unmarshalText text = (a, none) ↔
    ∃ v1 v2 v3 rest, AddressForm (withDots text) v1 v2 v3 rest ∧ a.toNat = v1 * 65536 + v2 * 256 + v3 := by
  constructor
  · intro h
    rcases address_parse_total recv text with h' | ⟨v1, v2, v3, rest, hf, b1, b2, b3, h'⟩
    · rw [h'] at h; simp at h
    · rw [h'] at h
      simp only [Prod.mk.injEq, and_true] at h
      refine ⟨v1, v2, v3, rest, hf, ?_⟩
      rw [← h, BitVec.toNat_ofNat]
      omega
  · rintro ⟨v1, v2, v3, rest, hf, ha⟩
    have lt : ∀ f v, HexField f v → v < 256 := by
      rintro f v (⟨c, -, hc⟩ | ⟨c, d, x, y, -, hc, hd, rfl⟩)
      · have := hexVal_lt ((isHexDigit_iff _ _).mp hc); omega
      · have := hexVal_lt ((isHexDigit_iff _ _).mp hc)
        have := hexVal_lt ((isHexDigit_iff _ _).mp hd); omega
    have hb : v1 < 256 ∧ v2 < 256 ∧ v3 < 256 := by
      obtain ⟨w1, f1, w2, f2, w3, f3, -, -, -, -, h1, h2, h3, -⟩ := hf
      exact ⟨lt _ _ h1, lt _ _ h2, lt _ _ h3⟩
    have e : scanAddress (dotted text) = some (BitVec.ofNat 8 v1, BitVec.ofNat 8 v2, BitVec.ofNat 8 v3) := by
      rw [scanAddress_iff, dotted_eq_withDots]
      refine ⟨rest, ?_⟩
      simp only [BitVec.toNat_ofNat]
      rw [Nat.mod_eq_of_lt hb.1, Nat.mod_eq_of_lt hb.2.1, Nat.mod_eq_of_lt hb.2.2]
      exact hf
    unfold Address.unmarshalText
    rw [e]
    simp only [Prod.mk.injEq, and_true]
    apply BitVec.eq_of_toNat_eq
    rw [beUint32_toNat, ha]
    simp only [BitVec.toNat_ofNat]
    omega

theorem group_reads (g v : Group) (text : Bytes) : Group.unmarshalText g text = (v, none) ↔ IntegerText text v.toNat := by
  constructor
  · intro h
    by_cases hc : ∃ v : Nat, v ≤ 255 ∧ IntegerText text v
    · obtain ⟨n, hn, hi⟩ := hc
      rw [group_text_accepts g text n hn hi] at h
      simp only [Prod.mk.injEq, and_true] at h
      rw [← h, BitVec.toNat_ofNat, Nat.mod_eq_of_lt (by omega)]
      exact hi
    · have := (group_text_rejects g text hc).2
      rw [h] at this
      exact absurd rfl this
  · intro h
    rw [group_text_accepts g text v.toNat (by have := v.isLt; omega) h]
    simp

theorem flags_read (r g : RecordControlFlags) (text : Bytes) :
    ((r.unmarshalText text).2 = none ∧ RecordControlFlags.clearLastRecord (r.unmarshalText text).1 = g) ↔
      text = (if inUseBit g then ascii "U" else ascii "A") ++ (if controllerBit g then ascii "C" else ascii "R") ∧
        g.toNat % 64 = (r ||| 0x02).toNat % 64 := by
  have key : ∀ r : Byte,
      (∀ x ∈ [(ascii "AC", 64), (ascii "AR", 0), (ascii "UC", 192), (ascii "UR", 128)], (RecordControlFlags.unmarshalText r x.1).2 = none ∧
        (RecordControlFlags.clearLastRecord (RecordControlFlags.unmarshalText r x.1).1).toNat = x.2 + (r ||| 0x02).toNat % 64) := by
    decide +kernel
  have bits : ∀ g : Byte, ∃ x ∈ [(ascii "AC", 64), (ascii "AR", 0), (ascii "UC", 192), (ascii "UR", 128)],
      (if inUseBit g then ascii "U" else ascii "A") ++ (if controllerBit g then ascii "C" else ascii "R") = x.1 ∧ g.toNat = x.2 + g.toNat % 64 := by
    decide +kernel
  have inj : ∀ x ∈ [(ascii "AC", 64), (ascii "AR", 0), (ascii "UC", 192), (ascii "UR", 128)], ∀ y ∈ [(ascii "AC", 64), (ascii "AR", 0), (ascii "UC", 192), (ascii "UR", 128)],
      x.2 + 0 = y.2 → x.1 = y.1 := by decide
  have lows : ∀ x ∈ [(ascii "AC", 64), (ascii "AR", 0), (ascii "UC", 192), (ascii "UR", 128)], x.2 % 64 = 0 := by decide
  obtain ⟨x, hx, hx1, hx2⟩ := bits g
  constructor
  · rintro ⟨h1, h2⟩
    obtain ⟨y, hy, hy1⟩ : ∃ y ∈ [(ascii "AC", 64), (ascii "AR", 0), (ascii "UC", 192), (ascii "UR", 128)], text = y.1 := by
      rcases (link_flag_text_accepts r text).mp h1 with h | h | h | h
      · exact ⟨(ascii "AC", 64), by simp, h⟩
      · exact ⟨(ascii "AR", 0), by simp, h⟩
      · exact ⟨(ascii "UC", 192), by simp, h⟩
      · exact ⟨(ascii "UR", 128), by simp, h⟩
    have hk := (key r y hy).2
    rw [← hy1, h2] at hk
    have ly := lows y hy
    have lx := lows x hx
    have hm : g.toNat % 64 = (r ||| 0x02).toNat % 64 := by omega
    refine ⟨?_, hm⟩
    rw [hx1, hy1]
    exact (inj x hx y hy (by omega)).symm
  · rintro ⟨h1, h2⟩
    rw [hx1] at h1
    have hk := key r x hx
    rw [← h1] at hk
    refine ⟨hk.1, BitVec.eq_of_toNat_eq ?_⟩
    rw [hk.2, ← h2]
    exact hx2.symm

/-- C21, what holds: exactly when a line is read as a record, and as which. What is missing is that something after the digits of the data makes the line wrong; that
is false (`link_text_malformed_refuted`). -/
theorem link_line_partial (recv l : LinkRecord) (line : Bytes) : recv.unmarshalText line = (l, none) ↔ LineSays recv line l := by
  unfold LineSays
  simp only [words_iff]
  by_cases hf : ∃ f0 f1 f2 f3 f4 f5, fields line = [f0, f1, f2, f3, f4, f5]
  · obtain ⟨f0, f1, f2, f3, f4, f5, hf⟩ := hf
    have hw := words_are_words ((words_iff _ _).mpr hf)
    have hu : recv.unmarshalText line = recv.unmarshalFields f0 f1 f2 f3 f4 f5 := by unfold LinkRecord.unmarshalText; rw [hf]
    have key : recv.unmarshalFields f0 f1 f2 f3 f4 f5 = (l, none) ↔
        ((recv.flags.unmarshalText f0).2 = none ∧ RecordControlFlags.clearLastRecord (recv.flags.unmarshalText f0).1 = l.flags) ∧
        Group.unmarshalText recv.group f1 = (l.group, none) ∧ Address.unmarshalText recv.address f2 = (l.address, none) ∧
        LinkRecord.scanData recv.d0 f3 = (l.d0, none) ∧ LinkRecord.scanData recv.d1 f4 = (l.d1, none) ∧ LinkRecord.scanData recv.d2 f5 = (l.d2, none) := by
      unfold LinkRecord.unmarshalFields
      obtain ⟨lf, lg, la, l0, l1, l2⟩ := l
      rcases h0 : recv.flags.unmarshalText f0 with ⟨a0, _ | e0⟩ <;> rcases h1 : Group.unmarshalText recv.group f1 with ⟨a1, _ | e1⟩ <;>
        rcases h2 : Address.unmarshalText recv.address f2 with ⟨a2, _ | e2⟩ <;> rcases h3 : LinkRecord.scanData recv.d0 f3 with ⟨a3, _ | e3⟩ <;>
        rcases h4 : LinkRecord.scanData recv.d1 f4 with ⟨a4, _ | e4⟩ <;> rcases h5 : LinkRecord.scanData recv.d2 f5 with ⟨a5, _ | e5⟩ <;>
        simp [h1, h2, h3, h4, h5]
    rw [hu, key, flags_read, group_reads, address_reads, scanData_reads _ _ f3 (hw f3 (by simp)), scanData_reads _ _ f4 (hw f4 (by simp)),
      scanData_reads _ _ f5 (hw f5 (by simp)), and_assoc]
    constructor
    · intro h
      exact ⟨f0, f1, f2, f3, f4, f5, hf, h⟩
    · rintro ⟨g0, g1, g2, g3, g4, g5, hg, h⟩
      rw [hf] at hg
      simp only [List.cons.injEq, and_true] at hg
      obtain ⟨rfl, rfl, rfl, rfl, rfl, rfl⟩ := hg
      exact h
  · constructor
    · intro h
      unfold LinkRecord.unmarshalText at h
      split at h
      · rename_i f0 f1 f2 f3 f4 f5 hh
        exact absurd ⟨f0, f1, f2, f3, f4, f5, hh⟩ hf
      · simp at h
    · rintro ⟨f0, f1, f2, f3, f4, f5, hh, -⟩
      exact absurd ⟨f0, f1, f2, f3, f4, f5, hh⟩ hf

/-- A line as people write it. -/
example : LineSays .zero (ascii " UC  7\t11.22.33 Ff 1c 000a ") ⟨0xc2, 7, 0x112233#32, 0xff, 0x1c, 0x0a⟩ :=
  (link_line_partial _ _ _).mp (by decide +kernel)

/-! ### A whole file -/

theorem fieldsAux_head (s : Bytes) : ∀ acc : Bytes, acc ≠ [] → ∃ f fs, fieldsAux 0 acc s = f :: fs ∧ acc.reverse <+: f := by
  induction s with
  | nil => intro acc ha; exact ⟨acc.reverse, [], by rw [fieldsAux, if_neg ha], List.prefix_refl _⟩
  | cons b s ih =>
    intro acc ha
    rw [fieldsAux]
    by_cases h0 : spaceLen (b :: s) = 0
    · rw [if_pos h0]
      obtain ⟨f, fs, h1, h2⟩ := ih (b :: acc) (by simp)
      refine ⟨f, fs, h1, List.IsPrefix.trans ?_ h2⟩
      rw [List.reverse_cons]; exact List.prefix_append _ _
    · rw [if_neg h0, if_neg ha]
      exact ⟨_, _, rfl, List.prefix_refl _⟩

theorem trimSpace_nil_iff (l : Bytes) : trimSpace l = [] ↔ White l := by
  refine ⟨fun h => ?_, trimSpace_white⟩
  obtain ⟨v, w, hv, hw, e⟩ := trimSpace_spec l
  rw [h, List.append_nil] at e
  exact e ▸ white_append hv hw

theorem trimSpace_comment_iff (l : Bytes) : (trimSpace l).head? = some (ch '#') ↔ ∃ w s, White w ∧ l = w ++ ascii "#" ++ s := by
  have e1 : ascii "#" = [ch '#'] := by decide
  rw [e1]
  constructor
  · intro h
    obtain ⟨v, w, hv, hw, e⟩ := trimSpace_spec l
    rcases ht : trimSpace l with _ | ⟨b, t⟩ <;> rw [ht] at h
    · cases h
    · cases h
      rw [ht] at e
      exact ⟨v, t ++ w, hv, by simpa using e⟩
  · rintro ⟨w, s, hw, rfl⟩
    have := trimSpace_head (b := ch '#') hw (by decide) s
    simpa using this

theorem lineSays_not_white {l : Bytes} {r : LinkRecord} (h : LineSays .zero l r) : ¬ White l := by
  intro hw
  obtain ⟨f0, f1, f2, f3, f4, f5, h, -⟩ := h
  have := words_fields h
  rw [words_fields (.nothing l hw)] at this
  cases this

theorem lineSays_not_comment {l : Bytes} {r : LinkRecord} (h : LineSays .zero l r) : ∀ w s, White w → l ≠ w ++ ascii "#" ++ s := by
  rintro w s hw rfl
  obtain ⟨f0, f1, f2, f3, f4, f5, h, hf, -⟩ := h
  have := words_fields h
  have e1 : ascii "#" = [ch '#'] := by decide
  rw [List.append_assoc, fields_white hw, e1] at this
  unfold fields at this
  rw [List.singleton_append, fieldsAux, if_pos (spaceLen_solid (by decide) s)] at this
  obtain ⟨f, fs, h1, h2⟩ := fieldsAux_head s [ch '#'] (by simp)
  rw [h1] at this
  cases this
  obtain ⟨x, hx⟩ := h2
  rw [hf] at hx
  split_ifs at hx <;> simp [ascii, ch] at hx

theorem unmarshalText_trim (r : LinkRecord) (l : Bytes) : r.unmarshalText (trimSpace l) = r.unmarshalText l := by
  unfold LinkRecord.unmarshalText
  rw [fields_trimSpace]

theorem textToLinksLoop_grows (ls : List Bytes) : ∀ acc : List LinkRecord, ∃ more, (textToLinksLoop ls acc).1 = acc ++ more := by
  induction ls with
  | nil => intro acc; exact ⟨[], by simp [textToLinksLoop]⟩
  | cons l ls ih =>
    intro acc
    rw [textToLinksLoop]
    simp only
    split
    · exact ih acc
    · split
      · obtain ⟨more, h⟩ := ih (acc ++ [(LinkRecord.unmarshalText LinkRecord.zero (trimSpace l)).1])
        exact ⟨_ :: more, by rw [h, List.append_assoc]; rfl⟩
      · exact ⟨[], by simp⟩

/-- What is done with a line. -/
theorem loop_line (l : Bytes) (ls : List Bytes) (acc : List LinkRecord) :
    ((White l ∨ ∃ w s, White w ∧ l = w ++ ascii "#" ++ s) ∧ textToLinksLoop (l :: ls) acc = textToLinksLoop ls acc) ∨
    (∃ r, LineSays .zero l r ∧ textToLinksLoop (l :: ls) acc = textToLinksLoop ls (acc ++ [r])) ∨
    (BadLine l ∧ ∃ e, textToLinksLoop (l :: ls) acc = (acc, some e)) := by
  by_cases hw : White l
  · refine Or.inl ⟨Or.inl hw, ?_⟩
    rw [textToLinksLoop, (trimSpace_nil_iff l).mpr hw]
    simp
  · by_cases hc : ∃ w s, White w ∧ l = w ++ ascii "#" ++ s
    · refine Or.inl ⟨Or.inr hc, ?_⟩
      rw [textToLinksLoop]
      simp only
      rw [if_pos (Or.inr ((trimSpace_comment_iff l).mpr hc))]
    · have h0 : ¬ ((trimSpace l).length = 0 ∨ (trimSpace l).head? = some (ch '#')) := by
        rw [List.length_eq_zero_iff, trimSpace_nil_iff, trimSpace_comment_iff]
        exact not_or.mpr ⟨hw, hc⟩
      rcases hr : LinkRecord.unmarshalText LinkRecord.zero l with ⟨r, _ | e⟩
      · refine Or.inr (Or.inl ⟨r, (link_line_partial _ _ _).mp hr, ?_⟩)
        rw [textToLinksLoop]
        simp only
        rw [if_neg h0, unmarshalText_trim, hr]
      · refine Or.inr (Or.inr ⟨⟨hw, fun w s h1 h2 => hc ⟨w, s, h1, h2⟩, fun r' h => ?_⟩, e, ?_⟩)
        · rw [← link_line_partial, hr] at h
          cases h
        · rw [textToLinksLoop]
          simp only
          rw [if_neg h0, unmarshalText_trim, hr]

theorem loop_says (ls : List Bytes) : ∀ (acc rs : List LinkRecord), textToLinksLoop ls acc = (acc ++ rs, none) ↔ FileSays ls rs := by
  induction ls with
  | nil =>
    intro acc rs
    rw [textToLinksLoop]
    constructor
    · intro h
      have : rs = [] := by simpa using congrArg Prod.fst h
      subst this; exact .done
    · intro h; cases h; simp
  | cons l ls ih =>
    intro acc rs
    rcases loop_line l ls acc with ⟨h1, h2⟩ | ⟨r, h1, h2⟩ | ⟨h1, e, h2⟩
    · rw [h2, ih]
      constructor
      · intro h
        rcases h1 with h1 | ⟨w, s, h1, rfl⟩
        · exact .blank _ _ _ h1 h
        · exact .comment _ _ _ _ h1 h
      · intro h
        cases h with
        | blank _ _ _ _ h => exact h
        | comment _ _ _ _ _ h => exact h
        | record _ _ _ _ h _ =>
          rcases h1 with h1 | ⟨w, s, h1, e⟩
          · exact absurd h1 (lineSays_not_white h)
          · exact absurd e (lineSays_not_comment h w s h1)
    · rw [h2]
      constructor
      · intro h
        rcases hn : textToLinksLoop ls (acc ++ [r]) with ⟨qs, _ | e⟩ <;> rw [hn] at h
        · simp only [Prod.mk.injEq, and_true] at h
          obtain ⟨more, hm⟩ : ∃ more, qs = acc ++ [r] ++ more := by
            have := textToLinksLoop_grows ls (acc ++ [r])
            rw [hn] at this
            exact this
          subst hm
          have : rs = r :: more := by
            rw [List.append_assoc] at h
            exact (List.append_cancel_left h).symm
          subst this
          exact .record _ _ _ _ h1 ((ih _ _).mp hn)
        · simp at h
      · intro h
        cases h with
        | blank _ _ _ hw _ => exact absurd hw (lineSays_not_white h1)
        | comment w s _ _ hw _ => exact absurd rfl (lineSays_not_comment h1 w s hw)
        | record _ r' _ rs' h3 h4 =>
          have : r' = r := by
            have e1 := (link_line_partial _ _ _).mpr h3
            rw [(link_line_partial _ _ _).mpr h1] at e1
            exact (congrArg Prod.fst e1).symm
          subst this
          have := (ih (acc ++ [r']) rs').mpr h4
          rw [this]; simp
    · rw [h2]
      constructor
      · intro h; simp at h
      · intro h
        cases h with
        | blank _ _ _ hw _ => exact absurd hw h1.1
        | comment w s _ _ hw _ => exact absurd rfl (h1.2.1 w s hw)
        | record _ r' _ rs' h3 h4 => exact absurd h3 (h1.2.2 r')

theorem loop_stops (ls : List Bytes) : ∀ (acc rs : List LinkRecord) (e : Err), textToLinksLoop ls acc = (rs, some e) →
    ∃ before l after qs, ls = before ++ l :: after ∧ FileSays before qs ∧ BadLine l ∧ rs = acc ++ qs := by
  induction ls with
  | nil => intro acc rs e h; cases h
  | cons l ls ih =>
    intro acc rs e h
    rcases loop_line l ls acc with ⟨h1, h2⟩ | ⟨r, h1, h2⟩ | ⟨h1, e', h2⟩
    · rw [h2] at h
      obtain ⟨before, x, after, qs, rfl, hb, hx, rfl⟩ := ih _ _ _ h
      refine ⟨l :: before, x, after, qs, rfl, ?_, hx, rfl⟩
      rcases h1 with h1 | ⟨w, s, h1, rfl⟩
      · exact .blank _ _ _ h1 hb
      · exact .comment _ _ _ _ h1 hb
    · rw [h2] at h
      obtain ⟨before, x, after, qs, rfl, hb, hx, rfl⟩ := ih _ _ _ h
      exact ⟨l :: before, x, after, r :: qs, rfl, .record _ _ _ _ h1 hb, hx, by simp⟩
    · rw [h2] at h
      cases h
      exact ⟨[], l, ls, [], rfl, .done, h1, by simp⟩

theorem splitLines_of {text : Bytes} {ls : List Bytes} (h : LinesOf text ls) : splitLines text = ls := by
  obtain ⟨hne, hnl, rfl⟩ := h
  induction ls with
  | nil => exact absurd rfl hne
  | cons l ls ih =>
    rcases ls with _ | ⟨m, ls⟩
    · have : ∀ (l acc : Bytes), 0x0a#8 ∉ l → splitLinesAux acc l = [acc.reverse ++ l] := by
        intro l
        induction l with
        | nil => intro acc _; simp [splitLinesAux]
        | cons b l ih =>
          intro acc h
          have hb : b ≠ 0x0a#8 := fun e => h (by simp [e])
          have hl : 0x0a#8 ∉ l := fun e => h (by simp [e])
          rw [splitLinesAux, if_neg hb, ih _ hl]; simp
      have := this l [] (hnl l (by simp))
      simpa [List.intercalate, splitLines] using this
    · have h1 := ih (by simp) (fun x hx => hnl x (by simp [hx]))
      have h2 := splitLinesAux_line l [] (List.intercalate [0x0a#8] (m :: ls)) (hnl l (by simp))
      have e : List.intercalate [0x0a#8] (l :: m :: ls) = l ++ 0x0a#8 :: List.intercalate [0x0a#8] (m :: ls) := by
        simp [List.intercalate, List.intersperse]
      rw [e]
      unfold splitLines at h1 ⊢
      rw [h2, h1]; simp

theorem linesOf_exists (text : Bytes) : ∃ ls, LinesOf text ls := by
  induction text with
  | nil => exact ⟨[[]], by simp, by simp, by simp [List.intercalate]⟩
  | cons b text ih =>
    obtain ⟨ls, hne, hnl, rfl⟩ := ih
    rcases ls with _ | ⟨l, ls⟩
    · exact absurd rfl hne
    · by_cases hb : b = 0x0a#8
      · refine ⟨[] :: l :: ls, by simp, ?_, ?_⟩
        · intro x hx
          rcases List.mem_cons.mp hx with rfl | hx
          · simp
          · exact hnl x hx
        · simp [List.intercalate, List.intersperse, hb]
      · refine ⟨(b :: l) :: ls, by simp, ?_, ?_⟩
        · intro x hx
          rcases List.mem_cons.mp hx with rfl | hx
          · intro h
            rcases List.mem_cons.mp h with h | h
            · exact hb h.symm
            · exact hnl l (by simp) h
          · exact hnl x (by simp [hx])
        · rcases ls with _ | ⟨m, ls⟩ <;> simp [List.intercalate, List.intersperse]

/-- C21, what holds for a whole file: it is read as these records exactly if its lines say so, one after the other. -/
theorem link_file_partial (text : Bytes) (rs : List LinkRecord) : textToLinks text = (rs, none) ↔ ∃ ls, LinesOf text ls ∧ FileSays ls rs := by
  unfold textToLinks
  constructor
  · intro h
    obtain ⟨ls, hls⟩ := linesOf_exists text
    rw [splitLines_of hls] at h
    exact ⟨ls, hls, (loop_says ls [] rs).mp h⟩
  · rintro ⟨ls, hls, h⟩
    rw [splitLines_of hls]
    exact (loop_says ls [] rs).mpr h

/-- C21, and otherwise: some line says nothing that can be understood, and the records of the lines before it are returned with the error. -/
theorem link_file_error_partial (text : Bytes) (rs : List LinkRecord) (e : Err) (h : textToLinks text = (rs, some e)) :
    ∃ before l after, LinesOf text (before ++ l :: after) ∧ FileSays before rs ∧ BadLine l := by
  obtain ⟨ls, hls⟩ := linesOf_exists text
  unfold textToLinks at h
  rw [splitLines_of hls] at h
  obtain ⟨before, l, after, qs, rfl, hb, hl, rfl⟩ := loop_stops ls [] rs e h
  exact ⟨before, l, after, hls, hb, hl⟩

/-- A file with a no-break space (U+00A0) for indentation, a comment, an ideographic space (U+3000) between words and no newline at the end. -/
example : textToLinks (utf8 0xa0 ++ ascii "# links\nUR 1 01.02.03" ++ utf8 0x3000 ++ ascii "00 1c 01") =
    ([⟨0x82, 1, 0x010203#32, 0, 0x1c, 1⟩], none) := by decide +kernel

/-- A file whose second line cannot be read. -/
example : (textToLinks (ascii "UR 1 01.02.03 00 1c 01\nUX 1 01.02.03 00 00 00\n")).1 = [⟨0x82, 1, 0x010203#32, 0, 0x1c, 1⟩] ∧
    (textToLinks (ascii "UR 1 01.02.03 00 1c 01\nUX 1 01.02.03 00 00 00\n")).2 ≠ none := by decide +kernel

end Insteon
