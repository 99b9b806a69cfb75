import Mathlib.Tactic.SplitIfs
import Std.Data.String.ToNat
import Verif.Spec.ErrorText

/-
C211, C212: the texts of errors.
-/

namespace Insteon
open Insteon.Spec

/-! ### C211: which error it is -/

/-- C211 refuted: there are two read timeouts, different errors, and ic prints the same for both. -/
theorem error_text_refuted : ¬ ∀ (e e' : Err) (t : List (BitVec 8)), Ic.printed e = some t → Ic.printed e' = some t → e = e' := by
  intro h
  have := h .insReadTimeout .devReadTimeout (lit "Read Timeout\n") (by decide +kernel) (by decide +kernel)
  cases this

/-- The errors with a text of their own. -/
def namedErrors : List Err :=
  [.bufferTooShort, .insReadTimeout, .insNotImplemented, .unknownCommand, .preNak, .addrFormat, .devReadTimeout, .notLinked, .unexpectedResponse, .noLoadDetected,
   .illegalValue, .incorrectChecksum, .linkIndexOutOfRange, .invalidThermostatMode, .invalidUnit, .invalidFanSpeed, .invalidResponse, .devNak, .plmReadTimeout, .noSync,
   .plmNotImplemented, .noAck, .wrongAck, .wrongPayload, .plmNak, .alreadyLinked, .linkNotFound, .notSaveable, .notLoadable, .eof, .unexpectedEOF, .invalidUnread,
   .wrapped .plmReadTimeout, .wrapped .insReadTimeout]

theorem named_complete (e : Err) (t : Bytes) (h : e.text = some t) : e ∈ namedErrors := by
  cases e with
  | wrapped e => cases e <;> first | simp [Err.text] at h; done | simp [namedErrors]
  | other n => simp [Err.text] at h
  | _ => simp [namedErrors]

theorem named_distinct : ∀ e ∈ namedErrors, ∀ e' ∈ namedErrors, e.text = e'.text → e = e' ∨ (e = .insReadTimeout ∧ e' = .devReadTimeout) ∨ (e = .devReadTimeout ∧ e' = .insReadTimeout) := by
  decide +kernel

/-- C211 (what holds): apart from the two read timeouts, what ic prints for an error of the library tells which error it is. -/
theorem error_text_partial (e e' : Err) (t : List (BitVec 8)) (h : Ic.printed e = some t) (h' : Ic.printed e' = some t) :
    e = e' ∨ (e = .insReadTimeout ∧ e' = .devReadTimeout) ∨ (e = .devReadTimeout ∧ e' = .insReadTimeout) := by
  simp only [Ic.printed, Option.map_eq_some_iff] at h h'
  obtain ⟨a, ha, rfl⟩ := h
  obtain ⟨b, hb, hab⟩ := h'
  have : b = a := List.append_cancel_right hab
  subst this
  exact named_distinct e (named_complete e b ha) e' (named_complete e' b hb) (ha.trans hb.symm)

/-- The refusals by the modem and by a device are told apart. -/
example : Ic.printed .plmNak = some (lit "PLM responded with a NAK.  Resend command\n") ∧ Ic.printed .devNak = some (lit "NAK received\n") := by decide +kernel

/-! ### C212: how many bytes are missing -/

theorem message_error (b : Bytes) : TooShort .message b ↔ b.length < 9 ∨ (Flags.extended (b.getD 6 0#8) = true ∧ b.length < 23) := by
  unfold TooShort Decoder.error
  rcases b with _ | ⟨a0, _ | ⟨a1, _ | ⟨a2, _ | ⟨a3, _ | ⟨a4, _ | ⟨a5, _ | ⟨a6, _ | ⟨a7, _ | ⟨a8, b⟩⟩⟩⟩⟩⟩⟩⟩⟩ <;> simp only [Message.unmarshalBinary, List.length_cons, List.length_nil] <;>
    try (simp; done)
  by_cases hf : Flags.extended a6 = true
  · by_cases hl : b.length + 1 + 1 + 1 + 1 + 1 + 1 + 1 + 1 + 1 < 23
    · simp [hf, hl]
    · simp [hf, hl]
  · simp [hf]

theorem short_record_text (b : Bytes) (l : LinkRecord) : (LinkRecord.unmarshalBinary l b).2 = if b.length < 8 then some (.wrapped .bufferTooShort) else none := by
  rcases b with _ | ⟨a0, _ | ⟨a1, _ | ⟨a2, _ | ⟨a3, _ | ⟨a4, _ | ⟨a5, _ | ⟨a6, _ | ⟨a7, b⟩⟩⟩⟩⟩⟩⟩⟩ <;> simp only [LinkRecord.unmarshalBinary, List.length_cons, List.length_nil] <;>
    first | rfl | (rw [if_neg (by omega)])

theorem request_error (b : Bytes) : TooShort .request b ↔ b.length < 5 ∨ ((b.getD 1 0#8 = 0x01#8 ∨ b.getD 1 0#8 = 0x02#8) ∧ b.length < 13) := by
  unfold TooShort Decoder.error
  rcases b with _ | ⟨a0, _ | ⟨a1, _ | ⟨a2, _ | ⟨a3, _ | ⟨a4, b⟩⟩⟩⟩⟩ <;> simp only [LinkRequest.unmarshalBinary, List.length_cons, List.length_nil] <;>
    try (simp; done)
  have e1 : (a0 :: a1 :: a2 :: a3 :: a4 :: b).getD 1 0#8 = a1 := rfl
  have e2 : b.length + 1 + 1 + 1 + 1 + 1 < 13 ↔ b.length < 8 := by omega
  have e3 : ¬ b.length + 1 + 1 + 1 + 1 + 1 < 5 := by omega
  rw [e1, e2]
  by_cases h0 : a1 = LinkRequest.readLink
  · rw [if_pos h0]; subst h0; simp [e3, LinkRequest.zero, LinkRequest.readLink]
  · rw [if_neg h0]
    by_cases h1 : a1 = LinkRequest.linkResponse
    · rw [if_pos h1]; subst h1
      dsimp only
      rw [short_record_text]
      split_ifs with h <;> simp [h, e3, LinkRequest.linkResponse, LinkRequest.writeLink]
    · rw [if_neg h1]
      by_cases h2 : a1 = LinkRequest.writeLink
      · rw [if_pos h2]; subst h2
        dsimp only
        rw [short_record_text]
        split_ifs with h <;> simp [h, e3, LinkRequest.linkResponse, LinkRequest.writeLink]
      · rw [if_neg h2]
        simp [e3, h1, h2, LinkRequest.zero]

theorem simple_error : ∀ d ∈ [(Decoder.record, 8), (.thermostat, 14), (.product, 14), (.allLink, 2)], ∀ b, TooShort d.1 b ↔ b.length < d.2 := by
  intro d hd b
  simp only [List.mem_cons, List.not_mem_nil, or_false] at hd
  rcases hd with rfl | rfl | rfl | rfl
  · change (LinkRecord.unmarshalBinary LinkRecord.zero b).2 = _ ↔ b.length < 8
    rw [short_record_text]; split_ifs with h <;> simp [h]
  · change (ThermostatInfo.unmarshalBinary ThermostatInfo.zero b).2 = _ ↔ b.length < 14
    simp only [ThermostatInfo.unmarshalBinary]
    split_ifs with h <;> simp [h]
  · change (ProductData.unmarshalBinary ProductData.zero b).2 = _ ↔ b.length < 14
    simp only [ProductData.unmarshalBinary]
    split_ifs with h <;> simp [h]
  · unfold TooShort Decoder.error
    rcases b with _ | ⟨a, _ | ⟨a', b⟩⟩ <;> simp [parseAllLinkReq]

/-- C212 refuted: an error says that six bytes are wanted although one more than the four it was given is enough; and another says that three were got when it was given eight. -/
theorem length_error_refuted :
    (¬ ∀ (d : Decoder) (data : List (BitVec 8)) (wanted got : Nat), d.complaint data = some (wanted, got) → Lacks d data (wanted - got)) ∧
    ¬ ∀ (d : Decoder) (data : List (BitVec 8)) (wanted got : Nat), d.complaint data = some (wanted, got) → got = data.length := by
  constructor
  · intro h
    have h1 := h .request [0, 0, 0, 0] 6 4 (by decide +kernel)
    have := (h1 [0]).mpr (by decide)
    exact absurd this (by unfold TooShort; decide +kernel)
  · intro h
    exact absurd (h .request [0, 1, 0, 0, 0, 1, 2, 3] 8 3 (by decide +kernel)) (by decide)

/-- C212 (what holds), for all decoders and data:
* there are numbers in the error exactly when it is one about too few bytes;
* they say how many bytes there were and how many are missing, for link records, thermostat information, product data, linking requests, and messages of which the flags and
  commands are there; for a message that is cut off before, as many as the numbers say are missing at least, and if it is a standard message that is enough;
* for a request about links the numbers are those of the record in it, and so is what is missing; if there is not even the beginning of one, one byte more is asked for than
  needed. -/
theorem length_error_partial (d : Decoder) (data : List (BitVec 8)) :
    (d.complaint data ≠ none ↔ TooShort d data) ∧
    ∀ wanted got, d.complaint data = some (wanted, got) → got < wanted ∧
      match d with
      | .request => if data.length < 5 then wanted = 6 ∧ got = data.length ∧ ∀ more, more.length < 5 - data.length → TooShort d (data ++ more)
          else got + 5 = data.length ∧ Lacks d data (wanted - got)
      | .message => got = data.length ∧ (9 ≤ data.length → Lacks d data (wanted - got)) ∧ (∀ more, more.length < wanted - got → TooShort d (data ++ more)) ∧
          ∀ more, wanted - got ≤ more.length → ((data ++ more).getD 6 0#8).getLsbD 4 = false → ¬ TooShort d (data ++ more)
      | _ => got = data.length ∧ Lacks d data (wanted - got) := by
  have simple : ∀ n, (∀ b, TooShort d b ↔ b.length < n) → data.length < n → Lacks d data (n - data.length) := by
    intro n h hl more
    rw [h, List.length_append]; omega
  have ext4 : ∀ f : Byte, Flags.extended f = f.getLsbD 4 := by decide +kernel
  cases d with
  | message =>
    rw [message_error]
    simp only [Decoder.complaint]
    split_ifs with h1 h2 h3
    · refine ⟨by simp [h1], fun w g h => ?_⟩
      simp only [Option.some.injEq, Prod.mk.injEq] at h
      obtain ⟨rfl, rfl⟩ := h
      refine ⟨h1, rfl, fun h => by omega, fun more hm => ?_, fun more hm hf => ?_⟩
      · rw [message_error, List.length_append]; left; omega
      · rw [message_error, List.length_append, ext4, hf]; simp; omega
    · refine ⟨by simp only [ne_eq, reduceCtorEq, not_false_eq_true, true_iff]; exact Or.inr ⟨h2, h3⟩, fun w g h => ?_⟩
      simp only [Option.some.injEq, Prod.mk.injEq] at h
      obtain ⟨rfl, rfl⟩ := h
      have hg : ∀ more : Bytes, (data ++ more).getD 6 0#8 = data.getD 6 0#8 := fun more => by
        simp only [List.getD_eq_getElem?_getD]; rw [List.getElem?_append_left (by omega)]
      refine ⟨h3, rfl, fun _ more => ?_, fun more hm => ?_, fun more hm hf => ?_⟩
      · rw [message_error, List.length_append, hg, h2]; simp; omega
      · rw [message_error, List.length_append, hg, h2]; right; exact ⟨rfl, by omega⟩
      · rw [hg, ← ext4, h2] at hf; simp at hf
    · exact ⟨by simp [h1, h3], fun w g h => by simp at h⟩
    · exact ⟨by simp only [ne_eq, not_true_eq_false, false_iff, not_or, not_and]; exact ⟨h1, fun h => absurd h h2⟩, fun w g h => by simp at h⟩
  | request =>
    rw [request_error]
    simp only [Decoder.complaint, List.length_drop]
    split_ifs with h1 h2 h3
    · refine ⟨by simp [h1], fun w g h => ?_⟩
      simp only [Option.some.injEq, Prod.mk.injEq] at h
      obtain ⟨rfl, rfl⟩ := h
      refine ⟨by omega, rfl, rfl, fun more hm => ?_⟩
      rw [request_error, List.length_append]; left; omega
    · refine ⟨by simp only [ne_eq, reduceCtorEq, not_false_eq_true, true_iff]; exact Or.inr ⟨h2, by omega⟩, fun w g h => ?_⟩
      simp only [Option.some.injEq, Prod.mk.injEq] at h
      obtain ⟨rfl, rfl⟩ := h
      have hg : ∀ more : Bytes, (data ++ more).getD 1 0#8 = data.getD 1 0#8 := fun more => by
        simp only [List.getD_eq_getElem?_getD]; rw [List.getElem?_append_left (by omega)]
      refine ⟨h3, by omega, fun more => ?_⟩
      rw [request_error, List.length_append, hg]
      constructor
      · rintro (h | h) <;> omega
      · exact fun h => Or.inr ⟨h2, by omega⟩
    · refine ⟨?_, fun w g h => by simp at h⟩
      simp only [ne_eq, not_true_eq_false, false_iff, not_or, not_and]
      exact ⟨h1, fun _ => by omega⟩
    · refine ⟨?_, fun w g h => by simp at h⟩
      simp only [ne_eq, not_true_eq_false, false_iff, not_or, not_and]
      exact ⟨h1, fun h => absurd h h2⟩
  | record =>
    have he := simple_error (.record, 8) (by simp)
    rw [he]
    simp only [Decoder.complaint]
    split_ifs with h1
    · refine ⟨by simp [h1], fun w g h => ?_⟩
      simp only [Option.some.injEq, Prod.mk.injEq] at h
      obtain ⟨rfl, rfl⟩ := h
      exact ⟨h1, rfl, simple 8 he h1⟩
    · exact ⟨by simp [h1], fun w g h => by simp at h⟩
  | thermostat =>
    have he := simple_error (.thermostat, 14) (by simp)
    rw [he]
    simp only [Decoder.complaint]
    split_ifs with h1
    · refine ⟨by simp [h1], fun w g h => ?_⟩
      simp only [Option.some.injEq, Prod.mk.injEq] at h
      obtain ⟨rfl, rfl⟩ := h
      exact ⟨h1, rfl, simple 14 he h1⟩
    · exact ⟨by simp [h1], fun w g h => by simp at h⟩
  | product =>
    have he := simple_error (.product, 14) (by simp)
    rw [he]
    simp only [Decoder.complaint]
    split_ifs with h1
    · refine ⟨by simp [h1], fun w g h => ?_⟩
      simp only [Option.some.injEq, Prod.mk.injEq] at h
      obtain ⟨rfl, rfl⟩ := h
      exact ⟨h1, rfl, simple 14 he h1⟩
    · exact ⟨by simp [h1], fun w g h => by simp at h⟩
  | allLink =>
    have he := simple_error (.allLink, 2) (by simp)
    rw [he]
    simp only [Decoder.complaint]
    split_ifs with h1
    · refine ⟨by simp [h1], fun w g h => ?_⟩
      simp only [Option.some.injEq, Prod.mk.injEq] at h
      obtain ⟨rfl, rfl⟩ := h
      exact ⟨h1, rfl, simple 2 he h1⟩
    · exact ⟨by simp [h1], fun w g h => by simp at h⟩

/-! The numbers can be read off the text. -/

theorem digit_ch (n : Nat) (c : Char) (h : c ∈ (toString n).toList) : c.toNat < 256 ∧ ch c ≠ ch ' ' := by
  have hd : c.isDigit = true := by
    have : (toString n).toList = Nat.toDigits 10 n := by simp [Nat.toString_eq_repr, Nat.repr]
    rw [this] at h
    exact Nat.isDigit_of_mem_toDigits (by omega) (by omega) h
  have hr : 48 ≤ c.toNat ∧ c.toNat ≤ 57 := by
    simp only [Char.isDigit, Bool.and_eq_true, decide_eq_true_eq] at hd
    exact ⟨by simpa using UInt32.le_iff_toNat_le.mp hd.1, by simpa using UInt32.le_iff_toNat_le.mp hd.2⟩
  refine ⟨by omega, fun h => ?_⟩
  have := congrArg BitVec.toNat h
  simp [ch] at this
  omega

theorem digits_inj (m n : Nat) (h : lit (toString m) = lit (toString n)) : m = n := by
  refine Nat.repr_injective (String.toList_inj.mp ?_)
  have key : ∀ a b : List Char, (∀ c ∈ a, c.toNat < 256) → (∀ c ∈ b, c.toNat < 256) → a.map ch = b.map ch → a = b := by
    intro a
    induction a with
    | nil => intro b _ _ h; cases b with
      | nil => rfl
      | cons y b => simp at h
    | cons x a ih =>
      intro b ha hb h
      cases b with
      | nil => simp at h
      | cons y b =>
        simp only [List.map_cons, List.cons.injEq] at h
        have hx := ha x (List.mem_cons_self ..)
        have hy := hb y (List.mem_cons_self ..)
        have h1 := congrArg BitVec.toNat h.1
        simp only [ch, BitVec.toNat_ofNat] at h1
        have : x = y := Char.toNat_inj.mp (by omega)
        rw [this, ih b (fun c hc => ha c (List.mem_cons_of_mem _ hc)) (fun c hc => hb c (List.mem_cons_of_mem _ hc)) h.2]
  exact key _ _ (fun c hc => (digit_ch m c hc).1) (fun c hc => (digit_ch n c hc).1) h

theorem until_space (sp : Byte) : ∀ a b r r' : Bytes, sp ∉ a → sp ∉ b → a ++ sp :: r = b ++ sp :: r' → a = b ∧ r = r' := by
  intro a
  induction a with
  | nil =>
    intro b r r' _ hb h
    cases b with
    | nil => exact ⟨rfl, by simpa using h⟩
    | cons y b => simp only [List.nil_append, List.cons_append, List.cons.injEq] at h; exact absurd (h.1 ▸ List.mem_cons_self ..) hb
  | cons x a ih =>
    intro b r r' ha hb h
    cases b with
    | nil => simp only [List.nil_append, List.cons_append, List.cons.injEq] at h; exact absurd (h.1 ▸ List.mem_cons_self ..) ha
    | cons y b =>
      simp only [List.cons_append, List.cons.injEq] at h
      have := ih b r r' (fun h => ha (List.mem_cons_of_mem _ h)) (fun h => hb (List.mem_cons_of_mem _ h)) h.2
      exact ⟨by rw [h.1, this.1], this.2⟩

theorem lit_append (a b : String) : lit (a ++ b) = lit a ++ lit b := by simp [lit]

theorem numbers_inj (pre mid : String) (c c' : Nat × Nat) (hm : ∃ r, mid = " " ++ r) (h : lit (pre ++ toString c.1 ++ mid ++ toString c.2) = lit (pre ++ toString c'.1 ++ mid ++ toString c'.2)) : c = c' := by
  obtain ⟨r, rfl⟩ := hm
  have hs : lit " " = [ch ' '] := rfl
  simp only [lit_append, List.append_assoc, hs, List.singleton_append] at h
  have no : ∀ n : Nat, ch ' ' ∉ lit (toString n) := by
    intro n hn
    obtain ⟨c, hc, he⟩ := List.mem_map.mp hn
    exact (digit_ch n c hc).2 he
  obtain ⟨h1, h2⟩ := until_space _ _ _ _ _ (no _) (no _) (List.append_cancel_left h)
  exact Prod.ext (digits_inj _ _ h1) (digits_inj _ _ (List.append_cancel_left h2))

/-- C212: the numbers can be read off the text of the error. -/
theorem length_text_reads (d : Decoder) (c c' : Nat × Nat) (h : d.text c = d.text c') : c = c' := by
  cases d
  case product => exact numbers_inj _ " bytes got " c c' ⟨"bytes got ", rfl⟩ h
  case allLink => exact numbers_inj _ " got " c c' ⟨"got ", rfl⟩ h
  all_goals exact numbers_inj _ " bytes got " c c' ⟨"bytes got ", rfl⟩ h

/-- An extended message of which twelve bytes have arrived. -/
example : Decoder.complaint .message [1, 2, 3, 4, 5, 6, 0x1f, 0x2f, 0, 0, 0, 0] = some (23, 12) ∧
    Decoder.text .message (23, 12) = lit "Buffer is too short: wanted 23 bytes got 12" := by decide +kernel

end Insteon
