import Verif.Model.Names
import Verif.Spec.Names
import Verif.Lemmas.Text
import Verif.Lemmas.Bits

namespace Insteon

/-! ### Helpers -/

theorem decByte_inj {a b : Byte} (h : decByte a = decByte b) : a = b := by
  have ha := (decByte_spec a).2.2.2
  rw [h, (decByte_spec b).2.2.2] at ha
  apply BitVec.eq_of_toNat_eq
  simpa using ha.symm

/-- The last separator splits a text in one way only. -/
theorem split_last {α : Type} {x : α} {l₁ l₂ d₁ d₂ : List α} (h : l₁ ++ x :: d₁ = l₂ ++ x :: d₂)
    (h1 : x ∉ d₁) (h2 : x ∉ d₂) : l₁ = l₂ ∧ d₁ = d₂ := by
  rcases List.append_eq_append_iff.mp h with ⟨t, ht, hd⟩ | ⟨t, ht, hd⟩
  · cases t with
    | nil => simp_all
    | cons y t =>
      simp only [List.cons_append, List.cons.injEq] at hd
      exact absurd (by rw [hd.2]; simp) h1
  · cases t with
    | nil => simp_all
    | cons y t =>
      simp only [List.cons_append, List.cons.injEq] at hd
      exact absurd (by rw [hd.2]; simp) h2

theorem decByte_open (b : Byte) : ch '(' ∉ decByte b := by revert b; decide +kernel

theorem cmdName_mem {c : Command} {s : Bytes} (h : cmdName c = some s) : (c, s) ∈ cmdStrings := by
  unfold cmdName at h
  rcases hf : cmdStrings.find? (fun p => p.1 == c) with _ | p
  · simp [hf] at h
  · rw [hf] at h
    have h1 := List.mem_of_find?_eq_some hf
    have h2 := List.find?_some hf
    simp at h h2
    subst h; subst h2; exact h1

/-- A text that ends in a digit and a closing parenthesis. -/
def endsNumbered (s : Bytes) : Bool :=
  match s.reverse with
  | c :: d :: _ => c == ch ')' && decide (48 ≤ d.toNat) && decide (d.toNat ≤ 57)
  | _ => false

theorem names_not_numbered : ∀ p ∈ cmdStrings, endsNumbered p.2 = false := by decide +kernel

theorem names_not_raw : ∀ p ∈ cmdStrings, 4 ≤ p.2.length ∧ p.2.take 4 ≠ (lit "Command(0x").take 4 := by
  decide +kernel

theorem names_twice : ∀ p ∈ cmdStrings, ∀ q ∈ cmdStrings, p.2 = q.2 → p.1 = q.1 ∨
    (p.1 = 0x2e00#64 ∧ q.1 = 0x3400#64) ∨ (p.1 = 0x3400#64 ∧ q.1 = 0x2e00#64)
    ∨ (p.1 = 0x2f00#64 ∧ q.1 = 0x3500#64) ∨ (p.1 = 0x3500#64 ∧ q.1 = 0x2f00#64) := by
  decide +kernel


theorem lits_eq : lit "(" = [ch '('] ∧ lit ")" = [ch ')'] := by decide +kernel

/-- The three bytes of a command are the command. -/
theorem command_sum {c : Command} (h : c.toNat < 2 ^ 24) :
    c.toNat = (c.extractLsb' 16 8).toNat * 65536 + (c.extractLsb' 8 8).toNat * 256 + (c.extractLsb' 0 8).toNat := by
  rw [extract_toNat, extract_toNat, extract_toNat]; omega

theorem command_bytes_ext {c d : Command} (hc : c.toNat < 2 ^ 24) (hd : d.toNat < 2 ^ 24)
    (h0 : c.extractLsb' 16 8 = d.extractLsb' 16 8) (h1 : c.extractLsb' 8 8 = d.extractLsb' 8 8)
    (h2 : c.extractLsb' 0 8 = d.extractLsb' 0 8) : c = d := by
  apply BitVec.eq_of_toNat_eq
  rw [command_sum hc, command_sum hd, h0, h1, h2]

theorem command_of_high {c : Command} (hc : c.toNat < 2 ^ 24) :
    c = (c &&& 0xffff00#64) ||| (c.extractLsb' 0 8).setWidth 64 := by
  have hx : ∀ i, 24 ≤ i → c.getLsbD i = false := fun i hi =>
    Nat.testBit_lt_two_pow (lt_of_lt_of_le hc (Nat.pow_le_pow_right (by decide) hi))
  ext i hi
  rcases Nat.lt_or_ge i 24 with h | h
  · interval_cases i <;> simp
  · rw [← BitVec.getLsbD_eq_getElem, hx i h]; simp [← BitVec.getLsbD_eq_getElem, hx i h]

theorem command0_byte (c : Command) : c.command0.setWidth 8 = c.extractLsb' 16 8 := by
  rw [command0_eq]; simp

/-- The three forms of a command's text. -/
theorem command_string_cases (c : Command) :
    (∃ s, (c, s) ∈ cmdStrings ∧ c.string = s) ∨
    (∃ s, (c &&& 0xffff00#64, s) ∈ cmdStrings ∧ c.string = s ++ ch '(' :: (decByte (c.extractLsb' 0 8) ++ [ch ')'])) ∨
    c.string = lit "Command(0x" ++ (hex2 (c.extractLsb' 16 8) ++ (lit ", 0x" ++ (hex2 (c.extractLsb' 8 8)
        ++ (lit ", 0x" ++ (hex2 (c.extractLsb' 0 8) ++ lit ")"))))) := by
  unfold Command.string
  rcases h : cmdName c with _ | s
  · rcases h' : cmdName (c &&& 0xffff00#64) with _ | s
    · refine Or.inr (Or.inr ?_)
      simp only [command0_byte, command1_byte, command2_byte, List.append_assoc]
    · refine Or.inr (Or.inl ⟨s, cmdName_mem h', ?_⟩)
      simp only [command2_byte, lits_eq.1, lits_eq.2, List.append_assoc, List.cons_append, List.nil_append]
  · exact Or.inl ⟨s, cmdName_mem h, rfl⟩

theorem endsNumbered_of (s : Bytes) (b : Byte) : endsNumbered (s ++ ch '(' :: (decByte b ++ [ch ')'])) = true := by
  have key : ∀ b : Byte, ∃ d l, (decByte b).reverse = d :: l ∧ 48 ≤ d.toNat ∧ d.toNat ≤ 57 := by
    intro b
    have : (match (decByte b).reverse with | d :: _ => decide (48 ≤ d.toNat) && decide (d.toNat ≤ 57) | [] => false) = true := by
      revert b; decide +kernel
    rcases h : (decByte b).reverse with _ | ⟨d, l⟩
    · simp [h] at this
    · simp [h] at this; exact ⟨d, l, rfl, this⟩
  obtain ⟨d, l, h, h1, h2⟩ := key b
  simp [endsNumbered, h, h1, h2]

/-! ### C110 -/

/-- Two three-byte commands with the same text are the same command, or one of the pairs of ramp
commands. -/
theorem command_text_partial (a b : Command) (ha : a.toNat < 2 ^ 24) (hb : b.toNat < 2 ^ 24)
    (h : a.string = b.string) : a = b ∨ RampTwins a b := by
  have raw : ∀ (s t u : Bytes) (c : Command), (c, s) ∈ cmdStrings → s ++ t ≠ lit "Command(0x" ++ u := by
    intro s t u c hm he
    have h1 := names_not_raw _ hm
    have h2 := congrArg (List.take 4) he
    rw [List.take_append_of_le_length h1.1, List.take_append_of_le_length (by decide +kernel)] at h2
    exact h1.2 h2
  rcases command_string_cases a with ⟨s, hs, ea⟩ | ⟨s, hs, ea⟩ | ea <;>
    rcases command_string_cases b with ⟨t, ht, eb⟩ | ⟨t, ht, eb⟩ | eb <;> rw [ea, eb] at h
  · rcases names_twice _ hs _ ht h with h | h | h | h | h
    · exact Or.inl h
    · exact Or.inr ⟨0, Or.inl (by simpa using h)⟩
    · exact Or.inr ⟨0, Or.inr (Or.inl (by simpa using h))⟩
    · exact Or.inr ⟨0, Or.inr (Or.inr (Or.inl (by simpa using h)))⟩
    · exact Or.inr ⟨0, Or.inr (Or.inr (Or.inr (by simpa using h)))⟩
  · have := names_not_numbered _ hs
    rw [h, endsNumbered_of] at this; cases this
  · exact absurd (by simpa using h) (raw s [] _ a hs)
  · have := names_not_numbered _ ht
    rw [← h, endsNumbered_of] at this; cases this
  · have hp : ∀ b : Byte, ch '(' ∉ decByte b ++ [ch ')'] := by
      intro b hb
      rcases List.mem_append.mp hb with hb | hb
      · exact decByte_open b hb
      · revert hb; decide +kernel
    obtain ⟨h1, h2⟩ := split_last h (hp _) (hp _)
    have h3 := decByte_inj (List.append_cancel_right h2)
    have ea := command_of_high ha
    have eb := command_of_high hb
    rw [h3] at ea
    rcases names_twice _ hs _ ht h1 with h | h | h | h | h
    · left; exact (ea.trans (congrArg (· ||| _) h)).trans eb.symm
    · exact Or.inr ⟨_, Or.inl ⟨ea.trans (congrArg (· ||| _) h.1), eb.trans (congrArg (· ||| _) h.2)⟩⟩
    · exact Or.inr ⟨_, Or.inr (Or.inl ⟨ea.trans (congrArg (· ||| _) h.1), eb.trans (congrArg (· ||| _) h.2)⟩)⟩
    · exact Or.inr ⟨_, Or.inr (Or.inr (Or.inl ⟨ea.trans (congrArg (· ||| _) h.1), eb.trans (congrArg (· ||| _) h.2)⟩))⟩
    · exact Or.inr ⟨_, Or.inr (Or.inr (Or.inr ⟨ea.trans (congrArg (· ||| _) h.1), eb.trans (congrArg (· ||| _) h.2)⟩))⟩
  · exact absurd h (raw s _ _ _ hs)
  · exact absurd (by simpa using h.symm) (raw t [] _ b ht)
  · exact absurd h.symm (raw t _ _ _ ht)
  · left
    have h := List.append_cancel_left h
    obtain ⟨h0, h⟩ := List.append_inj h rfl
    have h := List.append_cancel_left h
    obtain ⟨h1, h⟩ := List.append_inj h rfl
    have h := List.append_cancel_left h
    obtain ⟨h2, h⟩ := List.append_inj h rfl
    exact command_bytes_ext ha hb (hex2_inj h0) (hex2_inj h1) (hex2_inj h2)

/-- Different commands have different texts: false, the ramp commands of older and newer dimmers are
printed alike. -/
theorem command_text_refuted : ∃ f c1 c2 g d1 d2, Command.ofWire f c1 c2 ≠ Command.ofWire g d1 d2 ∧
    (Command.ofWire f c1 c2).string = (Command.ofWire g d1 d2).string :=
  ⟨0, 0x2e, 0x1f, 0, 0x34, 0x1f, by decide, by decide +kernel⟩

/-- Non-vacuity: three forms of text. -/
example : (Command.ofWire 0x0f 0x11 0x00).string = lit "Light On" ∧ (Command.ofWire 0x0f 0x11 0xff).string = lit "Light On(255)"
    ∧ (Command.ofWire 0x0f 0x99 0x01).string = lit "Command(0x00, 0x99, 0x01)" := by decide +kernel

/-- Commands decoded from the network have three bytes. -/
theorem ofWire_lt (f c1 c2 : Byte) : (Command.ofWire f c1 c2).toNat < 2 ^ 24 := by
  have : Command.ofWire f c1 c2 = Command.ofWire f c1 c2 &&& 0xffffff#64 := by
    unfold Command.ofWire
    rw [fromClass_cases]
    ext i hi
    simp only [BitVec.getElem_or, BitVec.getElem_and, BitVec.getElem_shiftLeft, BitVec.getElem_setWidth]
    rcases Nat.lt_or_ge i 24 with h | h
    · split_ifs <;> interval_cases i <;> simp
    · have e1 : c1.getLsbD (i - 8) = false := BitVec.getLsbD_of_ge _ _ (by omega)
      have e2 : c2.getLsbD i = false := BitVec.getLsbD_of_ge _ _ (by omega)
      split_ifs <;> interval_cases i <;> simp_all
  rw [this, BitVec.toNat_and]
  exact Nat.lt_of_le_of_lt Nat.and_le_right (by decide)

/-! ### C111 -/

/-- A modem command from its text. -/
def plmOfText (s : Bytes) : Byte :=
  if s.take 8 = lit "Command(" then
    BitVec.ofNat 8 ((s.drop 8).dropLast.foldl (fun n d => 10 * n + (d.toNat - 48)) 0)
  else if s = lit "NAK" then 21#8
  else if s ∈ plmNames1 then BitVec.ofNat 8 (80 + plmNames1.idxOf s)
  else BitVec.ofNat 8 (96 + plmNames2.idxOf s)

theorem plmOfText_string (i : Byte) : plmOfText (plmCommandString i) = i := by revert i; decide +kernel

/-- Different modem commands have different texts. -/
theorem plm_command_text (i j : Byte) (h : plmCommandString i = plmCommandString j) : i = j := by
  rw [← plmOfText_string i, h, plmOfText_string]

theorem joinWith_nil (l : List Bytes) : joinWith [] l = l.flatten := by
  fun_induction joinWith <;> simp_all

theorem joinWith_length {sep : Bytes} {l : List Bytes} {w : Nat} (h : ∀ x ∈ l, x.length = w) :
    (joinWith sep l).length = l.length * w + (l.length - 1) * sep.length := by
  fun_induction joinWith with
  | case1 => simp
  | case2 x => simp [h x (by simp)]
  | case3 x y l ih =>
    have := ih (fun z hz => h z (by simp_all))
    simp only [List.length_append, this, h x (by simp), List.length_cons]
    simp only [Nat.add_sub_cancel, Nat.add_mul, Nat.one_mul]
    omega

/-- Bytes in hexadecimal determine the bytes, given their number. -/
theorem payloadString_inj {sep : Bytes} : ∀ {p q : Bytes}, p.length = q.length →
    payloadString sep p = payloadString sep q → p = q
  | [], [], _, _ => rfl
  | [a], [b], _, h => by simp only [payloadString, List.map, joinWith] at h; rw [hex2_inj h]
  | a :: a' :: p, b :: b' :: q, hl, h => by
    simp only [payloadString, List.map, joinWith, List.append_assoc] at h
    obtain ⟨h1, h⟩ := List.append_inj h rfl
    have h := List.append_cancel_left h
    have ih := payloadString_inj (sep := sep) (p := a' :: p) (q := b' :: q) (by simpa using hl) (by simpa [payloadString] using h)
    rw [hex2_inj h1, ih]
  | [], _ :: _, hl, _ => by simp at hl
  | _ :: _, [], hl, _ => by simp at hl
  | [_], _ :: _ :: _, hl, _ => by simp at hl
  | _ :: _ :: _, [_], hl, _ => by simp at hl

theorem payloadString_length (sep p : Bytes) : (payloadString sep p).length = p.length * 2 + (p.length - 1) * sep.length := by
  have := joinWith_length (sep := sep) (l := p.map hex2) (w := 2) (by simp [hex2])
  simpa [payloadString] using this

/-- What the hexadecimal format of a packet shows is the packet. -/
theorem packet_hex (p q : Packet) (h : p.formatX = q.formatX) : p = q := by
  have hl := congrArg List.length h
  simp only [Packet.formatX, List.length_append, payloadString_length, hex2_length, List.length_nil, Nat.mul_zero] at hl
  unfold Packet.formatX at h
  rw [List.append_assoc, List.append_assoc] at h
  obtain ⟨h1, h⟩ := List.append_inj h rfl
  obtain ⟨h2, h⟩ := List.append_inj' h rfl
  obtain ⟨c, l, a⟩ := p; obtain ⟨c', l', a'⟩ := q
  simp only [Packet.mk.injEq]
  exact ⟨hex2_inj h1, payloadString_inj (by simp at hl; omega) h2, hex2_inj h⟩

/-! ### C112 -/

theorem flags_string_length (f : Flags) : f.string.length = 10 := by revert f; decide +kernel

/-- Flags from their text. -/
def flagsOfText (s : Bytes) : Flags :=
  let c (i : Nat) : Byte := (s[i]?).getD 0
  (if c 0 = ch 'E' then 0x10#8 else 0x00#8)
    ||| (if c 1 = ch 'D' then (if c 3 = ch 'A' then 0x20#8 else if c 3 = ch 'N' then 0xa0#8 else 0x00#8)
         else if c 1 = ch 'C' then (if c 3 = ch 'A' then 0x60#8 else if c 3 = ch 'N' then 0xe0#8 else 0x40#8)
         else if c 1 = ch 'B' then 0x80#8 else 0xc0#8)
    ||| (c 7 - 48#8) ||| ((c 9 - 48#8) <<< 2)

theorem flagsOfText_string (f : Flags) : flagsOfText f.string = f := by revert f; decide +kernel

/-- The text of message flags determines all eight bits. -/
theorem flags_text (f g : Flags) (h : f.string = g.string) : f = g := by
  rw [← flagsOfText_string f, h, flagsOfText_string]

/-! ### C113 -/

/-- The first separator splits a text in one way only. -/
theorem split_first {α : Type} {x : α} {l₁ l₂ d₁ d₂ : List α} (h : l₁ ++ x :: d₁ = l₂ ++ x :: d₂)
    (h1 : x ∉ l₁) (h2 : x ∉ l₂) : l₁ = l₂ ∧ d₁ = d₂ := by
  rcases List.append_eq_append_iff.mp h with ⟨t, ht, hd⟩ | ⟨t, ht, hd⟩
  · cases t with
    | nil => simp_all
    | cons y t =>
      simp only [List.cons_append, List.cons.injEq] at hd
      exact absurd (by rw [ht, ← hd.1]; simp) h2
  · cases t with
    | nil => simp_all
    | cons y t =>
      simp only [List.cons_append, List.cons.injEq] at hd
      exact absurd (by rw [ht, ← hd.1]; simp) h1

theorem decByte_space (b : Byte) : ch ' ' ∉ decByte b := by revert b; decide +kernel
theorem decByte_dot (b : Byte) : ch '.' ∉ decByte b := by revert b; decide +kernel

theorem address_text_inj {a b : Address} (ha : a.toNat < 2 ^ 24) (hb : b.toNat < 2 ^ 24) (h : a.string = b.string) :
    a = b := by
  simp only [Address.string, List.append_assoc] at h
  obtain ⟨h1, h⟩ := List.append_inj h rfl
  have h := List.append_cancel_left h
  obtain ⟨h2, h⟩ := List.append_inj h rfl
  have h := List.append_cancel_left h
  have e : ∀ a : Address, a.toNat < 2 ^ 24 → a = Address.put a.bytes := fun a ha => by
    rw [put_bytes, and_ffffff_of_lt a ha]
  rw [e a ha, e b hb]
  simp only [Address.bytes, hex2_inj h1, hex2_inj h2, hex2_inj h]

/-- What is known of a message from the network. -/
theorem received_facts {m : Message} (h : Received m) : m.src.toNat < 2 ^ 24 ∧ m.dst.toNat < 2 ^ 24 ∧
    (∃ c1 c2, m.command = Command.ofWire m.flags c1 c2) ∧ (m.flags.extended = true → m.payload.length = 14)
    ∧ (m.flags.extended = false → m.payload = []) := by
  obtain ⟨data, h⟩ := h
  unfold Message.unmarshalBinary at h
  split at h
  · rename_i s0 s1 s2 d0 d1 d2 f c1 c2 rest
    dsimp only at h
    split_ifs at h with h1 h2
    · simp at h
    · simp at h
      subst h
      refine ⟨beUint32_lt _ _ _, beUint32_lt _ _ _, ⟨c1, c2, rfl⟩, fun _ => ?_, fun h => ?_⟩
      · simp only [copyPad, List.length_append, List.length_take, List.length_replicate]; omega
      · dsimp only at h; rw [h1] at h; cases h
    · simp at h
      subst h
      refine ⟨beUint32_lt _ _ _, beUint32_lt _ _ _, ⟨c1, c2, rfl⟩, fun h => ?_, fun _ => rfl⟩
      exact absurd h h1
  · simp at h

/-- The end of a message's text. -/
def textTail (m : Message) : Bytes :=
  if m.flags.extended then lit " [" ++ payloadString (lit " ") m.payload ++ lit "]" else []

theorem textTail_length {m n : Message} (hm : Received m) (hn : Received n) (hf : m.flags = n.flags) :
    (textTail m).length = (textTail n).length := by
  unfold textTail
  rw [hf]
  split_ifs with h
  · simp only [List.length_append, payloadString_length, (received_facts hn).2.2.2.1 h, (received_facts hm).2.2.2.1 (hf ▸ h)]
  · rfl

theorem textTail_inj {m n : Message} (hm : Received m) (hn : Received n) (hf : m.flags = n.flags)
    (h : textTail m = textTail n) : m.payload = n.payload := by
  unfold textTail at h
  rw [hf] at h
  split_ifs at h with he
  · rw [List.append_assoc, List.append_assoc] at h
    have h := List.append_cancel_right (List.append_cancel_left h)
    refine payloadString_inj ?_ h
    rw [(received_facts hn).2.2.2.1 he, (received_facts hm).2.2.2.1 (hf ▸ he)]
  · rw [(received_facts hn).2.2.2.2 (by simpa using he), (received_facts hm).2.2.2.2 (by rw [hf]; simpa using he)]

/-- The same text of the command part means the same command, or ramp twins. -/
theorem stringCommand_inj {m n : Message} (hm : Received m) (hn : Received n) (hf : m.flags = n.flags)
    (h : m.stringCommand = n.stringCommand) : m.command = n.command ∨ RampTwins m.command n.command := by
  obtain ⟨c1, c2, e1⟩ := (received_facts hm).2.2.1
  obtain ⟨d1, d2, e2⟩ := (received_facts hn).2.2.1
  unfold Message.stringCommand at h
  rw [hf] at h
  split_ifs at h with ha
  · left
    have hd : lit "." = [ch '.'] := by decide +kernel
    simp only [hd, List.append_assoc, List.cons_append, List.nil_append] at h
    obtain ⟨h1, h2⟩ := split_first h (decByte_dot _) (decByte_dot _)
    have h1 := decByte_inj h1
    have h2 := decByte_inj h2
    rw [command1_byte, command1_byte, e1, e2, ofWire_cmd1, ofWire_cmd1] at h1
    rw [command2_byte, command2_byte, e1, e2, ofWire_cmd2, ofWire_cmd2] at h2
    rw [e1, e2, h1, h2, hf]
  · exact command_text_partial _ _ (e1 ▸ ofWire_lt _ _ _) (e2 ▸ ofWire_lt _ _ _) h

/-- Two messages from the network with the same text agree in source, flags and payload; in their
destination, of which only the group number is shown for an all-link broadcast; and in their command
up to the two pairs of ramp commands. -/
theorem message_text_partial (m n : Message) (hm : Received m) (hn : Received n) (h : m.string = n.string) :
    m.src = n.src ∧ m.flags = n.flags ∧ m.payload = n.payload
    ∧ (m.command = n.command ∨ RampTwins m.command n.command)
    ∧ (m.flags.type ≠ .allLinkBroadcast → m.dst = n.dst) ∧ groupOf m = groupOf n := by
  have e : ∀ m : Message, m.string = m.flags.string ++ (lit " " ++ (m.src.string ++
      ((if m.flags.type = .allLinkBroadcast then lit " -> ff.ff.ff"
        else if m.flags.type = .broadcast then lit " -> ff.ff.ff DevCat " ++ (hex2 (byte32 (m.dst >>> 16)) ++ (lit "." ++
          (hex2 (byte32 (m.dst >>> 8)) ++ (lit " Firmware " ++ decByte (byte32 m.dst)))))
        else if m.flags.type = .allLinkCleanup then lit " -> " ++ (m.dst.string ++ lit " Cleanup")
        else lit " -> " ++ m.dst.string) ++ (lit " " ++ (m.stringCommand ++
      ((if m.flags.type = .allLinkBroadcast then lit " Group(" ++ decByte (byte32 m.dst) ++ lit ")" else []) ++ textTail m)))))) := by
    intro m
    unfold Message.string Message.stringHead devCatString textTail
    split_ifs <;> simp only [List.append_assoc]
  obtain ⟨ms, md, -, -, -⟩ := received_facts hm
  obtain ⟨ns, nd, -, -, -⟩ := received_facts hn
  rw [e m, e n] at h
  obtain ⟨hf, h⟩ := List.append_inj h (by rw [flags_string_length, flags_string_length])
  have hf := flags_text _ _ hf
  have h := List.append_cancel_left h
  obtain ⟨hs, h⟩ := List.append_inj h rfl
  have hs := address_text_inj ms ns hs
  rw [hf] at h
  refine ⟨hs, hf, ?_⟩
  have hsp : lit " " = [ch ' '] := by decide +kernel
  rw [hf]
  rcases Decidable.em (n.flags.type = .allLinkBroadcast) with ht | ht
  · rw [if_pos ht, if_pos ht, if_pos ht, if_pos ht] at h
    have h := List.append_cancel_left (List.append_cancel_left h)
    rw [← List.append_assoc, ← List.append_assoc (n.stringCommand)] at h
    obtain ⟨h, h2⟩ := List.append_inj' h (textTail_length hm hn hf)
    have hg : lit " Group(" = lit " Group" ++ [ch '('] := by decide +kernel
    rw [hg] at h
    simp only [List.append_assoc, List.cons_append, List.nil_append] at h
    rw [← List.append_assoc, ← List.append_assoc (n.stringCommand)] at h
    have hp : ∀ b : Byte, ch '(' ∉ decByte b ++ lit ")" := by
      intro b hb
      rcases List.mem_append.mp hb with hb | hb
      · exact decByte_open b hb
      · revert hb; decide +kernel
    obtain ⟨h3, h4⟩ := split_last h (hp _) (hp _)
    have h3 := List.append_cancel_right h3
    have h4 := decByte_inj (List.append_cancel_right h4)
    refine ⟨textTail_inj hm hn hf h2, stringCommand_inj hm hn hf h3, fun h => absurd ht h, ?_⟩
    unfold groupOf
    rw [← byte32_toNat, ← byte32_toNat, h4]
  · rw [if_neg ht, if_neg ht, if_neg ht, if_neg ht] at h
    suffices hd : m.dst = n.dst ∧ m.stringCommand ++ textTail m = n.stringCommand ++ textTail n by
      obtain ⟨h3, h2⟩ := List.append_inj' hd.2 (textTail_length hm hn hf)
      exact ⟨textTail_inj hm hn hf h2, stringCommand_inj hm hn hf h3, fun _ => hd.1, by rw [groupOf, groupOf, hd.1]⟩
    rw [List.nil_append, List.nil_append] at h
    rcases Decidable.em (n.flags.type = .broadcast) with hb | hb
    · rw [if_pos hb, if_pos hb, hsp] at h
      simp only [List.append_assoc] at h
      have h := List.append_cancel_left h
      obtain ⟨h1, h⟩ := List.append_inj h rfl
      have h := List.append_cancel_left h
      obtain ⟨h2, h⟩ := List.append_inj h rfl
      have h := List.append_cancel_left h
      obtain ⟨h3, h⟩ := split_first (x := ch ' ') h (decByte_space _) (decByte_space _)
      refine ⟨address_text_inj md nd ?_, h⟩
      rw [Address.string, Address.string, h1, h2, decByte_inj h3]
    · rw [if_neg hb, if_neg hb] at h
      rcases Decidable.em (n.flags.type = .allLinkCleanup) with hc | hc
      · rw [if_pos hc, if_pos hc] at h
        simp only [List.append_assoc] at h
        have h := List.append_cancel_left h
        obtain ⟨h1, h⟩ := List.append_inj h rfl
        exact ⟨address_text_inj md nd h1, List.append_cancel_left (List.append_cancel_left h)⟩
      · rw [if_neg hc, if_neg hc] at h
        simp only [List.append_assoc] at h
        have h := List.append_cancel_left h
        obtain ⟨h1, h⟩ := List.append_inj h rfl
        exact ⟨address_text_inj md nd h1, List.append_cancel_left h⟩

/-- The texts of different messages differ: false, an all-link broadcast is shown without the two
other bytes of its destination. In a success report these hold the command reported on and the number of
devices. -/
theorem message_text_refuted : ∃ m n, Received m ∧ Received n ∧ m ≠ n ∧ m.string = n.string :=
  ⟨⟨0x010203#32, 0x110401#32, 0xcf#8, 0x0c0600#64, []⟩, ⟨0x010203#32, 0x130101#32, 0xcf#8, 0x0c0600#64, []⟩,
    ⟨[1, 2, 3, 0x11, 4, 1, 0xcf, 6, 0], by decide⟩, ⟨[1, 2, 3, 0x13, 1, 1, 0xcf, 6, 0], by decide⟩, by decide,
    by decide +kernel⟩

/-- Non-vacuity: the texts of a direct message, an acknowledgement and a broadcast. -/
example : Received ⟨0x010203#32, 0x040506#32, 0x0f#8, 0x001180#64, []⟩ ∧
    Message.string ⟨0x010203#32, 0x040506#32, 0x0f#8, 0x001180#64, []⟩ = lit "SD     3:3 01.02.03 -> 04.05.06 Light On(128)"
    ∧ Message.string ⟨0x010203#32, 0x040506#32, 0x2f#8, 0x001180#64, []⟩ = lit "SD Ack 3:3 01.02.03 -> 04.05.06 17.128"
    ∧ Message.string ⟨0x010203#32, 0x020b42#32, 0x8f#8, 0x080100#64, []⟩
      = lit "SB     3:3 01.02.03 -> ff.ff.ff DevCat 02.0b Firmware 66 Set-button Pressed (responder)" :=
  ⟨⟨[1, 2, 3, 4, 5, 6, 0x0f, 0x11, 0x80], by decide⟩, by decide +kernel⟩

end Insteon
