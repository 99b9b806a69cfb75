import Verif.Model.Show
import Verif.Spec.Show
import Verif.Props.Link
import Verif.Props.Names
import Verif.Lemmas.Json

/-
C135-C139: what is shown of link databases, devices and thermostats.
-/

namespace Insteon
open Spec

/-! ### Lines -/

theorem unlines_lines (ls : List Bytes) : unlines ls = lines ls := by
  induction ls with
  | nil => rfl
  | cons l ls ih => simp [unlines, lines, ih]

theorem unlines_inj {a b : List Bytes} (ha : ∀ l ∈ a, 0x0a#8 ∉ l) (hb : ∀ l ∈ b, 0x0a#8 ∉ l)
    (h : unlines a = unlines b) : a = b := by
  have := congrArg splitLines h
  rw [splitLines_unlines a ha, splitLines_unlines b hb] at this
  exact List.append_cancel_right this

theorem nonl_of_noSpace {s : Bytes} (h : ∀ x ∈ s, solid x = true) : 0x0a#8 ∉ s := by
  intro hm
  have := h _ hm
  revert this; decide

theorem hex2_nonl (b : Byte) : 0x0a#8 ∉ hex2 b := nonl_of_noSpace (hex2_noSpace b)

/-! ### C135 -/

theorem hex2_table (b : Byte) : lit "0x" ++ hex2 b = hexByteText b.toNat := by
  revert b; decide +kernel

theorem dumpLine_spec (l : LinkRecord) : dumpLine l = recordBytesLine l := by
  have e (n : Nat) (b : Byte) (h : b.toNat = n) : hexByteText n = lit "0x" ++ hex2 b := by rw [hex2_table, h]
  unfold recordBytesLine
  rw [e _ l.flags rfl, e _ l.group rfl, e _ l.d0 rfl, e _ l.d1 rfl, e _ l.d2 rfl,
    e (l.address.toNat / 65536 % 256) (byte32 (l.address >>> 16)) (by simp [byte32, Nat.shiftRight_eq_div_pow]),
    e (l.address.toNat / 256 % 256) (byte32 (l.address >>> 8)) (by simp [byte32, Nat.shiftRight_eq_div_pow]),
    e (l.address.toNat % 256) (byte32 l.address) (by simp [byte32])]
  have e1 : ascii "- [" = lit "- [" := rfl
  have e2 : ascii ", " = lit ", " := rfl
  have e3 : ascii "]" = lit "]" := rfl
  rw [e1, e2, e3]
  simp [dumpLine, LinkRecord.marshalBinary, Address.bytes, joinWith]

theorem dumpLine_nonl (l : LinkRecord) : 0x0a#8 ∉ dumpLine l := by
  have h1 : 0x0a#8 ∉ lit "- [" := by decide
  have h2 : 0x0a#8 ∉ lit ", " := by decide
  have h3 : 0x0a#8 ∉ lit "]" := by decide
  have h4 : 0x0a#8 ∉ lit "0x" := by decide
  simp [dumpLine, LinkRecord.marshalBinary, Address.bytes, joinWith, h1, h2, h3, h4, hex2_nonl]

/-- C135: a dump says "no links", or has one line per link, in the order of the links, with its eight bytes. -/
theorem dump_links_text (links : List LinkRecord) :
    dumpLinks links = if links = [] then lines [ascii "no links"] else lines (ascii "links" :: links.map recordBytesLine) := by
  unfold dumpLinks
  cases links with
  | nil => simp only [List.isEmpty_nil, if_true]; decide
  | cons l ls =>
    have : (l :: ls).map dumpLine = (l :: ls).map recordBytesLine := List.map_congr_left fun x _ => dumpLine_spec x
    rw [this, unlines_lines]
    have e : lit "links\n" = ascii "links" ++ [0x0a#8] := by decide
    simp [lines, e]

theorem dumpLine_inj {a b : LinkRecord} (ha : ThreeByteAddress a) (hb : ThreeByteAddress b)
    (h : dumpLine a = dumpLine b) : a = b := by
  have hm : a.marshalBinary = b.marshalBinary := by
    simp only [dumpLine, LinkRecord.marshalBinary, Address.bytes, List.cons_append, List.nil_append, List.map, joinWith,
      List.append_assoc] at h
    have s := fun {x y : Byte} {r t : Bytes} (h : lit "0x" ++ (hex2 x ++ r) = lit "0x" ++ (hex2 y ++ t)) =>
      List.append_inj (List.append_cancel_left h) rfl
    obtain ⟨h0, h⟩ := s (List.append_cancel_left h)
    obtain ⟨h1, h⟩ := s (List.append_cancel_left h)
    obtain ⟨h2, h⟩ := s (List.append_cancel_left h)
    obtain ⟨h3, h⟩ := s (List.append_cancel_left h)
    obtain ⟨h4, h⟩ := s (List.append_cancel_left h)
    obtain ⟨h5, h⟩ := s (List.append_cancel_left h)
    obtain ⟨h6, h⟩ := s (List.append_cancel_left h)
    obtain ⟨h7, -⟩ := s (List.append_cancel_left h)
    simp only [LinkRecord.marshalBinary, Address.bytes, hex2_inj h0, hex2_inj h1, hex2_inj h2, hex2_inj h3, hex2_inj h4,
      hex2_inj h5, hex2_inj h6, hex2_inj h7]
  have h1 := link_wire_roundtrip_valid a LinkRecord.zero ha
  rw [hm, link_wire_roundtrip_valid b LinkRecord.zero hb] at h1
  exact (congrArg Prod.fst h1).symm

/-- C135: the dump tells any two link databases apart. -/
theorem dump_links_identify (a b : List LinkRecord) (ha : ∀ l ∈ a, ThreeByteAddress l) (hb : ∀ l ∈ b, ThreeByteAddress l) :
    dumpLinks a = dumpLinks b ↔ a = b := by
  refine ⟨fun h => ?_, fun h => by rw [h]⟩
  have key : ∀ (a b : List LinkRecord), (∀ l ∈ a, ThreeByteAddress l) → (∀ l ∈ b, ThreeByteAddress l) →
      a.map dumpLine = b.map dumpLine → a = b := by
    intro a
    induction a with
    | nil => intro b _ _ h; cases b with
      | nil => rfl
      | cons => simp at h
    | cons x a ih => intro b ha hb h; cases b with
      | nil => simp at h
      | cons y b =>
        simp only [List.map_cons, List.cons.injEq] at h
        rw [dumpLine_inj (ha x (by simp)) (hb y (by simp)) h.1,
          ih b (fun l hl => ha l (by simp [hl])) (fun l hl => hb l (by simp [hl])) h.2]
  have hn : ∀ l : List LinkRecord, ∀ x ∈ l.map dumpLine, 0x0a#8 ∉ x := by
    intro l x hx
    obtain ⟨y, -, rfl⟩ := List.mem_map.mp hx
    exact dumpLine_nonl y
  have e1 : lit "no links\n" = ch 'n' :: lit "o links\n" := rfl
  have e2 : lit "links\n" = ch 'l' :: lit "inks\n" := rfl
  have e3 : ch 'n' ≠ ch 'l' := by decide
  unfold dumpLinks at h
  cases a with
  | nil => cases b with
    | nil => rfl
    | cons y b =>
      exfalso
      simp only [List.isEmpty_nil, if_true, List.isEmpty_cons, Bool.false_eq_true, if_false, e1, e2, List.cons_append,
        List.cons.injEq] at h
      exact e3 h.1
  | cons x a => cases b with
    | nil =>
      exfalso
      simp only [List.isEmpty_nil, if_true, List.isEmpty_cons, Bool.false_eq_true, if_false, e1, e2, List.cons_append,
        List.cons.injEq] at h
      exact e3 h.1.symm
    | cons y b =>
      simp only [List.isEmpty_cons, Bool.false_eq_true, if_false] at h
      exact key _ _ ha hb (unlines_inj (hn _) (hn _) (List.append_cancel_left h))

/-- C135: dumping a device's database shows what reading it returns, or nothing and the error. -/
theorem dump_database {σ : Type} (d : Linkable σ) (s : σ) :
    dumpLinkDatabase d s = ((d.links s).1, if (d.links s).2.2 = none then dumpLinks (d.links s).2.1 else [], (d.links s).2.2) := by
  unfold dumpLinkDatabase
  rcases d.links s with ⟨s', ls, _ | e⟩ <;> simp

example : dumpLinks [⟨0xe2#8, 1#8, 0x8f1c05#32, 3#8, 0x1c#8, 1#8⟩]
    = ascii "links\n- [0xe2, 0x01, 0x8f, 0x1c, 0x05, 0x03, 0x1c, 0x01]\n" := by decide
example : ThreeByteAddress ⟨0xe2#8, 1#8, 0x8f1c05#32, 3#8, 0x1c#8, 1#8⟩ := by unfold ThreeByteAddress; decide

/-! ### C136 -/

theorem indent_blank : White (lit "    ") := white_replicate 4

theorem rows_loop (links : List LinkRecord) (acc : List LinkRecord) :
    textToLinksLoop (links.map printRow ++ [[]]) acc = (acc ++ links.map textNormal, none) := by
  induction links generalizing acc with
  | nil => simp [textToLinksLoop, trimSpace, dropSpace]
  | cons r links ih =>
    obtain ⟨b, s, c, hm, hb, hc, hne, -⟩ := marshalText_shape r
    have ht : trimSpace (printRow r) = r.marshalText := by
      rw [printRow, trimSpace_indent indent_blank, hm]; exact trimSpace_self s hb hc
    have hcond : ¬ (r.marshalText.length = 0 ∨ r.marshalText.head? = some (ch '#')) := by rw [hm]; simp [hne]
    simp only [List.map_cons, List.cons_append, textToLinksLoop, ht, if_neg hcond, link_text_roundtrip]
    rw [ih]
    simp

theorem printRow_nonl (l : LinkRecord) : 0x0a#8 ∉ printRow l := by
  obtain ⟨_, _, _, -, -, -, -, h⟩ := marshalText_shape l
  have h2 : 0x0a#8 ∉ lit "    " := by decide
  simp [printRow, h, h2]

theorem rows_shift (links : List LinkRecord) :
    [0x0a#8] ++ unlines (links.map printRow) = (links.map fun l => [0x0a#8] ++ printRow l).flatten ++ [0x0a#8] := by
  induction links with
  | nil => rfl
  | cons l ls ih =>
    simp only [List.map_cons, unlines, List.flatten_cons, List.append_assoc] at *
    rw [← ih]

/-- C136: a printed link database has a heading and then one line for each link, ordered by address and group; these
lines read back as the links shown, in the text format of link files. An empty one says so. Whatever sorting function
is used. -/
theorem print_links (sort : List LinkRecord → List LinkRecord) (hs : Sorts linkLess sort) (links : List LinkRecord)
    (hv : ∀ l ∈ links, ThreeByteAddress l) :
    (links = [] → printLinks sort links = lines [ascii "Link Database:", ascii "    No links defined"]) ∧
    (links ≠ [] → ∃ (shown : List LinkRecord) (rows : List Bytes),
      printLinks sort links = lines (ascii "Link Database:" :: ascii "    Flags Group Address    Data" :: rows)
      ∧ shown.Perm links ∧ shown.Pairwise InOrder
      ∧ rows.length = links.length ∧ (∀ r ∈ rows, 0x0a#8 ∉ r)
      ∧ textToLinks (lines rows) = (shown.map textNormal, none)) := by
  have hp := hs links
    (fun a ha => (link_sort_strict a a a (hv a ha) (hv a ha) (hv a ha)).1)
    (fun a ha b hb c hc => (link_sort_strict a b c (hv a ha) (hv b hb) (hv c hc)).2.1)
    (by
      intro a ha b hb c hc h1 h2 h3 h4
      have e1 := (link_sort_strict a b c (hv a ha) (hv b hb) (hv c hc)).2.2.mp ⟨h1, h2⟩
      have e2 := (link_sort_strict b c a (hv b hb) (hv c hc) (hv a ha)).2.2.mp ⟨h3, h4⟩
      exact (link_sort_strict a c b (hv a ha) (hv c hc) (hv b hb)).2.2.mpr ⟨e1.1.trans e2.1, e1.2.trans e2.2⟩)
  constructor
  · rintro rfl
    have : sort [] = [] := hp.1.eq_nil
    rw [printLinks, this]
    decide
  · intro hne
    have hne' : sort links ≠ [] := fun e => hne (by rw [e] at hp; exact hp.1.symm.eq_nil)
    have hpw : (sort links).Pairwise InOrder := by
      refine hp.2.imp_of_mem ?_
      intro a b ha hb h
      have hva := hv a (hp.1.subset ha)
      have hvb := hv b (hp.1.subset hb)
      rw [Bool.eq_false_iff, ne_eq, link_sort_order b a hvb hva] at h
      unfold InOrder
      omega
    refine ⟨sort links, (sort links).map printRow, ?_, hp.1, hpw, by simpa using hp.1.length_eq, ?_, ?_⟩
    · rw [← unlines_lines, unlines, unlines, printLinks, printTemplate]
      rw [if_neg (by simpa using hne'), List.append_assoc (lit _), ← rows_shift]
      have e : lit "\n    Flags Group Address    Data" = [0x0a#8] ++ ascii "    Flags Group Address    Data" := by decide
      rw [e]
      have e2 : lit "Link Database:" = ascii "Link Database:" := rfl
      rw [e2]
      simp only [List.append_assoc]
    · intro r hr
      obtain ⟨x, -, rfl⟩ := List.mem_map.mp hr
      exact printRow_nonl x
    · rw [← unlines_lines]
      unfold textToLinks
      rw [splitLines_unlines _ (by
        intro r hr
        obtain ⟨x, -, rfl⟩ := List.mem_map.mp hr
        exact printRow_nonl x), rows_loop]
      simp

/-- C136: printing a device's database shows what reading it returns, or nothing and the error. -/
theorem print_database {σ : Type} (sort : List LinkRecord → List LinkRecord) (d : Linkable σ) (s : σ) :
    printLinkDatabase sort d s
      = ((d.links s).1, if (d.links s).2.2 = none then printLinks sort (d.links s).2.1 else [], (d.links s).2.2) := by
  unfold printLinkDatabase
  rcases d.links s with ⟨s', ls, _ | e⟩ <;> simp

/-- A sorting function that keeps the promise, so that the hypothesis can be met. -/
theorem sorts_exists : ∃ sort, Sorts linkLess sort := by
  classical
  refine ⟨fun l => if h : ∃ m : List LinkRecord, m.Perm l ∧ m.Pairwise (fun a b => linkLess b a = false)
    then h.choose else l, ?_⟩
  intro l h1 h2 h3
  have h : ∃ m : List LinkRecord, m.Perm l ∧ m.Pairwise (fun a b => linkLess b a = false) := by
    induction l with
    | nil => exact ⟨[], List.Perm.refl _, List.Pairwise.nil⟩
    | cons x l ih =>
      obtain ⟨m, hp, hm⟩ := ih (fun a ha => h1 a (by simp [ha]))
        (fun a ha b hb c hc => h2 a (by simp [ha]) b (by simp [hb]) c (by simp [hc]))
        (fun a ha b hb c hc => h3 a (by simp [ha]) b (by simp [hb]) c (by simp [hc]))
      refine ⟨m.filter (fun a => linkLess a x) ++ x :: m.filter (fun a => !linkLess a x), ?_, ?_⟩
      · refine List.perm_middle.trans (List.Perm.cons x ?_)
        exact (List.filter_append_perm _ m).trans hp
      · have hx : x ∈ x :: l := by simp
        have hin : ∀ a ∈ m, a ∈ x :: l := fun a ha => List.mem_cons_of_mem _ (hp.subset ha)
        rw [List.pairwise_append, List.pairwise_cons]
        refine ⟨hm.filter _, ⟨?_, hm.filter _⟩, ?_⟩
        · intro a ha
          simp only [List.mem_filter, Bool.not_eq_true'] at ha
          exact ha.2
        · intro a ha b hb
          simp only [List.mem_filter] at ha
          rcases List.mem_cons.mp hb with rfl | hb
          · by_contra hc
            rw [Bool.not_eq_false] at hc
            have := h2 b hx a (hin a ha.1) b hx hc ha.2
            rw [h1 b hx] at this; simp at this
          · simp only [List.mem_filter, Bool.not_eq_true'] at hb
            by_contra hc
            rw [Bool.not_eq_false] at hc
            have := h2 b (hin b hb.1) a (hin a ha.1) x hx hc ha.2
            rw [hb.2] at this; simp at this
  dsimp only
  rw [dif_pos h]
  exact h.choose_spec

example : printTemplate [⟨0xe2#8, 1#8, 0x8f1c05#32, 3#8, 0x1c#8, 1#8⟩]
    = ascii "Link Database:\n    Flags Group Address    Data\n    UC        1 8f.1c.05   03 1c 01\n" := by decide

/-! ### Numbers -/

theorem integerText_fun {s : Bytes} {v w : Int} (hv : IntegerText s v) (hw : IntegerText s w) : v = w := by
  have np : ∀ {d : Bytes}, ¬ Digits (ascii "+" ++ d) := fun h => by
    have := h.2 0x2b#8 (by simp [ascii]); simp at this
  have nm : ∀ {d : Bytes}, ¬ Digits (ascii "-" ++ d) := fun h => by
    have := h.2 0x2d#8 (by simp [ascii]); simp at this
  have pm : ∀ {d e : Bytes}, ascii "+" ++ d ≠ ascii "-" ++ e := by
    intro d e h
    simp [ascii] at h
  rcases hv with ⟨h1, rfl⟩ | ⟨d, rfl, h1, rfl⟩ | ⟨d, rfl, h1, rfl⟩ <;>
    rcases hw with ⟨h2, rfl⟩ | ⟨e, he, h2, rfl⟩ | ⟨e, he, h2, rfl⟩
  · rfl
  · exact absurd (he ▸ h1) np
  · exact absurd (he ▸ h1) nm
  · exact absurd h2 np
  · rw [List.append_cancel_left he]
  · exact absurd he pm
  · exact absurd h2 nm
  · exact absurd he.symm pm
  · rw [List.append_cancel_left he]

theorem intText_inj {i j : Int} (hi : i.natAbs < 10 ^ 20) (hj : j.natAbs < 10 ^ 20)
    (h : Json.intText i = Json.intText j) : i = j :=
  integerText_fun (intText_spec i hi) (h ▸ intText_spec j hj)

theorem intText_char (i : Int) (h : i.natAbs < 10 ^ 20) : ∀ c ∈ Json.intText i, c = 0x2d#8 ∨ (48 ≤ c.toNat ∧ c.toNat ≤ 57) := by
  intro c hc
  unfold Json.intText at hc
  split_ifs at hc with h0
  · rcases List.mem_cons.mp hc with rfl | hc
    · left; rfl
    · right; exact (natText_spec _ (by omega)).1.2 c hc
  · right; exact (natText_spec _ (by omega)).1.2 c hc

theorem intText_nonl (i : Int) (h : i.natAbs < 10 ^ 20) : 0x0a#8 ∉ Json.intText i := by
  intro hc
  rcases intText_char i h _ hc with h | h
  · simp at h
  · simp at h

theorem toInt_small (b : BitVec 64) : b.toInt.natAbs < 10 ^ 20 := by
  have := b.toInt_lt; have := b.le_toInt
  norm_num at *
  omega

/-! ### C137 -/

/-- The word a device's text starts with. -/
def kindWord (info : DeviceInfo) : Bytes :=
  match Dev.lookup info.devCat with
  | .basic => (if info.engineVersion = 0 then ascii "I1" else if info.engineVersion = 1 then ascii "I2"
      else if info.engineVersion = 2 then ascii "I2Cs" else ascii "unknown") ++ ascii " Device"
  | .dimmer => ascii "Dimmer"
  | .switch => ascii "Switch"
  | .outlet => ascii "Switch"
  | .thermostat => ascii "Thermostat"

theorem paren_split {a b : Address} {k l : Bytes} (ha : a.toNat < 2 ^ 24) (hb : b.toNat < 2 ^ 24)
    (h : k ++ lit " (" ++ a.string ++ lit ")" = l ++ lit " (" ++ b.string ++ lit ")") : k = l ∧ a = b := by
  have h := List.append_cancel_right h
  obtain ⟨h1, h2⟩ := List.append_inj' h (by simp [Address.string, hex2])
  exact ⟨List.append_cancel_right h1, address_text_inj ha hb h2⟩

theorem basicString_eq (info : DeviceInfo) :
    basicString info = engineVersionString info.engineVersion ++ ascii " Device" ++ lit " (" ++ info.address.string ++ lit ")" := by
  have : lit " Device (" = ascii " Device" ++ lit " (" := by decide
  simp [basicString, this]

theorem engine_words (v : BitVec 64) : engineVersionString v = (if v = 0 then ascii "I1" else if v = 1 then ascii "I2"
      else if v = 2 then ascii "I2Cs" else ascii "unknown") := rfl

/-- C137, for all devices except thermostats (category 5): a device's text is its kind and its address in parentheses.
What is missing: thermostats, see `thermostat_text_refuted`. -/
theorem device_text_partial (info : DeviceInfo) (h : info.devCat.1 ≠ 0x05#8) :
    deviceString info = kindWord info ++ ascii " (" ++ addressText lowerDigits (ascii ".") (info.address.toNat % 2 ^ 24) ++ ascii ")" := by
  rw [← address_text_format]
  have e : ascii " (" = lit " (" := rfl
  have e' : ascii ")" = lit ")" := rfl
  have e1 : lit "Dimmer (" = ascii "Dimmer" ++ lit " (" := by decide
  have e2 : lit "Switch (" = ascii "Switch" ++ lit " (" := by decide
  rw [e, e']
  unfold deviceString kindWord
  rcases hl : Dev.lookup info.devCat with _ | _ | _ | _ | _
  · simp only [basicString_eq, engine_words]
  · simp only [e1, List.append_assoc]
  · simp only [e2, List.append_assoc]
  · simp only [e2, List.append_assoc]
  · exfalso
    unfold Dev.lookup at hl
    rw [if_neg (c := info.devCat.1 = 0x05#8) h] at hl
    split_ifs at hl

/-- C137, for all devices except thermostats: devices with the same text have the same address.
What is missing: thermostats, see `thermostat_text_refuted`. -/
theorem device_text_identifies_partial (a b : DeviceInfo) (ha : a.address.toNat < 2 ^ 24) (hb : b.address.toNat < 2 ^ 24)
    (hta : a.devCat.1 ≠ 0x05#8) (htb : b.devCat.1 ≠ 0x05#8) (h : deviceString a = deviceString b) :
    a.address = b.address ∧ kindWord a = kindWord b := by
  rw [device_text_partial a hta, device_text_partial b htb, ← address_text_format, ← address_text_format] at h
  exact (paren_split ha hb h).symm

/-- C137 is false of thermostats: all of them have the same text, with the address 00.00.00. -/
theorem thermostat_text_refuted (info : DeviceInfo) (h : info.devCat.1 = 0x05#8) :
    deviceString info = ascii "Thermostat (00.00.00)" := by
  unfold deviceString Dev.lookup
  rw [if_neg (by rw [h]; decide), if_neg (by rw [h]; decide), if_pos h]
  dsimp only
  decide

example : deviceString ⟨0x8f1c05#32, (0x01#8, 0x20#8), 0x45#64, 2#64⟩ = ascii "Dimmer (8f.1c.05)" := by decide
example : deviceString ⟨0x8f1c05#32, (0x05#8, 0x0b#8), 0x10#64, 2#64⟩ = ascii "Thermostat (00.00.00)" := by decide

/-- C137: the longer text of a device (whatever its kind) shows its address, category, firmware version and engine
version: devices with the same text agree in all of these, except that unknown engine versions are not told apart. -/
theorem device_dump_identifies (a b : DeviceInfo) (ha : a.address.toNat < 2 ^ 24) (hb : b.address.toNat < 2 ^ 24)
    (h : deviceDump a = deviceDump b) :
    a.address = b.address ∧ a.devCat = b.devCat ∧ a.firmwareVersion = b.firmwareVersion
      ∧ (a.engineVersion = b.engineVersion ∨ (2 < a.engineVersion.toNat ∧ 2 < b.engineVersion.toNat)) := by
  have ev : ∀ v : BitVec 64, 0x0a#8 ∉ engineVersionString v := by
    intro v; unfold engineVersionString; split_ifs <;> decide
  have hn : ∀ i : DeviceInfo, ∀ l ∈ [lit "        Device: " ++ basicString i,
      lit "      Category: " ++ devCatString i.devCat.1 i.devCat.2,
      lit "      Firmware: " ++ firmwareVersionString i.firmwareVersion,
      lit "Engine Version: " ++ engineVersionString i.engineVersion], 0x0a#8 ∉ l := by
    intro i l hl
    have l1 : 0x0a#8 ∉ lit "        Device: " := by decide
    have l2 : 0x0a#8 ∉ lit "      Category: " := by decide
    have l3 : 0x0a#8 ∉ lit "      Firmware: " := by decide
    have l4 : 0x0a#8 ∉ lit "Engine Version: " := by decide
    have l5 : 0x0a#8 ∉ lit " Device (" := by decide
    have l6 : 0x0a#8 ∉ lit ")" := by decide
    have l7 : 0x0a#8 ∉ lit "." := by decide
    have l8 := nonl_of_noSpace (string_no_space i.address)
    have l9 := intText_nonl _ (toInt_small i.firmwareVersion)
    simp only [List.mem_cons, List.not_mem_nil, or_false] at hl
    rcases hl with rfl | rfl | rfl | rfl <;>
      simp only [basicString, devCatString, firmwareVersionString, List.mem_append, not_or, l1, l2, l3, l4, l5, l6, l7, l8,
        l9, ev, hex2_nonl, not_false_eq_true, and_self]
  have h := unlines_inj (hn a) (hn b) h
  simp only [List.cons.injEq, and_true] at h
  obtain ⟨h1, h2, h3, h4⟩ := h
  have h1 := List.append_cancel_left h1
  have h2 := List.append_cancel_left h2
  have h3 := List.append_cancel_left h3
  have h4 := List.append_cancel_left h4
  rw [basicString_eq, basicString_eq] at h1
  refine ⟨(paren_split ha hb h1).2, ?_, ?_, ?_⟩
  · simp only [devCatString, List.append_assoc] at h2
    obtain ⟨e1, h2⟩ := List.append_inj h2 rfl
    exact Prod.ext (hex2_inj e1) (hex2_inj (List.append_cancel_left h2))
  · exact BitVec.eq_of_toInt_eq (intText_inj (toInt_small _) (toInt_small _) h3)
  · have d1 : lit "I1" ≠ lit "I2" := by decide
    have d2 : lit "I1" ≠ lit "I2Cs" := by decide
    have d3 : lit "I1" ≠ lit "unknown" := by decide
    have d4 : lit "I2" ≠ lit "I2Cs" := by decide
    have d5 : lit "I2" ≠ lit "unknown" := by decide
    have d6 : lit "I2Cs" ≠ lit "unknown" := by decide
    unfold engineVersionString at h4
    split_ifs at h4 with p1 p2 p3 p4 p5 p6 p7 p8 p9 p10 p11 p12 <;> first
      | (left; simp_all; done)
      | exact absurd h4 d1 | exact absurd h4 d2 | exact absurd h4 d3 | exact absurd h4 d4 | exact absurd h4 d5
      | exact absurd h4 d6 | exact absurd h4.symm d1 | exact absurd h4.symm d2 | exact absurd h4.symm d3
      | exact absurd h4.symm d4 | exact absurd h4.symm d5 | exact absurd h4.symm d6
      | (right; constructor <;> bv_omega)

example : deviceDump ⟨0x8f1c05#32, (0x05#8, 0x0b#8), 0x10#64, 2#64⟩
    = ascii "        Device: I2Cs Device (8f.1c.05)\n      Category: 05.0b\n      Firmware: 16\nEngine Version: I2Cs\n" := by decide

/-! ### C138 -/

theorem decByte_digits (m : BitVec 8) : Digits (decByte m) := by
  have h := m.isLt
  have d : ∀ n, n < 10 → 48 ≤ (decDigit n).toNat ∧ (decDigit n).toNat ≤ 57 := by
    intro n hn; rw [Json.decDigit_toNat n hn]; omega
  unfold decByte Digits
  dsimp only
  split_ifs
  · simp [d m.toNat (by omega)]
  · simp [d (m.toNat / 10) (by omega), d (m.toNat % 10) (by omega)]
  · simp [d (m.toNat / 100) (by omega), d (m.toNat / 10 % 10) (by omega), d (m.toNat % 10) (by omega)]

theorem decByte_value (m : BitVec 8) : decimalValue (decByte m) = m.toNat := by
  have h := m.isLt
  have d : ∀ n, n < 10 → (decDigit n).toNat = 48 + n := fun n hn => Json.decDigit_toNat n hn
  unfold decByte decimalValue
  dsimp only
  split_ifs
  · simp [d m.toNat (by omega)]
  · simp [d (m.toNat / 10) (by omega), d (m.toNat % 10) (by omega)]; omega
  · simp [d (m.toNat / 100) (by omega), d (m.toNat / 10 % 10) (by omega), d (m.toNat % 10) (by omega)]; omega

/-- C138: the nine modes have their documented names; any other byte is shown with its number; no two bytes are shown
alike. -/
theorem mode_names :
    (∀ (i : Nat) (name : String), modeNames[i]? = some name → thermostatModeString (BitVec.ofNat 8 i) = ascii name) ∧
    (∀ m : BitVec 8, 9 ≤ m.toNat → ∃ ds, thermostatModeString m = ascii "ThermostatMode(" ++ ds ++ ascii ")"
      ∧ Digits ds ∧ decimalValue ds = m.toNat) ∧
    (∀ m n : BitVec 8, thermostatModeString m = thermostatModeString n → m = n) := by
  refine ⟨?_, ?_, ?_⟩
  · intro i name h
    have hi : i < 9 := by
      by_contra hc
      rw [List.getElem?_eq_none (by simp [modeNames]; omega)] at h
      simp at h
    interval_cases i <;> (simp [modeNames] at h; subst h; decide)
  · intro m hm
    refine ⟨decByte m, ?_, ?_⟩
    · rw [thermostatModeString, if_pos hm]; rfl
    · exact ⟨decByte_digits m, decByte_value m⟩
  · have big : ∀ m : BitVec 8, 9 ≤ m.toNat → (thermostatModeString m).take 2 = lit "Th"
        ∧ (thermostatModeString m)[10]? = some (ch 'M') := by
      decide +kernel
    have small : ∀ m : BitVec 8, m.toNat < 9 → (thermostatModeString m)[10]? ≠ some (ch 'M')
        ∧ modeNames.findIdx (fun s => ascii s == thermostatModeString m) = m.toNat := by
      decide +kernel
    intro m n h
    by_cases hm : 9 ≤ m.toNat <;> by_cases hn : 9 ≤ n.toNat
    · rw [thermostatModeString, if_pos hm, thermostatModeString, if_pos hn] at h
      exact decByte_inj (List.append_cancel_left (List.append_cancel_right h))
    · exact absurd (h ▸ (big m hm).2) (small n (by omega)).1
    · exact absurd (h ▸ (big n hn).2) (small m (by omega)).1
    · have e1 := (small m (by omega)).2
      have e2 := (small n (by omega)).2
      rw [h, e2] at e1
      exact BitVec.eq_of_toNat_eq e1.symm

/-- C138: the two units have their names, any other number is shown, no two are shown alike. -/
theorem unit_names (u v : Int) (hu : u.natAbs < 2 ^ 63 + 1) (hv : v.natAbs < 2 ^ 63 + 1) :
    unitString 0 = [0xc2#8, 0xb0#8] ++ ascii "F" ∧ unitString 1 = [0xc2#8, 0xb0#8] ++ ascii "C" ∧
    (u ≠ 0 → u ≠ 1 → ∃ ds, unitString u = ascii "Unit(" ++ ds ++ ascii ")" ∧ IntegerText ds u) ∧
    (unitString u = unitString v → u = v) := by
  have p : (2 : Nat) ^ 63 + 1 < 10 ^ 20 := by norm_num
  have c0 : unitString 0 = [0xc2#8, 0xb0#8] ++ ascii "F" := by decide
  have c1 : unitString 1 = [0xc2#8, 0xb0#8] ++ ascii "C" := by decide
  have other : ∀ w : Int, w ≠ 0 → w ≠ 1 → unitString w = lit "Unit(" ++ Json.intText w ++ lit ")" := by
    intro w h0 h1
    rw [unitString, if_pos (by omega)]
  have hne : ∀ w : Int, w ≠ 0 → w ≠ 1 → (unitString w).head? = some (ch 'U') := by
    intro w h0 h1
    rw [other w h0 h1]; rfl
  have n0 : (unitString 0).head? ≠ some (ch 'U') := by decide
  have n1 : (unitString 1).head? ≠ some (ch 'U') := by decide
  have n01 : unitString 0 ≠ unitString 1 := by decide
  refine ⟨c0, c1, fun h0 h1 => ⟨Json.intText u, other u h0 h1, intText_spec u (by omega)⟩, fun h => ?_⟩
  have cases : ∀ w : Int, w = 0 ∨ w = 1 ∨ (w ≠ 0 ∧ w ≠ 1) := by omega
  rcases cases u with rfl | rfl | ⟨u0, u1⟩ <;> rcases cases v with rfl | rfl | ⟨v0, v1⟩
  · rfl
  · exact absurd h n01
  · exact absurd (h ▸ hne v v0 v1) n0
  · exact absurd h.symm n01
  · rfl
  · exact absurd (h ▸ hne v v0 v1) n1
  · exact absurd (h ▸ hne u u0 u1) n0
  · exact absurd (h ▸ hne u u0 u1) n1
  · rw [other u u0 u1, other v v0 v1] at h
    exact intText_inj (by omega) (by omega) (List.append_cancel_left (List.append_cancel_right h))

/-- C138: the four fan speeds have their names, any other number is shown, no two are shown alike. -/
theorem fan_names (u v : Int) (hu : u.natAbs < 2 ^ 63 + 1) (hv : v.natAbs < 2 ^ 63 + 1) :
    (∀ (i : Nat) (name : String), fanNames[i]? = some name → fanSpeedString i = ascii name) ∧
    (¬ (0 ≤ u ∧ u < 4) → ∃ ds, fanSpeedString u = ascii "FanSpeed(" ++ ds ++ ascii ")" ∧ IntegerText ds u) ∧
    (fanSpeedString u = fanSpeedString v → u = v) := by
  have p : (2 : Nat) ^ 63 + 1 < 10 ^ 20 := by norm_num
  have other : ∀ w : Int, ¬ (0 ≤ w ∧ w < 4) → fanSpeedString w = lit "FanSpeed(" ++ Json.intText w ++ lit ")" := by
    intro w h0
    rw [fanSpeedString, if_pos (by omega)]
  have hne : ∀ w : Int, ¬ (0 ≤ w ∧ w < 4) → (fanSpeedString w).head? = some (ch 'F') := by
    intro w h0
    rw [other w h0]; rfl
  have small : ∀ i : Fin 4, (fanSpeedString (i : Nat)).head? ≠ some (ch 'F')
      ∧ ∀ j : Fin 4, fanSpeedString (i : Nat) = fanSpeedString (j : Nat) → i = j := by decide
  have toFin : ∀ w : Int, 0 ≤ w ∧ w < 4 → ∃ i : Fin 4, w = ((i : Nat) : Int) := fun w h =>
    ⟨⟨w.toNat, by omega⟩, by simp; omega⟩
  refine ⟨?_, fun h0 => ⟨Json.intText u, other u h0, intText_spec u (by omega)⟩, fun h => ?_⟩
  · intro i name h
    have hi : i < 4 := by
      by_contra hc
      rw [List.getElem?_eq_none (by simp [fanNames]; omega)] at h
      simp at h
    interval_cases i <;> (simp [fanNames] at h; subst h; decide)
  · by_cases hu' : 0 ≤ u ∧ u < 4 <;> by_cases hv' : 0 ≤ v ∧ v < 4
    · obtain ⟨i, rfl⟩ := toFin u hu'
      obtain ⟨j, rfl⟩ := toFin v hv'
      rw [(small i).2 j h]
    · obtain ⟨i, rfl⟩ := toFin u hu'
      exact absurd (h ▸ hne v hv') (small i).1
    · obtain ⟨j, rfl⟩ := toFin v hv'
      exact absurd (h ▸ hne u hu') (small j).1
    · rw [other u hu', other v hv'] at h
      exact intText_inj (by omega) (by omega) (List.append_cancel_left (List.append_cancel_right h))

/-- The conditions of an equipment state, from the lowest bit on. -/
def stateNames : List String := ["cooling", "heating", "programmable output available", "programmable output state"]

/-- C138: the text of an equipment state is the names of the conditions whose bits are set, with commas between them; two states are
shown alike exactly if they agree in the four bits. -/
theorem state_names (a b : EquipmentState) :
    equipmentStateString a = (ascii ",").intercalate ((stateNames.zipIdx.filter fun x => a.toNat.testBit x.2).map fun x => ascii x.1) ∧
    (equipmentStateString a = equipmentStateString b ↔ a.toNat % 16 = b.toNat % 16) := by
  have h0 : ∀ a : BitVec 8, equipmentStateString a =
      (ascii ",").intercalate ((stateNames.zipIdx.filter fun x => a.toNat.testBit x.2).map fun x => ascii x.1) := by decide +kernel
  refine ⟨h0 a, ?_⟩
  have h1 : ∀ a : BitVec 8, equipmentStateString a = equipmentStateString (BitVec.ofNat 8 (a.toNat % 16)) := by
    decide +kernel
  have h2 : ∀ i j : Fin 16, equipmentStateString (BitVec.ofNat 8 i) = equipmentStateString (BitVec.ofNat 8 j) → i = j := by
    decide +kernel
  constructor
  · intro h
    rw [h1 a, h1 b] at h
    exact congrArg Fin.val (h2 ⟨a.toNat % 16, by omega⟩ ⟨b.toNat % 16, by omega⟩ h)
  · intro h
    rw [h1 a, h1 b, h]

example : thermostatModeString 0x05#8 = ascii "Program Auto" ∧ thermostatModeString 0x20#8 = ascii "ThermostatMode(32)"
    ∧ fanSpeedString 2 = ascii "Medium Speed" ∧ equipmentStateString 0x05#8 = ascii "cooling,programmable output available" := by
  decide

/-! ### C139 -/

/-- The numbers of a thermostat information fit a Go int. -/
def IntsFit (ti : ThermostatInfo) : Prop :=
  ∀ i ∈ [ti.humidity, ti.tempOffset, ti.humidityOffset, ti.fanMode, ti.backlightSeconds, ti.hysteresisMinutes,
    ti.energySetbackPoint, ti.humidityLow, ti.humidityHigh, ti.rev, ti.coolSetPoint, ti.heatSetPoint, ti.rfOffset,
    ti.externalTempOffset], -2 ^ 63 ≤ i ∧ i < (2 ^ 63 : Int)

theorem boolText_inj {a b : Bool} (h : boolText a = boolText b) : a = b := by
  revert a b; decide

theorem mode_nonl (m : BitVec 8) : 0x0a#8 ∉ thermostatModeString m := by revert m; decide +kernel

theorem tempFormat_cases (f : ThermostatFlags) : f.tempFormat = 0 ∨ f.tempFormat = 1 := by
  revert f; decide +kernel

theorem natText_nonl (fuel n : Nat) : 0x0a#8 ∉ Json.natText fuel n := by
  induction fuel generalizing n with
  | zero => simp [Json.natText]
  | succ k ih =>
    have hd : ∀ d : Fin 10, 0x0a#8 ≠ decDigit d.val := by decide
    rw [Json.natText]
    split_ifs with h
    · simpa using hd ⟨n, h⟩
    · simp only [List.mem_append, List.mem_singleton, not_or]
      exact ⟨ih _, hd ⟨n % 10, Nat.mod_lt _ (by omega)⟩⟩

theorem fixed1_nonl (q : Rat) : 0x0a#8 ∉ fixed1 q := by
  have hn : ∀ n : Nat, 0x0a#8 ∉ Json.intText (n : Int) := by
    intro n
    unfold Json.intText
    rw [if_neg (by omega)]
    exact natText_nonl _ _
  unfold fixed1
  simp only [List.mem_append, not_or]
  exact ⟨⟨hn _, by decide⟩, hn _⟩

/-- C139: the printed information shows every reading: informations with the same text agree in every number, in the
mode, in the temperature format, in the three conditions and in the text of the temperature. (Not shown: the other
bits of the flags.) -/
theorem thermostat_info_shown (a b : ThermostatInfo)
    (ha : IntsFit a) (hb : IntsFit b) (h : thermostatInfoString a = thermostatInfoString b) :
    { a with temp := 0, flags := 0 } = { b with temp := 0, flags := 0 }
      ∧ a.flags.tempFormat = b.flags.tempFormat ∧ fixed1 a.temp = fixed1 b.temp := by
  have ht := fixed1_nonl
  have small : ∀ {i : Int}, -2 ^ 63 ≤ i ∧ i < (2 ^ 63 : Int) → i.natAbs < 10 ^ 20 := by
    intro i hi; norm_num at hi ⊢; omega
  have nlU : ∀ f : ThermostatFlags, 0x0a#8 ∉ unitString f.tempFormat := by
    intro f; rcases tempFormat_cases f with h | h <;> rw [h] <;> decide
  have nlB : ∀ b, 0x0a#8 ∉ boolText b := by decide
  have hn : ∀ ti : ThermostatInfo, IntsFit ti → ∀ l ∈ thermostatInfoLines ti, 0x0a#8 ∉ l := by
    intro ti hti l hl
    have hi : ∀ i, i ∈ [ti.humidity, ti.tempOffset, ti.humidityOffset, ti.fanMode, ti.backlightSeconds,
      ti.hysteresisMinutes, ti.energySetbackPoint, ti.humidityLow, ti.humidityHigh, ti.rev, ti.coolSetPoint,
      ti.heatSetPoint, ti.rfOffset, ti.externalTempOffset] → 0x0a#8 ∉ Json.intText i :=
      fun i hi => intText_nonl i (small (hti i hi))
    simp only [thermostatInfoLines, List.mem_cons, List.not_mem_nil, or_false] at hl
    rcases hl with rfl | rfl | rfl | rfl | rfl | rfl | rfl | rfl | rfl | rfl | rfl | rfl | rfl | rfl | rfl | rfl | rfl |
      rfl | rfl | rfl | rfl <;> simp only [List.mem_append, not_or] <;> and_intros <;>
      first
      | exact ht _
      | exact nlU _
      | exact nlB _
      | exact mode_nonl _
      | (apply hi; simp)
      | decide
  have h := unlines_inj (hn a ha) (hn b hb) h
  simp only [thermostatInfoLines, List.cons.injEq, and_true] at h
  obtain ⟨h1, h2, h3, h4, h5, h6, h7, h8, h9, h10, h11, h12, h13, h14, h15, h16, -, h18, h19, h20, h21⟩ := h
  have num : ∀ {p : Bytes} {i j : Int}, i ∈ _ → j ∈ _ → p ++ Json.intText i = p ++ Json.intText j → i = j :=
    fun hi hj e => intText_inj (small (ha _ hi)) (small (hb _ hj)) (List.append_cancel_left e)
  have eu : a.flags.tempFormat = b.flags.tempFormat := by
    have e := List.append_cancel_left h10
    have n01 : unitString 0 ≠ unitString 1 := by decide
    rcases tempFormat_cases a.flags with x | x <;> rcases tempFormat_cases b.flags with y | y <;> rw [x, y] at e ⊢
    · exact absurd e n01
    · exact absurd e.symm n01
  refine ⟨?_, eu, ?_⟩
  · have e2 := num (by simp) (by simp) (List.append_cancel_right h2)
    have e3 := num (by simp) (by simp) h3
    have e4 := num (by simp) (by simp) h4
    have e5 := mode_names.2.2 _ _ (List.append_cancel_left h5)
    have e6 := num (by simp) (by simp) h6
    have e7 := num (by simp) (by simp) h7
    have e8 := num (by simp) (by simp) h8
    have e9 := num (by simp) (by simp) h9
    have e11 := num (by simp) (by simp) h11
    have e12 := num (by simp) (by simp) h12
    have e13 := num (by simp) (by simp) h13
    have e14 := num (by simp) (by simp) h14
    have e15 := num (by simp) (by simp) h15
    have e16 := num (by simp) (by simp) h16
    have e18 := num (by simp) (by simp) h18
    have e19 := boolText_inj (List.append_cancel_left h19)
    have e20 := boolText_inj (List.append_cancel_left h20)
    have e21 := boolText_inj (List.append_cancel_left h21)
    simp only [ThermostatInfo.mk.injEq]
    exact ⟨trivial, e2, e3, e4, e5, e6, e7, e8, trivial, e11, e12, e13, e14, e15, e16, e9, e18, e19, e20, e21⟩
  · rw [eu] at h1
    have h1 := List.append_cancel_right h1
    exact List.append_cancel_left (List.append_cancel_right h1)

/-- Informations decoded from a thermostat's answers fit: every number is a byte. -/
theorem ints_fit_decoded (data1 data2 : Bytes) :
    IntsFit ((ThermostatInfo.zero.unmarshalBinary data1).1.unmarshalBinary data2).1 := by
  have key : ∀ (ti : ThermostatInfo) (data : Bytes), IntsFit ti → IntsFit (ti.unmarshalBinary data).1 := by
    intro ti data h
    have hb : ∀ i, -2 ^ 63 ≤ (((data.getD i (0 : Byte)).toNat : Nat) : Int) ∧ (((data.getD i (0 : Byte)).toNat : Nat) : Int) < 2 ^ 63 := by
      intro i
      have := (data.getD i (0 : Byte)).isLt
      norm_num; omega
    unfold ThermostatInfo.unmarshalBinary IntsFit at *
    simp only [List.forall_mem_cons, List.not_mem_nil, false_implies, implies_true, and_true] at h ⊢
    by_cases h1 : data.length < 14
    · rw [if_pos h1]; exact h
    · rw [if_neg h1]
      split_ifs <;> simp only [hb, h, and_self]
  exact key _ _ (key _ _ (by unfold IntsFit ThermostatInfo.zero; norm_num))

example : (thermostatInfoLines (ThermostatInfo.zero.unmarshalBinary
    [0, 0, 0, 0xdc, 40, 0, 0, 1, 0, 30, 2, 0, 0, 0]).1).take 2
    = [ascii "                Temp: 71.6 " ++ [0xc2#8, 0xb0#8] ++ ascii "F", ascii "            Humidity: 40 %"] := by
  decide +kernel

/-! ### C175 -/

theorem links_sorted (sort : List LinkRecord → List LinkRecord) (hs : Sorts linkLess sort) (links : List LinkRecord)
    (hv : ∀ l ∈ links, ThreeByteAddress l) : (sort links).Perm links ∧ (sort links).Pairwise InOrder := by
  have hp := hs links
    (fun a ha => (link_sort_strict a a a (hv a ha) (hv a ha) (hv a ha)).1)
    (fun a ha b hb c hc => (link_sort_strict a b c (hv a ha) (hv b hb) (hv c hc)).2.1)
    (by
      intro a ha b hb c hc h1 h2 h3 h4
      have e1 := (link_sort_strict a b c (hv a ha) (hv b hb) (hv c hc)).2.2.mp ⟨h1, h2⟩
      have e2 := (link_sort_strict b c a (hv b hb) (hv c hc) (hv a ha)).2.2.mp ⟨h3, h4⟩
      exact (link_sort_strict a c b (hv a ha) (hv c hc) (hv b hb)).2.2.mpr ⟨e1.1.trans e2.1, e1.2.trans e2.2⟩)
  refine ⟨hp.1, hp.2.imp_of_mem ?_⟩
  intro a b ha hb h
  have hva := hv a (hp.1.subset ha)
  have hvb := hv b (hp.1.subset hb)
  rw [Bool.eq_false_iff, ne_eq, link_sort_order b a hvb hva] at h
  unfold InOrder
  omega

theorem pairwise_mem_cases {α : Type} {R : α → α → Prop} {l : List α} (h : l.Pairwise R) {a b : α} (ha : a ∈ l) (hb : b ∈ l) :
    a = b ∨ R a b ∨ R b a := by
  induction h with
  | nil => cases ha
  | cons h1 _ ih =>
    rcases List.mem_cons.mp ha with ea | ha' <;> rcases List.mem_cons.mp hb with eb | hb'
    · exact Or.inl (ea.trans eb.symm)
    · exact Or.inr (Or.inl (ea ▸ h1 _ hb'))
    · exact Or.inr (Or.inr (eb ▸ h1 _ ha'))
    · exact ih ha' hb'

/-- C175, what holds: the list printed has the same links afterwards, in the order in which they are shown. What is missing is that the
order is kept. It is if it was that order and no two links have the same address and group. -/
theorem print_keeps_partial (sort : List LinkRecord → List LinkRecord) (hs : Sorts linkLess sort) (links : List LinkRecord)
    (hv : ∀ l ∈ links, ThreeByteAddress l) :
    (printLinksArg sort links).Perm links ∧ (printLinksArg sort links).Pairwise InOrder ∧
    (links.Pairwise (fun a b => InOrder a b ∧ ¬ InOrder b a) → printLinksArg sort links = links) := by
  obtain ⟨h1, h2⟩ := links_sorted sort hs links hv
  refine ⟨h1, h2, fun hl => ?_⟩
  unfold printLinksArg
  refine List.Perm.eq_of_pairwise ?_ h2 (hl.imp fun h => h.1) h1
  intro a b ha hb hab hba
  by_contra hne
  have hb' := h1.subset ha
  rcases pairwise_mem_cases hl hb' hb with rfl | h | h
  · exact hne rfl
  · exact h.2 hba
  · exact h.2 hab

/-- Expected and false: printing a list of links leaves it as it was. Whatever sorting function is used. -/
theorem print_keeps_refuted (sort : List LinkRecord → List LinkRecord) (hs : Sorts linkLess sort) :
    ¬ ∀ links : List LinkRecord, printLinksArg sort links = links := by
  intro h
  have h2 := (links_sorted sort hs [⟨0xe2#8, 1#8, 0x020000#32, 0, 0, 0⟩, ⟨0xe2#8, 1#8, 0x010000#32, 0, 0, 0⟩] (by
    intro l hl
    simp only [List.mem_cons, List.not_mem_nil, or_false] at hl
    rcases hl with rfl | rfl <;> (unfold ThreeByteAddress; decide))).2
  have := h [⟨0xe2#8, 1#8, 0x020000#32, 0, 0, 0⟩, ⟨0xe2#8, 1#8, 0x010000#32, 0, 0, 0⟩]
  unfold printLinksArg at this
  rw [this] at h2
  simp [InOrder] at h2

example : [⟨0xe2#8, 1#8, 0x010000#32, 0, 0, 0⟩, ⟨0xe2#8, 2#8, 0x010000#32, 0, 0, 0⟩, ⟨0xe2#8, 1#8, 0x020000#32, 0, 0, 0⟩].Pairwise
    (fun a b : LinkRecord => InOrder a b ∧ ¬ InOrder b a) := by simp [InOrder]

end Insteon
