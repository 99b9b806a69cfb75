import Verif.Spec.Generator
import Verif.Props.LinkLine
import Verif.Props.CommandNames
import Mathlib.Tactic.SplitIfs

/-
Property C214: the files made from the table of commands.
-/

namespace Insteon
open Spec

/-! ### Lines and escapes -/

theorem hasLine_unlines (ls : List Bytes) (h : ∀ l ∈ ls, 0x0a#8 ∉ l) (l : Bytes) : HasLine (unlines ls) l ↔ l ∈ ls ∨ l = [] := by
  have hs := splitLines_unlines ls h
  constructor
  · rintro ⟨ks, h1, h2⟩
    rw [← splitLines_of h1, hs] at h2
    simpa using h2
  · intro hl
    obtain ⟨ks, hk⟩ := linesOf_exists (unlines ls)
    refine ⟨ks, hk, ?_⟩
    rw [← splitLines_of hk, hs]
    simpa using hl

theorem htmlByte_newline (b : Byte) : 0x0a#8 ∈ htmlByte b → b = 0x0a#8 := by
  revert b; decide +kernel

theorem htmlEscape_newline {s : Bytes} (h : 0x0a#8 ∉ s) : 0x0a#8 ∉ htmlEscape s := by
  intro hm
  obtain ⟨b, hb, hx⟩ := List.mem_flatMap.mp hm
  exact h (htmlByte_newline b hx ▸ hb)

theorem htmlByte_plain (b : Byte) (h : b ≠ 0x22#8 ∧ b ≠ 0x26#8 ∧ b ≠ 0x27#8 ∧ b ≠ 0x2b#8 ∧ b ≠ 0x3c#8 ∧ b ≠ 0x3e#8 ∧ b ≠ 0x00#8) : htmlByte b = [b] := by
  revert b; decide +kernel

theorem htmlEscape_plain {s : Bytes} (h : ∀ b ∈ s, htmlByte b = [b]) : htmlEscape s = s := by
  induction s with
  | nil => rfl
  | cons b s ih =>
    rw [htmlEscape, List.flatMap_cons, h b (by simp)]
    exact congrArg (b :: ·) (ih fun x hx => h x (by simp [hx]))

theorem htmlEscape_clean {s : Bytes} (hc : Clean s) (hn : NoHtml s) : htmlEscape s = s :=
  htmlEscape_plain fun b hb => htmlByte_plain b
    ⟨fun e => hc.2.1 (e ▸ hb), fun e => hn.1 (e ▸ hb), fun e => hn.2.1 (e ▸ hb), fun e => hn.2.2.1 (e ▸ hb), fun e => hn.2.2.2.1 (e ▸ hb),
      fun e => hn.2.2.2.2.1 (e ▸ hb), fun e => hn.2.2.2.2.2 (e ▸ hb)⟩

theorem identByte_plain (b : Byte) (h : identByte b = true) : htmlByte b = [b] := by
  revert b; decide +kernel

theorem htmlEscape_ident {s : Bytes} (h : Ident s) : htmlEscape s = s := htmlEscape_plain fun b hb => identByte_plain b (h.2 b hb)

theorem ident_newline {s : Bytes} (h : Ident s) : 0x0a#8 ∉ s := fun hm => absurd (h.2 _ hm) (by decide)

theorem hex2_hexPair (b : Byte) : hex2 b = hexPair b.toNat := by
  revert b; decide +kernel

theorem hexPair_same : ∀ a < 256, ∀ b < 256, hexPair a = hexPair b → a = b := by
  decide +kernel

theorem hexPair_newline (n : Nat) (h : n < 256) : 0x0a#8 ∉ hexPair n ∧ 0x7c#8 ∉ hexPair n := by
  revert n; decide +kernel

theorem ident_cut {n m a b : Bytes} (hn : Ident n) (hm : Ident m) (x y : Byte) (hx : identByte x = false) (hy : identByte y = false)
    (h : n ++ x :: a = m ++ y :: b) : n = m ∧ x :: a = y :: b := by
  have e : ∀ (n a : Bytes) (x : Byte), Ident n → identByte x = false → (n ++ x :: a).takeWhile identByte = n ∧ (n ++ x :: a).dropWhile identByte = x :: a := by
    intro n a x hn hx
    have hall := hn.2
    clear hn
    induction n with
    | nil => simp [hx]
    | cons c n ih =>
      have := ih fun b hb => hall b (by simp [hb])
      simp [hall c (by simp), this]
  have h1 := e n a x hn hx
  have h2 := e m b y hm hy
  rw [h] at h1
  exact ⟨h1.1.symm.trans h2.1, h1.2.symm.trans h2.2⟩

/-! ### The lines of the Go file -/

namespace Generator

/-- The declaration of a constant. -/
def declLine (b0 : Byte) (c : GenCommand) : Bytes :=
  htmlEscape c.name ++ lit " = Command(0x" ++ hex2 b0 ++ hex2 c.byte1 ++ hex2 c.byte2 ++ lit ") // " ++ htmlEscape c.string

def remarkLine (c : GenCommand) : Bytes := lit "// " ++ htmlEscape c.name ++ lit " " ++ htmlEscape c.comment

def mapLine (c : GenCommand) : Bytes := lit "  " ++ htmlEscape c.name ++ lit ": \"" ++ htmlEscape c.string ++ lit "\","

def groupLines (g : GenGroup) : List Bytes :=
  [[], lit "// " ++ htmlEscape g.name] ++ match g.commands with
    | [] => [lit "const()"]
    | c :: cs => [lit "const(", remarkLine c, declLine g.byte0 c] ++ cs.flatMap (fun c => [[], remarkLine c, declLine g.byte0 c]) ++ [lit ")"]

theorem constants_lines (g : GenGroup) : constants g = unlines (groupLines g) := by
  have tail : ∀ cs : List GenCommand, cs.flatMap (constant g.byte0) = unlines (cs.flatMap fun c => [[], remarkLine c, declLine g.byte0 c]) := by
    intro cs
    induction cs with
    | nil => rfl
    | cons c cs ih =>
      rw [List.flatMap_cons, List.flatMap_cons, unlines_append, ih]
      congr 1
      simp [constant, remarkLine, declLine, unlines, lit, ch]
  unfold constants groupLines
  rcases hc : g.commands with _ | ⟨c, cs⟩
  · simp [unlines, lit, ch]
  · dsimp only
    rw [List.flatMap_cons, tail cs, unlines_append, unlines_append, unlines_append]
    simp [constant, remarkLine, declLine, unlines, lit, ch]

def goLines (year : Bytes) (groups : List GenGroup) : List Bytes :=
  license year ++ [[], [], lit "package commands", []] ++ groups.flatMap groupLines ++ [[], [], lit "var cmdStrings = map[Command]string { "] ++
    groups.flatMap (fun g => g.commands.map mapLine) ++ [lit "}"]

theorem flatMap_constants (groups : List GenGroup) : groups.flatMap constants = unlines (groups.flatMap groupLines) := by
  induction groups with
  | nil => rfl
  | cons g gs ih => rw [List.flatMap_cons, List.flatMap_cons, unlines_append, ih, constants_lines]

theorem entries_lines (groups : List GenGroup) (first : Bytes) :
    first ++ groups.flatMap (fun g => g.commands.flatMap entry) ++ lit "\n}\n" = unlines ([first] ++ groups.flatMap (fun g => g.commands.map mapLine) ++ [lit "}"]) := by
  have hm : groups.flatMap (fun g => g.commands.flatMap entry) = (groups.flatMap (·.commands)).flatMap entry := by rw [List.flatMap_assoc]
  have hn : groups.flatMap (fun g => g.commands.map mapLine) = (groups.flatMap (·.commands)).map mapLine := by rw [List.map_flatMap]
  rw [hm, hn]
  generalize groups.flatMap (·.commands) = cs
  induction cs generalizing first with
  | nil => simp [unlines, lit, ch]
  | cons c cs ih =>
    have := ih (mapLine c)
    rw [List.flatMap_cons, List.map_cons]
    rw [show [first] ++ mapLine c :: cs.map mapLine ++ [lit "}"] = [first] ++ ([mapLine c] ++ cs.map mapLine ++ [lit "}"]) by simp, unlines_append, ← this]
    simp [entry, mapLine, unlines, lit, ch]

theorem commandsGo_lines (year : Bytes) (groups : List GenGroup) : commandsGo year groups = unlines (goLines year groups) := by
  have e := entries_lines groups (lit "var cmdStrings = map[Command]string { ")
  unfold commandsGo goLines
  rw [flatMap_constants]
  rw [show license year ++ [[], [], lit "package commands", []] ++ groups.flatMap groupLines ++ [[], [], lit "var cmdStrings = map[Command]string { "] ++
      groups.flatMap (fun g => g.commands.map mapLine) ++ [lit "}"] =
    license year ++ ([[], [], lit "package commands", []] ++ (groups.flatMap groupLines ++ ([[], []] ++ ([lit "var cmdStrings = map[Command]string { "] ++
      groups.flatMap (fun g => g.commands.map mapLine) ++ [lit "}"])))) by simp]
  rw [unlines_append, unlines_append, unlines_append, unlines_append, ← e]
  simp [unlines, lit, ch]

/-- The lines that declare nothing. -/
def Silent (l : Bytes) : Prop := (∀ name v, ¬ DeclaresConst l name v) ∧ ∀ name text, ¬ GivesName l name text

theorem silent_of (l : Bytes) (h : ∀ (b : Byte) (s : Bytes), l = b :: s → identByte b = false ∧ b ≠ 0x20#8) : Silent l := by
  refine ⟨?_, ?_⟩
  · rintro name v ⟨⟨hne, hid⟩, b0, b1, b2, rest, -, -, -, -, e⟩
    obtain ⟨b, s, rfl⟩ := List.exists_cons_of_ne_nil hne
    have := (h b _ (by rw [e]; rfl)).1
    rw [hid b (by simp)] at this
    simp at this
  · rintro name text ⟨-, -, -, e⟩
    exact (h 0x20#8 _ (by rw [e]; rfl)).2 rfl

theorem silent_word (w rest : Bytes) (x : Byte) (hw : Ident w) (hx : identByte x = false) (hr : x :: rest.take 12 ≠ ascii " = Command(0x") : Silent (w ++ x :: rest) := by
  refine ⟨?_, ?_⟩
  · rintro name v ⟨hid, b0, b1, b2, r, -, -, -, -, e⟩
    have e' : w ++ x :: rest = name ++ 0x20#8 :: (ascii "= Command(0x" ++ hexPair b0 ++ hexPair b1 ++ hexPair b2 ++ ascii ")" ++ r) := by
      rw [e]; simp [ascii]
    obtain ⟨-, h2⟩ := ident_cut hw hid x 0x20#8 hx (by decide) e'
    obtain ⟨rfl, h3⟩ := List.cons.inj h2
    apply hr
    rw [h3]
    simp [ascii]
  · rintro name text ⟨-, -, -, e⟩
    obtain ⟨b, s, rfl⟩ := List.exists_cons_of_ne_nil hw.1
    have : b = 0x20#8 := (List.cons.inj (show b :: (s ++ x :: rest) = 0x20#8 :: _ from e)).1
    have h1 := hw.2 b (by simp)
    rw [this] at h1
    exact absurd h1 (by decide)

theorem silent_remark (s : Bytes) : Silent (lit "// " ++ s) := silent_of _ fun b r h => by
  obtain ⟨rfl, -⟩ := List.cons.inj (show 0x2f#8 :: _ = b :: r from h)
  decide

theorem silent_license (year l : Bytes) (h : l ∈ license year) : Silent l := by
  have : ∃ s, l = lit "// " ++ s := by
    simp only [license, List.mem_cons, List.not_mem_nil, or_false] at h
    rcases h with rfl | rfl | rfl | rfl | rfl | rfl | rfl | rfl | rfl | rfl | rfl | rfl | rfl
    all_goals exact ⟨_, rfl⟩
  obtain ⟨s, rfl⟩ := this
  exact silent_remark s

/-- The lines of the file, apart from those that say something. -/
theorem goLines_cases (year : Bytes) (groups : List GenGroup) (l : Bytes) (h : l ∈ goLines year groups) :
    Silent l ∨ (∃ g ∈ groups, ∃ c ∈ g.commands, l = declLine g.byte0 c) ∨ ∃ g ∈ groups, ∃ c ∈ g.commands, l = mapLine c := by
  have hnil : Silent [] := silent_of _ fun b s h => by simp at h
  simp only [goLines, List.mem_append, List.mem_cons, List.not_mem_nil, or_false, List.mem_flatMap, List.mem_map] at h
  rcases h with ((((h | rfl | rfl | rfl | rfl) | ⟨g, hg, h⟩) | rfl | rfl | rfl) | ⟨g, hg, c, hc, rfl⟩) | rfl
  · exact .inl (silent_license year l h)
  · exact .inl hnil
  · exact .inl hnil
  · exact .inl (silent_word (lit "package") (lit "commands") 0x20#8 (by decide) (by decide) (by decide))
  · exact .inl hnil
  · simp only [groupLines, List.mem_append, List.mem_cons, List.not_mem_nil, or_false] at h
    rcases h with (rfl | rfl) | h
    · exact .inl hnil
    · exact .inl (silent_remark _)
    · rcases hc : g.commands with _ | ⟨c, cs⟩ <;> rw [hc] at h
      · simp only [List.mem_cons, List.not_mem_nil, or_false] at h
        subst h
        exact .inl (silent_word (lit "const") (lit ")") 0x28#8 (by decide) (by decide) (by decide))
      · simp only [List.mem_append, List.mem_cons, List.not_mem_nil, or_false, List.mem_flatMap] at h
        rcases h with ((rfl | rfl | rfl) | ⟨d, hd, rfl | rfl | rfl⟩) | rfl
        · exact .inl (silent_word (lit "const") [] 0x28#8 (by decide) (by decide) (by decide))
        · exact .inl (by unfold remarkLine; rw [List.append_assoc, List.append_assoc]; exact silent_remark _)
        · exact .inr (.inl ⟨g, hg, c, by rw [hc]; simp, rfl⟩)
        · exact .inl hnil
        · exact .inl (by unfold remarkLine; rw [List.append_assoc, List.append_assoc]; exact silent_remark _)
        · exact .inr (.inl ⟨g, hg, d, by rw [hc]; simp [hd], rfl⟩)
        · exact .inl (silent_of _ fun b s h => by
            obtain ⟨rfl, -⟩ := List.cons.inj (show 0x29#8 :: _ = b :: s from h)
            decide)
  · exact .inl hnil
  · exact .inl hnil
  · exact .inl (silent_word (lit "var") (lit "cmdStrings = map[Command]string { ") 0x20#8 (by decide) (by decide) (by decide))
  · exact .inr (.inr ⟨g, hg, c, hc, rfl⟩)
  · exact .inl (silent_of _ fun b s h => by
      obtain ⟨rfl, -⟩ := List.cons.inj (show 0x7d#8 :: _ = b :: s from h)
      decide)

theorem declLine_mem (year : Bytes) (groups : List GenGroup) (g : GenGroup) (hg : g ∈ groups) (c : GenCommand) (hc : c ∈ g.commands) :
    declLine g.byte0 c ∈ goLines year groups := by
  have : declLine g.byte0 c ∈ groupLines g := by
    unfold groupLines
    rcases hcs : g.commands with _ | ⟨d, ds⟩ <;> rw [hcs] at hc
    · simp at hc
    · rcases List.mem_cons.mp hc with rfl | hc
      · simp
      · simp only [List.mem_append, List.mem_flatMap]
        exact .inr (.inl (.inr ⟨c, hc, by simp⟩))
  simp only [goLines, List.mem_append, List.mem_flatMap]
  exact .inl (.inl (.inl (.inr ⟨g, hg, this⟩)))

theorem mapLine_mem (year : Bytes) (groups : List GenGroup) (g : GenGroup) (hg : g ∈ groups) (c : GenCommand) (hc : c ∈ g.commands) :
    mapLine c ∈ goLines year groups := by
  simp only [goLines, List.mem_append, List.mem_flatMap]
  exact .inl (.inr ⟨g, hg, List.mem_map.mpr ⟨c, hc, rfl⟩⟩)

theorem goLines_newline (year : Bytes) (hy : 0x0a#8 ∉ year) (groups : List GenGroup) (ht : CommandTable groups) : ∀ l ∈ goLines year groups, 0x0a#8 ∉ l := by
  have hx : ∀ (b : Byte), 0x0a#8 ∉ hex2 b := fun b => by rw [hex2_hexPair]; exact (hexPair_newline _ b.isLt).1
  have hremark : ∀ g ∈ groups, ∀ c ∈ g.commands, 0x0a#8 ∉ remarkLine c := by
    intro g hg c hc
    obtain ⟨h1, h2, h3, h4⟩ := (ht g hg).2 c hc
    simp only [remarkLine, List.mem_append, not_or]
    exact ⟨⟨⟨by decide, htmlEscape_newline (ident_newline h1)⟩, by decide⟩, htmlEscape_newline h2.1⟩
  have hdecl : ∀ g ∈ groups, ∀ c ∈ g.commands, 0x0a#8 ∉ declLine g.byte0 c := by
    intro g hg c hc
    obtain ⟨h1, h2, h3, h4⟩ := (ht g hg).2 c hc
    simp only [declLine, List.mem_append, not_or]
    exact ⟨⟨⟨⟨⟨⟨htmlEscape_newline (ident_newline h1), by decide⟩, hx _⟩, hx _⟩, hx _⟩, by decide⟩, htmlEscape_newline h3.1⟩
  intro l h
  simp only [goLines, List.mem_append, List.mem_cons, List.not_mem_nil, or_false, List.mem_flatMap, List.mem_map] at h
  rcases h with ((((h | rfl | rfl | rfl | rfl) | ⟨g, hg, h⟩) | rfl | rfl | rfl) | ⟨g, hg, c, hc, rfl⟩) | rfl
  · simp only [license, List.mem_cons, List.not_mem_nil, or_false] at h
    rcases h with rfl | rfl | rfl | rfl | rfl | rfl | rfl | rfl | rfl | rfl | rfl | rfl | rfl
    · simp only [List.mem_append, not_or]
      exact ⟨⟨by decide, hy⟩, by decide⟩
    all_goals decide
  · simp
  · simp
  · decide
  · simp
  · simp only [groupLines, List.mem_append, List.mem_cons, List.not_mem_nil, or_false] at h
    rcases h with (rfl | rfl) | h
    · simp
    · simp only [List.mem_append, not_or]
      exact ⟨by decide, htmlEscape_newline (ht g hg).1.1⟩
    · rcases hc : g.commands with _ | ⟨c, cs⟩ <;> rw [hc] at h
      · simp only [List.mem_cons, List.not_mem_nil, or_false] at h
        subst h
        decide
      · simp only [List.mem_append, List.mem_cons, List.not_mem_nil, or_false, List.mem_flatMap] at h
        rcases h with ((rfl | rfl | rfl) | ⟨d, hd, rfl | rfl | rfl⟩) | rfl
        · decide
        · exact hremark g hg c (by rw [hc]; simp)
        · exact hdecl g hg c (by rw [hc]; simp)
        · simp
        · exact hremark g hg d (by rw [hc]; simp [hd])
        · exact hdecl g hg d (by rw [hc]; simp [hd])
        · decide
  · simp
  · simp
  · decide
  · obtain ⟨h1, h2, h3, h4⟩ := (ht g hg).2 c hc
    simp only [mapLine, List.mem_append, not_or]
    exact ⟨⟨⟨⟨by decide, htmlEscape_newline (ident_newline h1)⟩, by decide⟩, htmlEscape_newline h3.1⟩, by decide⟩
  · decide

theorem decl_says (b0 : Byte) (c : GenCommand) (hi : Ident c.name) (name : Bytes) (v : Nat) :
    DeclaresConst (declLine b0 c) name v ↔ c.name = name ∧ v = b0.toNat * 65536 + c.byte1.toNat * 256 + c.byte2.toNat := by
  have e : declLine b0 c = c.name ++ ascii " = Command(0x" ++ hexPair b0.toNat ++ hexPair c.byte1.toNat ++ hexPair c.byte2.toNat ++ ascii ")" ++
      (ascii " // " ++ htmlEscape c.string) := by
    rw [declLine, htmlEscape_ident hi, hex2_hexPair, hex2_hexPair, hex2_hexPair]
    simp [lit, ch, ascii]
  constructor
  · rintro ⟨hid, x, y, z, r, hx, hy, hz, rfl, h⟩
    rw [e] at h
    obtain ⟨h1, h2⟩ := ident_cut hi hid 0x20#8 0x20#8 (by decide) (by decide)
      (show c.name ++ 0x20#8 :: (ascii "= Command(0x" ++ hexPair b0.toNat ++ hexPair c.byte1.toNat ++ hexPair c.byte2.toNat ++ ascii ")" ++ (ascii " // " ++ htmlEscape c.string)) =
        name ++ 0x20#8 :: (ascii "= Command(0x" ++ hexPair x ++ hexPair y ++ hexPair z ++ ascii ")" ++ r) by
          simp only [List.append_assoc] at h ⊢; exact h)
    have h3 := (List.cons.inj h2).2
    simp only [List.append_assoc, List.append_cancel_left_eq] at h3
    obtain ⟨a1, h3⟩ := List.append_inj h3 (by rfl)
    obtain ⟨a2, h3⟩ := List.append_inj h3 (by rfl)
    obtain ⟨a3, h3⟩ := List.append_inj h3 (by rfl)
    rw [hexPair_same _ b0.isLt _ hx a1, hexPair_same _ c.byte1.isLt _ hy a2, hexPair_same _ c.byte2.isLt _ hz a3]
    exact ⟨h1, rfl⟩
  · rintro ⟨rfl, rfl⟩
    exact ⟨hi, _, _, _, _, b0.isLt, c.byte1.isLt, c.byte2.isLt, rfl, e⟩

theorem decl_no_name (b0 : Byte) (c : GenCommand) (hi : Ident c.name) (name text : Bytes) : ¬ GivesName (declLine b0 c) name text := by
  rintro ⟨-, -, -, e⟩
  rw [declLine, htmlEscape_ident hi] at e
  obtain ⟨b, s, hb⟩ := List.exists_cons_of_ne_nil hi.1
  rw [hb] at e
  have : b = 0x20#8 := (List.cons.inj (show b :: _ = 0x20#8 :: _ from e)).1
  have h1 := hi.2 b (by rw [hb]; simp)
  rw [this] at h1
  exact absurd h1 (by decide)

theorem map_no_decl (c : GenCommand) (name : Bytes) (v : Nat) : ¬ DeclaresConst (mapLine c) name v := by
  rintro ⟨⟨hne, hid⟩, b0, b1, b2, rest, -, -, -, -, e⟩
  obtain ⟨b, s, rfl⟩ := List.exists_cons_of_ne_nil hne
  have : 0x20#8 = b := (List.cons.inj (show 0x20#8 :: _ = b :: _ from e)).1
  have h1 := hid b (by simp)
  rw [← this] at h1
  exact absurd h1 (by decide)

theorem map_says (c : GenCommand) (hi : Ident c.name) (name text : Bytes) :
    GivesName (mapLine c) name text ↔ c.name = name ∧ text = htmlEscape c.string ∧ 0x22#8 ∉ text ∧ 0x5c#8 ∉ text := by
  have e : mapLine c = ascii "  " ++ (c.name ++ 0x3a#8 :: (ascii " \"" ++ htmlEscape c.string ++ ascii "\",")) := by
    rw [mapLine, htmlEscape_ident hi]
    simp [lit, ch, ascii]
  constructor
  · rintro ⟨hid, q1, q2, h⟩
    rw [e, show ascii "  " ++ name ++ ascii ": \"" ++ text ++ ascii "\"," = ascii "  " ++ (name ++ 0x3a#8 :: (ascii " \"" ++ text ++ ascii "\",")) by simp [ascii]] at h
    have h := List.append_cancel_left h
    obtain ⟨h1, h2⟩ := ident_cut hi hid _ _ (by decide) (by decide) h
    have h3 := (List.cons.inj h2).2
    have h4 := List.append_cancel_left (List.append_cancel_right h3)
    exact ⟨h1, h4.symm, q1, q2⟩
  · rintro ⟨rfl, rfl, q1, q2⟩
    exact ⟨hi, q1, q2, by rw [e]; simp [ascii]⟩

end Generator

/-! ### C214 -/

/-- C214: whatever the table says, the Go file declares exactly the constants of the table, with the three bytes given there. -/
theorem generated_constants (year : Bytes) (hy : 0x0a#8 ∉ year) (groups : List GenGroup) (ht : CommandTable groups) (name : Bytes) (v : Nat) :
    (∃ l, HasLine (Generator.commandsGo year groups) l ∧ DeclaresConst l name v) ↔
      ∃ g ∈ groups, ∃ c ∈ g.commands, c.name = name ∧ v = g.byte0.toNat * 65536 + c.byte1.toNat * 256 + c.byte2.toNat := by
  rw [Generator.commandsGo_lines]
  constructor
  · rintro ⟨l, hl, hd⟩
    rcases (hasLine_unlines _ (Generator.goLines_newline year hy groups ht) l).mp hl with h | rfl
    · rcases Generator.goLines_cases year groups l h with h | ⟨g, hg, c, hc, rfl⟩ | ⟨g, hg, c, hc, rfl⟩
      · exact absurd hd (h.1 name v)
      · exact ⟨g, hg, c, hc, (Generator.decl_says _ c ((ht g hg).2 c hc).1 name v).mp hd⟩
      · exact absurd hd (Generator.map_no_decl c name v)
    · exact absurd hd ((Generator.silent_of [] fun b s h => by simp at h).1 name v)
  · rintro ⟨g, hg, c, hc, h⟩
    exact ⟨_, (hasLine_unlines _ (Generator.goLines_newline year hy groups ht) _).mpr (.inl (Generator.declLine_mem year groups g hg c hc)),
      (Generator.decl_says _ c ((ht g hg).2 c hc).1 name v).mpr h⟩

/-- C214, what is proved: where no text has one of the characters of HTML, the Go file gives exactly the constants of the table their names. -/
theorem generated_names_partial (year : Bytes) (hy : 0x0a#8 ∉ year) (groups : List GenGroup) (ht : CommandTable groups)
    (hh : ∀ g ∈ groups, ∀ c ∈ g.commands, NoHtml c.string) (name text : Bytes) :
    (∃ l, HasLine (Generator.commandsGo year groups) l ∧ GivesName l name text) ↔ ∃ g ∈ groups, ∃ c ∈ g.commands, c.name = name ∧ c.string = text := by
  rw [Generator.commandsGo_lines]
  constructor
  · rintro ⟨l, hl, hd⟩
    rcases (hasLine_unlines _ (Generator.goLines_newline year hy groups ht) l).mp hl with h | rfl
    · rcases Generator.goLines_cases year groups l h with h | ⟨g, hg, c, hc, rfl⟩ | ⟨g, hg, c, hc, rfl⟩
      · exact absurd hd (h.2 name text)
      · exact absurd hd (Generator.decl_no_name _ c ((ht g hg).2 c hc).1 name text)
      · obtain ⟨h1, h2, -⟩ := (Generator.map_says c ((ht g hg).2 c hc).1 name text).mp hd
        exact ⟨g, hg, c, hc, h1, by rw [h2, htmlEscape_clean ((ht g hg).2 c hc).2.2.1 (hh g hg c hc)]⟩
    · exact absurd hd ((Generator.silent_of [] fun b s h => by simp at h).2 name text)
  · rintro ⟨g, hg, c, hc, h1, rfl⟩
    have hs := ((ht g hg).2 c hc).2.2.1
    exact ⟨_, (hasLine_unlines _ (Generator.goLines_newline year hy groups ht) _).mpr (.inl (Generator.mapLine_mem year groups g hg c hc)),
      (Generator.map_says c ((ht g hg).2 c hc).1 name c.string).mpr ⟨h1, (htmlEscape_clean hs (hh g hg c hc)).symm, hs.2.1, hs.2.2.1⟩⟩

/-! ### The lines of COMMANDS.md -/

namespace Generator

def rowLine (c : GenCommand) : Bytes := lit "0x" ++ hex2 c.byte1 ++ lit "|0x" ++ hex2 c.byte2 ++ lit "|" ++ htmlEscape c.string ++ lit "|" ++ htmlEscape c.notes

def tableLines (g : GenGroup) : List Bytes :=
  if g.convenience then []
  else [[], lit "## " ++ htmlEscape g.name, lit "Command 1 | Command 2 | Name | Notes", lit "----------|-----------|------|------"] ++ g.commands.map rowLine

def mdLines (groups : List GenGroup) : List Bytes :=
  [[], lit "# Known Insteon Commands", [], lit "The following tables outline all the Insteon command combinations that are", lit "known in this project."] ++
    groups.flatMap tableLines ++ [[]]

/-- Lines that end with the break, instead of starting with it. -/
theorem turn (ls : List Bytes) : ls.flatMap (fun l => 0x0a#8 :: l) ++ [0x0a#8] = 0x0a#8 :: unlines ls := by
  induction ls with
  | nil => rfl
  | cons l ls ih =>
    rw [List.flatMap_cons, List.append_assoc, ih]
    simp [unlines]

theorem table_turn (g : GenGroup) : table g = (tableLines g).flatMap (fun l => 0x0a#8 :: l) := by
  unfold table tableLines
  split_ifs
  · rfl
  · rw [List.flatMap_append, List.flatMap_map]
    simp only [List.flatMap_cons, List.flatMap_nil, List.append_nil]
    rw [show (fun c => 0x0a#8 :: rowLine c) = row from funext fun c => by simp [row, rowLine, lit, ch]]
    simp [lit, ch]

theorem commandsMd_lines (groups : List GenGroup) : commandsMd groups = unlines (mdLines groups) := by
  have h1 : groups.flatMap table = (groups.flatMap tableLines).flatMap (fun l => 0x0a#8 :: l) := by
    rw [List.flatMap_assoc]
    exact congrArg (fun f => groups.flatMap f) (funext table_turn)
  have h2 := turn (groups.flatMap tableLines)
  unfold commandsMd mdLines
  rw [unlines_append, unlines_append, h1]
  rw [show lit "\n\n" = [0x0a#8] ++ [0x0a#8] from rfl, List.append_assoc, ← List.append_assoc _ [0x0a#8], h2]
  simp [unlines, lit, ch]

theorem row_says (c : GenCommand) (hs : htmlEscape c.string = c.string) (hn : htmlEscape c.notes = c.notes) (h1 : 0x7c#8 ∉ c.string) (h2 : 0x7c#8 ∉ c.notes)
    (c1 c2 : Nat) (text notes : Bytes) :
    TableRow (rowLine c) c1 c2 text notes ↔ c.byte1.toNat = c1 ∧ c.byte2.toNat = c2 ∧ c.string = text ∧ c.notes = notes := by
  have e : rowLine c = ascii "0x" ++ hexPair c.byte1.toNat ++ ascii "|0x" ++ hexPair c.byte2.toNat ++ ascii "|" ++ c.string ++ ascii "|" ++ c.notes := by
    rw [rowLine, hs, hn, hex2_hexPair, hex2_hexPair]
    rfl
  constructor
  · rintro ⟨b1, b2, q1, q2, h⟩
    rw [e] at h
    simp only [List.append_assoc, List.append_cancel_left_eq] at h
    obtain ⟨a1, h⟩ := List.append_inj h (by rfl)
    rw [List.append_cancel_left_eq] at h
    obtain ⟨a2, h⟩ := List.append_inj h (by rfl)
    rw [List.append_cancel_left_eq] at h
    have cut : ∀ (a b x y : Bytes), 0x7c#8 ∉ a → 0x7c#8 ∉ b → a ++ (ascii "|" ++ x) = b ++ (ascii "|" ++ y) → a = b ∧ x = y := by
      intro a
      induction a with
      | nil =>
        intro b x y ha hb h
        rcases b with _ | ⟨z, b⟩
        · exact ⟨rfl, List.append_cancel_left h⟩
        · exact absurd (show 0x7c#8 = z from (List.cons.inj h).1) (fun e => hb (by simp [e]))
      | cons w a ih =>
        intro b x y ha hb h
        rcases b with _ | ⟨z, b⟩
        · exact absurd (show w = 0x7c#8 from (List.cons.inj h).1) (fun e => ha (by simp [e]))
        · obtain ⟨rfl, h'⟩ := List.cons.inj h
          obtain ⟨h1, h2⟩ := ih b x y (fun m => ha (by simp [m])) (fun m => hb (by simp [m])) h'
          exact ⟨by rw [h1], h2⟩
    obtain ⟨h3, h4⟩ := cut _ _ _ _ h1 q1 h
    exact ⟨hexPair_same _ c.byte1.isLt _ b1 a1, hexPair_same _ c.byte2.isLt _ b2 a2, h3, h4⟩
  · rintro ⟨rfl, rfl, rfl, rfl⟩
    exact ⟨c.byte1.isLt, c.byte2.isLt, h1, h2, e⟩

theorem no_row (l : Bytes) (h : ∀ s, l ≠ 0x30#8 :: s) (c1 c2 : Nat) (text notes : Bytes) : ¬ TableRow l c1 c2 text notes := by
  rintro ⟨-, -, -, -, e⟩
  exact h _ (by rw [e]; rfl)

end Generator

/-- C214, what is proved for COMMANDS.md: where no text has one of the characters of HTML, its tables have exactly the commands of the table as rows, apart from the convenience
commands, which are left out. -/
theorem generated_rows_partial (groups : List GenGroup) (ht : CommandTable groups) (hh : ∀ g ∈ groups, ∀ c ∈ g.commands, NoHtml c.string ∧ NoHtml c.notes)
    (c1 c2 : Nat) (text notes : Bytes) :
    (∃ l, HasLine (Generator.commandsMd groups) l ∧ TableRow l c1 c2 text notes) ↔
      ∃ g ∈ groups, g.convenience = false ∧ ∃ c ∈ g.commands, c.byte1.toNat = c1 ∧ c.byte2.toNat = c2 ∧ c.string = text ∧ c.notes = notes := by
  have hx : ∀ (b : Byte), 0x0a#8 ∉ hex2 b := fun b => by rw [hex2_hexPair]; exact (hexPair_newline _ b.isLt).1
  have hnl : ∀ l ∈ Generator.mdLines groups, 0x0a#8 ∉ l := by
    intro l h
    simp only [Generator.mdLines, List.mem_append, List.mem_cons, List.not_mem_nil, or_false, List.mem_flatMap] at h
    rcases h with ((rfl | rfl | rfl | rfl | rfl) | ⟨g, hg, h⟩) | rfl
    · simp
    · decide
    · simp
    · decide
    · decide
    · unfold Generator.tableLines at h
      split_ifs at h
      · simp at h
      · simp only [List.mem_append, List.mem_cons, List.not_mem_nil, or_false, List.mem_map] at h
        rcases h with (rfl | rfl | rfl | rfl) | ⟨c, hc, rfl⟩
        · simp
        · simp only [List.mem_append, not_or]
          exact ⟨by decide, htmlEscape_newline (ht g hg).1.1⟩
        · decide
        · decide
        · obtain ⟨k1, k2, k3, k4⟩ := (ht g hg).2 c hc
          simp only [Generator.rowLine, List.mem_append, not_or]
          exact ⟨⟨⟨⟨⟨⟨⟨by decide, hx _⟩, by decide⟩, hx _⟩, by decide⟩, htmlEscape_newline k3.1⟩, by decide⟩, htmlEscape_newline k4.1⟩
    · simp
  have hsays : ∀ g ∈ groups, ∀ c ∈ g.commands, (TableRow (Generator.rowLine c) c1 c2 text notes ↔
      c.byte1.toNat = c1 ∧ c.byte2.toNat = c2 ∧ c.string = text ∧ c.notes = notes) := by
    intro g hg c hc
    obtain ⟨k1, k2, k3, k4⟩ := (ht g hg).2 c hc
    obtain ⟨n1, n2⟩ := hh g hg c hc
    exact Generator.row_says c (htmlEscape_clean k3 n1) (htmlEscape_clean k4 n2) k3.2.2.2 k4.2.2.2 c1 c2 text notes
  have hnil : ∀ s, ([] : Bytes) ≠ 0x30#8 :: s := by simp
  have other : ∀ (b : Byte) (r : Bytes), b ≠ 0x30#8 → ∀ s, b :: r ≠ 0x30#8 :: s := fun b r hb s e => hb (List.cons.inj e).1
  rw [Generator.commandsMd_lines]
  constructor
  · rintro ⟨l, hl, hd⟩
    rcases (hasLine_unlines _ hnl l).mp hl with h | rfl
    · simp only [Generator.mdLines, List.mem_append, List.mem_cons, List.not_mem_nil, or_false, List.mem_flatMap] at h
      rcases h with ((rfl | rfl | rfl | rfl | rfl) | ⟨g, hg, h⟩) | rfl
      · exact absurd hd (Generator.no_row _ hnil _ _ _ _)
      · exact absurd hd (Generator.no_row _ (other 0x23#8 _ (by decide)) _ _ _ _)
      · exact absurd hd (Generator.no_row _ hnil _ _ _ _)
      · exact absurd hd (Generator.no_row _ (other 0x54#8 _ (by decide)) _ _ _ _)
      · exact absurd hd (Generator.no_row _ (other 0x6b#8 _ (by decide)) _ _ _ _)
      · unfold Generator.tableLines at h
        split_ifs at h with hcv
        · simp at h
        · simp only [List.mem_append, List.mem_cons, List.not_mem_nil, or_false, List.mem_map] at h
          rcases h with (rfl | rfl | rfl | rfl) | ⟨c, hc, rfl⟩
          · exact absurd hd (Generator.no_row _ hnil _ _ _ _)
          · exact absurd hd (Generator.no_row _ (other 0x23#8 _ (by decide)) _ _ _ _)
          · exact absurd hd (Generator.no_row _ (other 0x43#8 _ (by decide)) _ _ _ _)
          · exact absurd hd (Generator.no_row _ (other 0x2d#8 _ (by decide)) _ _ _ _)
          · exact ⟨g, hg, by simpa using hcv, c, hc, (hsays g hg c hc).mp hd⟩
      · exact absurd hd (Generator.no_row _ hnil _ _ _ _)
    · exact absurd hd (Generator.no_row _ hnil _ _ _ _)
  · rintro ⟨g, hg, hcv, c, hc, h⟩
    refine ⟨Generator.rowLine c, (hasLine_unlines _ hnl _).mpr (.inl ?_), (hsays g hg c hc).mpr h⟩
    simp only [Generator.mdLines, List.mem_append, List.mem_flatMap]
    refine .inl (.inr ⟨g, hg, ?_⟩)
    unfold Generator.tableLines
    rw [hcv]
    simp only [Bool.false_eq_true, if_false, List.mem_append, List.mem_map]
    exact .inr ⟨c, hc, rfl⟩

/-- A table with a name that has an ampersand. -/
def exTable : List GenGroup := [⟨ascii "Examples", 0x00#8, false, [⟨ascii "HeatAndCool", ascii "Heat and cool", ascii "Heat & Cool", 0x6b#8, 0x1f#8, []⟩]⟩]

/-- C214 in full is false of the code: the templates are made for HTML, so that a name with an ampersand, a plus or the like comes out different, although it needs no escape in a
Go string or in COMMANDS.md. -/
theorem generated_names_refuted :
    ¬ ∀ (year : Bytes) (groups : List GenGroup), 0x0a#8 ∉ year → CommandTable groups → ∀ g ∈ groups, ∀ c ∈ g.commands,
      ∃ l, HasLine (Generator.commandsGo year groups) l ∧ GivesName l c.name c.string := by
  intro h
  have ht : CommandTable exTable := by
    unfold CommandTable exTable
    decide
  obtain ⟨l, hl, hd⟩ := h [] exTable (by simp) ht _ (List.mem_singleton.mpr rfl) _ (List.mem_singleton.mpr rfl)
  rw [Generator.commandsGo_lines] at hl
  rcases (hasLine_unlines _ (Generator.goLines_newline [] (by simp) exTable ht) l).mp hl with h | rfl
  · rcases Generator.goLines_cases [] exTable l h with h | ⟨g, hg, c, hc, rfl⟩ | ⟨g, hg, c, hc, rfl⟩
    · exact h.2 _ _ hd
    · exact Generator.decl_no_name _ c ((ht g hg).2 c hc).1 _ _ hd
    · obtain ⟨-, h2, -⟩ := (Generator.map_says c ((ht g hg).2 c hc).1 _ _).mp hd
      rw [List.mem_singleton.mp hg] at hc
      rw [List.mem_singleton.mp hc] at h2
      exact absurd h2 (by decide)
  · exact (Generator.silent_of [] fun b s h => by simp at h).2 _ _ hd

end Insteon
