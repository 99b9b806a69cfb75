import Verif.Spec.DevCats
import Verif.Props.Generator

/-
Property C215: the file made from the table of device categories.
-/

namespace Insteon
open Spec

namespace DevCats

/-! ### Numbers and names -/

theorem hex02_pair (n : Nat) (h : n < 256) : hex02 n = hexPair n := by
  revert n; decide +kernel

theorem dropMark_plain (s : Bytes) (h : 0xef#8 ∉ s) : dropMark s = s := by
  induction s with
  | nil => rfl
  | cons b s ih =>
    have hb : b ≠ 0xef#8 := fun e => h (by simp [e])
    rw [dropMark]
    · rw [ih fun hm => h (by simp [hm])]
    · intro t e; exact fun h' => hb e

theorem hexVal_plain (b : Byte) (h : (hexVal b).isSome) : b ≠ 0xef#8 := by
  revert b; decide +kernel

theorem filterMap_hexVal {ds : Bytes} {ns : List Nat} (h : ds.map hexVal = ns.map some) : ds.filterMap hexVal = ns := by
  induction ds generalizing ns with
  | nil => cases ns <;> simp_all
  | cons d ds ih =>
    rcases ns with _ | ⟨n, ns⟩
    · simp at h
    · rw [List.map_cons, List.map_cons] at h
      obtain ⟨h1, h2⟩ := List.cons.inj h
      rw [List.filterMap_cons, h1, ih h2]

theorem parseHex_marked (other : Bytes → Option Int) (s : Bytes) (v : Nat) (hv : v < 256) (h : MarkedNumber s v) : parseHex other (dropMark s) = some (v : Int) := by
  obtain ⟨ds, hn, hs⟩ := h
  obtain ⟨hne, ns, h1, h2⟩ := (hexNumeral_iff ds v).mp hn
  have hall : ∀ d ∈ ds, (hexVal d).isSome := by
    intro d hd
    have : hexVal d ∈ ns.map some := h1 ▸ List.mem_map_of_mem hd
    obtain ⟨n, -, e⟩ := List.mem_map.mp this
    rw [← e]; rfl
  have hplain : 0xef#8 ∉ ds := fun hm => hexVal_plain _ (hall _ hm) rfl
  have hd : dropMark (ascii "0x" ++ ds) = ascii "0x" ++ ds := dropMark_plain _ (by
    simp only [List.mem_append, not_or]; exact ⟨by decide, hplain⟩)
  have hm : dropMark s = ascii "0x" ++ ds := by
    rcases hs with rfl | rfl
    · exact hd
    · rw [List.append_assoc, show utf8 0xfeff = [0xef#8, 0xbb#8, 0xbf#8] by decide]
      exact hd
  rw [hm]
  have e : parseHex other (ascii "0x" ++ ds) = if (0x78#8 = 0x78#8 ∨ 0x78#8 = 0x58#8) ∧ ds ≠ [] ∧ ds.all (fun d => (hexVal d).isSome) then
      if hexNumber (ds.filterMap hexVal) < 2 ^ 63 then some (hexNumber (ds.filterMap hexVal) : Int) else none else other (ascii "0x" ++ ds) := rfl
  rw [e, if_pos ⟨.inl rfl, hne, List.all_eq_true.mpr hall⟩, filterMap_hexVal h1, ← h2, if_pos (by omega)]

theorem trimSpace_trimmed (s t : Bytes) (h : Trimmed s t) : trimSpace s = t := by
  obtain ⟨⟨v, w, hv, hw, rfl⟩, ht⟩ := h
  rw [List.append_assoc, trimSpace_indent hv]
  by_cases hn : t = []
  · subst hn; exact trimSpace_white hw
  · have h0 : spaceLen t = 0 := spaceLen_eq_zero.mpr fun c hc u e => (ht c hc).1 ⟨u, e.symm⟩
    have hl : lastSpaceLen t.reverse = 0 := by
      by_contra hx
      obtain ⟨c, hc, u, e⟩ := lastSpaceLen_ne_zero hx
      apply (ht c hc).2
      have := congrArg List.reverse e
      rw [List.reverse_reverse, List.reverse_append, List.reverse_reverse] at this
      exact ⟨_, this.symm⟩
    have hf : Fresh w := by simpa using white_fresh hw [] fresh_nil
    unfold trimSpace
    rw [dropSpace_stop spaceLen (t ++ w) (by rw [spaceLen_append hn hf, h0]), List.reverse_append, dropSpace_lastWhite hw, dropSpace_stop _ _ hl, List.reverse_reverse]

theorem lists_values (other : Bytes → Option Int) {r : DevRow} {d c : Nat} {t : Bytes} (h : Lists r d c t) :
    parseHex other (dropMark r.domain) = some (d : Int) ∧ parseHex other (dropMark r.category) = some (c : Int) ∧ trimSpace r.name = t :=
  ⟨parseHex_marked other _ _ h.1 h.2.2.1, parseHex_marked other _ _ h.2.1 h.2.2.2.1, trimSpace_trimmed _ _ h.2.2.2.2⟩

/-! ### Reading the records -/

/-- What a record adds to the domain of number `k`. -/
def pick (other : Bytes → Option Int) (k : Nat) (r : DevRow) : Option GenCategory :=
  match parseHex other (dropMark r.domain), parseHex other (dropMark r.category) with
  | some d, some c => if (k : Int) = d then some ⟨c, trimSpace r.sku, trimSpace r.name⟩ else none
  | _, _ => none

/-- The record can be read and its domain is one of those given. -/
def Known (other : Bytes → Option Int) (ds : List GenDomain) (r : DevRow) : Prop :=
  ∃ d ∈ ds, parseHex other (dropMark r.domain) = some (d.id : Int) ∧ ∃ c, parseHex other (dropMark r.category) = some c

theorem data_known (other : Bytes → Option Int) (rows : List DevRow) : ∀ acc : List (GenDomain × List GenCategory),
    (∀ r ∈ rows, Known other (acc.map (·.1)) r) → data other rows acc = some (acc.map fun p => (p.1, p.2 ++ rows.filterMap (pick other p.1.id))) := by
  induction rows with
  | nil => intro acc _; simp [data]
  | cons r rs ih =>
    intro acc h
    obtain ⟨d, hd, h1, c, h2⟩ := h r (by simp)
    obtain ⟨p, hp, rfl⟩ := List.mem_map.mp hd
    rw [data, h1]
    dsimp only
    rw [h2]
    dsimp only
    rw [if_pos (List.any_eq_true.mpr ⟨p, hp, by simp⟩), ih _ (by
      intro r' hr'
      have := h r' (by simp [hr'])
      rwa [List.map_map, show ((fun x : GenDomain × List GenCategory => x.1) ∘ fun q => if (q.1.id : Int) = (p.1.id : Int) then (q.1, q.2 ++ [⟨c, trimSpace r.sku, trimSpace r.name⟩]) else q) = (·.1) by
        funext q; simp only [Function.comp]; split <;> rfl])]
    rw [List.map_map]
    congr 1
    apply List.map_congr_left
    intro q _
    simp only [Function.comp]
    by_cases e : (q.1.id : Int) = (p.1.id : Int)
    · rw [if_pos e, List.filterMap_cons, pick, h1, h2]
      dsimp only
      rw [if_pos e]
      simp
    · rw [if_neg e, List.filterMap_cons, pick, h1, h2]
      dsimp only
      rw [if_neg e]

theorem data_unknown (other : Bytes → Option Int) (rows : List DevRow) : ∀ acc : List (GenDomain × List GenCategory),
    (∃ r ∈ rows, ¬ Known other (acc.map (·.1)) r) → data other rows acc = none := by
  induction rows with
  | nil => intro acc h; simp at h
  | cons r rs ih =>
    intro acc ⟨r', hr', hk⟩
    rw [data]
    rcases h1 : parseHex other (dropMark r.domain) with _ | k
    · rfl
    dsimp only
    rcases h2 : parseHex other (dropMark r.category) with _ | c
    · rfl
    dsimp only
    split
    · rename_i ha
      obtain ⟨p, hp, he⟩ := List.any_eq_true.mp ha
      have he := of_decide_eq_true he
      rcases List.mem_cons.mp hr' with rfl | hr'
      · exact absurd ⟨p.1, List.mem_map_of_mem hp, by rw [h1, he], c, h2⟩ hk
      · apply ih
        refine ⟨r', hr', ?_⟩
        rwa [List.map_map, show ((fun x : GenDomain × List GenCategory => x.1) ∘ fun q => if (q.1.id : Int) = k then (q.1, q.2 ++ [⟨c, trimSpace r.sku, trimSpace r.name⟩]) else q) = (·.1) by
          funext q; simp only [Function.comp]; split <;> rfl]
    · rfl

/-! ### The lines of the file -/

def catLine (d : GenDomain) (c : GenCategory) : Bytes :=
  lit "  {0x" ++ hex02 d.id ++ lit ", 0x" ++ hex02 c.id ++ lit "}: \"" ++ htmlEscape c.name ++ lit "\","

def constLines : List (GenDomain × List GenCategory) → List Bytes
  | [] => [lit "  "]
  | d :: ds => (lit "  " ++ constant [] d.1) :: (ds.map (fun p => constant [] p.1) ++ [[]])

def headLines (year : Bytes) (d : GenDomain × List GenCategory) (ds : List (GenDomain × List GenCategory)) : List Bytes :=
  Generator.license year ++ [[], [], lit "package insteon", [], lit "const(", lit "  " ++ constant (lit " Domain") d.1] ++ constLines ds ++
    [lit ")", [], lit "var devcatStrings = map[DevCat]string { "]

def entryLines (ps : List (GenDomain × List GenCategory)) : List Bytes := ps.flatMap fun p => p.2.map (catLine p.1)

theorem entry_lines (es : List (GenDomain × GenCategory)) : ∀ first : Bytes,
    first ++ es.flatMap (fun e => entry e.1 e.2) ++ lit "\n}\n" = unlines ([first] ++ es.map (fun e => catLine e.1 e.2) ++ [lit "}"]) := by
  induction es with
  | nil => intro first; simp [unlines, lit, ch]
  | cons e es ih =>
    intro first
    have := ih (catLine e.1 e.2)
    rw [List.flatMap_cons, List.map_cons,
      show [first] ++ catLine e.1 e.2 :: es.map (fun e => catLine e.1 e.2) ++ [lit "}"] = [first] ++ ([catLine e.1 e.2] ++ es.map (fun e => catLine e.1 e.2) ++ [lit "}"]) by simp,
      unlines_append, ← this]
    simp [entry, catLine, unlines, lit, ch]

theorem const_lines (ds : List (GenDomain × List GenCategory)) :
    lit "  " ++ ds.flatMap (fun p => constant [] p.1 ++ lit "\n") ++ lit "\n" = unlines (constLines ds) := by
  have tail : ∀ ds : List (GenDomain × List GenCategory), ds.flatMap (fun p => constant [] p.1 ++ lit "\n") = unlines (ds.map (fun p => constant [] p.1)) := by
    intro ds
    induction ds with
    | nil => rfl
    | cons d ds ih => rw [List.flatMap_cons, ih, List.map_cons, ← List.singleton_append, unlines_append]; simp [unlines, lit, ch]
  rcases ds with _ | ⟨d, ds⟩
  · rfl
  · rw [constLines, List.flatMap_cons, tail, ← List.singleton_append, unlines_append, unlines_append]
    simp [unlines, lit, ch]

theorem text_lines (year : Bytes) (d : GenDomain × List GenCategory) (ds : List (GenDomain × List GenCategory)) :
    text year (d :: ds) = some (unlines (headLines year d ds ++ entryLines (d :: ds) ++ [lit "}"])) := by
  have e := entry_lines ((d :: ds).flatMap fun p => p.2.map (Prod.mk p.1)) (lit "var devcatStrings = map[DevCat]string { ")
  have e1 : ((d :: ds).flatMap fun p => p.2.map (Prod.mk p.1)).flatMap (fun e => entry e.1 e.2) = (d :: ds).flatMap (fun p => p.2.flatMap (entry p.1)) := by
    rw [List.flatMap_assoc]; congr 1; funext p; rw [List.flatMap_map]
  have e2 : ((d :: ds).flatMap fun p => p.2.map (Prod.mk p.1)).map (fun e => catLine e.1 e.2) = entryLines (d :: ds) := by
    rw [List.map_flatMap, entryLines]; congr 1; funext p; rw [List.map_map]; rfl
  rw [e1, e2] at e
  rw [text]
  congr 1
  rw [show headLines year d ds ++ entryLines (d :: ds) ++ [lit "}"] = Generator.license year ++
      ([[], [], lit "package insteon", [], lit "const(", lit "  " ++ constant (lit " Domain") d.1] ++ (constLines ds ++ ([lit ")", []] ++
      ([lit "var devcatStrings = map[DevCat]string { "] ++ entryLines (d :: ds) ++ [lit "}"])))) by simp [headLines],
    unlines_append, unlines_append, unlines_append, unlines_append, ← e, ← const_lines]
  simp [unlines, lit, ch]

/-! ### What the lines say -/

theorem names_start {l : Bytes} {d c : Nat} {t : Bytes} (h : NamesCategory l d c t) : ∃ s, l = 0x20#8 :: 0x20#8 :: 0x7b#8 :: s :=
  ⟨ascii "0x" ++ hexPair d ++ ascii ", 0x" ++ hexPair c ++ ascii "}: \"" ++ t ++ ascii "\",", by rw [h.2.2.2.2]; simp [ascii]⟩

theorem plain_escape {s : Bytes} (h : PlainText s) : htmlEscape s = s :=
  htmlEscape_plain fun b hb => htmlByte_plain b
    ⟨fun e => h.2.1 (e ▸ hb), fun e => h.2.2.2.1 (e ▸ hb), fun e => h.2.2.2.2.1 (e ▸ hb), fun e => h.2.2.2.2.2.1 (e ▸ hb), fun e => h.2.2.2.2.2.2.1 (e ▸ hb),
      fun e => h.2.2.2.2.2.2.2.1 (e ▸ hb), fun e => h.2.2.2.2.2.2.2.2 (e ▸ hb)⟩

theorem catLine_eq (d : GenDomain) (hd : d.id < 256) (c : GenCategory) (n : Nat) (hn : n < 256) (hc : c.id = n) :
    catLine d c = ascii "  {0x" ++ hexPair d.id ++ ascii ", 0x" ++ hexPair n ++ ascii "}: \"" ++ htmlEscape c.name ++ ascii "\"," := by
  rw [catLine, hc, hex02_pair _ hd, hex02_pair _ hn]; rfl

theorem catLine_says (d : GenDomain) (hd : d.id < 256) (c : GenCategory) (n : Nat) (hn : n < 256) (hc : c.id = n) (k m : Nat) (t : Bytes) :
    NamesCategory (catLine d c) k m t ↔ d.id = k ∧ n = m ∧ htmlEscape c.name = t ∧ 0x22#8 ∉ t ∧ 0x5c#8 ∉ t := by
  rw [NamesCategory, catLine_eq d hd c n hn hc]
  constructor
  · rintro ⟨hk, hm, h1, h2, e⟩
    simp only [List.append_assoc, List.append_cancel_left_eq] at e
    obtain ⟨a1, e⟩ := List.append_inj e (by rfl)
    rw [List.append_cancel_left_eq] at e
    obtain ⟨a2, e⟩ := List.append_inj e (by rfl)
    rw [List.append_cancel_left_eq] at e
    exact ⟨hexPair_same _ hd _ hk a1, hexPair_same _ hn _ hm a2, List.append_cancel_right e, h1, h2⟩
  · rintro ⟨rfl, rfl, rfl, h1, h2⟩
    exact ⟨hd, hn, h1, h2, rfl⟩

theorem headLines_silent (year : Bytes) (d : GenDomain × List GenCategory) (ds : List (GenDomain × List GenCategory)) (hi : ∀ p ∈ d :: ds, Ident p.1.var) :
    ∀ l ∈ headLines year d ds, ∀ s, l ≠ 0x20#8 :: 0x20#8 :: 0x7b#8 :: s := by
  have hconst : ∀ (typ : Bytes), ∀ p ∈ d :: ds, ∀ s, lit "  " ++ constant typ p.1 ≠ 0x20#8 :: 0x20#8 :: 0x7b#8 :: s := by
    intro typ p hp s e
    have h := hi p hp
    rw [constant, htmlEscape_ident h] at e
    obtain ⟨b, v, hv⟩ := List.exists_cons_of_ne_nil h.1
    rw [hv] at e
    have : b = 0x7b#8 := (List.cons.inj (List.cons.inj (List.cons.inj (show 0x20#8 :: 0x20#8 :: b :: _ = _ from e)).2).2).1
    exact absurd (h.2 b (by rw [hv]; simp)) (by rw [this]; decide)
  have hother : ∀ (b : Byte) (r : Bytes), b ≠ 0x20#8 → ∀ s, b :: r ≠ 0x20#8 :: 0x20#8 :: 0x7b#8 :: s := fun b r hb s e => hb (List.cons.inj e).1
  intro l h
  simp only [headLines, List.mem_append, List.mem_cons, List.not_mem_nil, or_false] at h
  rcases h with ((h | rfl | rfl | rfl | rfl | rfl | rfl) | h) | rfl | rfl | rfl
  · have : ∃ s, l = lit "// " ++ s := by
      simp only [Generator.license, List.mem_cons, List.not_mem_nil, or_false] at h
      rcases h with rfl | rfl | rfl | rfl | rfl | rfl | rfl | rfl | rfl | rfl | rfl | rfl | rfl
      all_goals exact ⟨_, rfl⟩
    obtain ⟨s, rfl⟩ := this
    exact hother 0x2f#8 _ (by decide)
  · simp
  · simp
  · exact hother 0x70#8 _ (by decide)
  · simp
  · exact hother 0x63#8 _ (by decide)
  · exact hconst _ d (by simp)
  · rcases ds with _ | ⟨p, ps⟩
    · simp only [constLines, List.mem_cons, List.not_mem_nil, or_false] at h
      subst h
      intro s e
      exact absurd (congrArg List.length e) (by simp [lit])
    · simp only [constLines, List.mem_append, List.mem_cons, List.not_mem_nil, or_false, List.mem_map] at h
      rcases h with rfl | ⟨q, hq, rfl⟩ | rfl
      · exact hconst [] p (by simp)
      · have h := hi q (by simp [hq])
        rw [constant, htmlEscape_ident h]
        obtain ⟨b, v, hv⟩ := List.exists_cons_of_ne_nil h.1
        rw [hv]
        exact hother b _ (fun e => absurd (h.2 b (by rw [hv]; simp)) (by rw [e]; decide))
      · simp
  · exact hother 0x29#8 _ (by decide)
  · simp
  · exact hother 0x76#8 _ (by decide)

theorem hex02_newline (n : Nat) (h : n < 256) : 0x0a#8 ∉ hex02 n := by rw [hex02_pair n h]; exact (hexPair_newline n h).1

theorem constant_newline (typ : Bytes) (ht : 0x0a#8 ∉ typ) (d : GenDomain) (hi : Ident d.var) (hd : d.id < 256) : 0x0a#8 ∉ constant typ d := by
  simp only [constant, List.mem_append, not_or]
  exact ⟨⟨⟨htmlEscape_newline (ident_newline hi), ht⟩, by decide⟩, hex02_newline _ hd⟩

theorem headLines_newline (year : Bytes) (hy : 0x0a#8 ∉ year) (d : GenDomain × List GenCategory) (ds : List (GenDomain × List GenCategory))
    (hi : ∀ p ∈ d :: ds, Ident p.1.var ∧ p.1.id < 256) : ∀ l ∈ headLines year d ds, 0x0a#8 ∉ l := by
  intro l h
  simp only [headLines, List.mem_append, List.mem_cons, List.not_mem_nil, or_false] at h
  rcases h with ((h | rfl | rfl | rfl | rfl | rfl | rfl) | h) | rfl | rfl | rfl
  · simp only [Generator.license, List.mem_cons, List.not_mem_nil, or_false] at h
    rcases h with rfl | rfl | rfl | rfl | rfl | rfl | rfl | rfl | rfl | rfl | rfl | rfl | rfl
    · simp only [List.mem_append, not_or]
      exact ⟨⟨by decide, hy⟩, by decide⟩
    all_goals decide
  · simp
  · simp
  · decide
  · simp
  · decide
  · simp only [List.mem_append, not_or]
    exact ⟨by decide, constant_newline _ (by decide) _ (hi d (by simp)).1 (hi d (by simp)).2⟩
  · rcases ds with _ | ⟨p, ps⟩
    · simp only [constLines, List.mem_cons, List.not_mem_nil, or_false] at h
      subst h; decide
    · simp only [constLines, List.mem_append, List.mem_cons, List.not_mem_nil, or_false, List.mem_map] at h
      rcases h with rfl | ⟨q, hq, rfl⟩ | rfl
      · simp only [List.mem_append, not_or]
        exact ⟨by decide, constant_newline _ (by decide) _ (hi p (by simp)).1 (hi p (by simp)).2⟩
      · exact constant_newline _ (by decide) _ (hi q (by simp [hq])).1 (hi q (by simp [hq])).2
      · simp
  · decide
  · simp
  · decide

/-- A record read, with its name in the file. -/
def Reads (other : Bytes → Option Int) (r : DevRow) (d c : Nat) (t : Bytes) : Prop :=
  d < 256 ∧ c < 256 ∧ parseHex other (dropMark r.domain) = some (d : Int) ∧ parseHex other (dropMark r.category) = some (c : Int) ∧ trimSpace r.name = t

theorem pick_reads {other : Bytes → Option Int} {r : DevRow} {d c : Nat} {t : Bytes} (h : Reads other r d c t) (k : Nat) (g : GenCategory) :
    pick other k r = some g ↔ k = d ∧ g = ⟨c, trimSpace r.sku, t⟩ := by
  obtain ⟨-, -, h1, h2, rfl⟩ := h
  rw [pick, h1, h2]
  dsimp only
  by_cases e : k = d
  · subst e; simp [eq_comm]
  · rw [if_neg (by exact_mod_cast e)]; simp [e]

/-- The lines of the file, when every record can be read and has a known domain. -/
theorem devcatsGo_lines (other : Bytes → Option Int) (year : Bytes) (ds : List GenDomain) (hne : ds ≠ []) (rows : List DevRow)
    (hr : ∀ r ∈ rows, ∃ d c t, Reads other r d c t ∧ d ∈ ds.map (·.id)) :
    ∃ p ps, (p :: ps).map (·.1) = ds ∧ (p :: ps) = ds.map (fun d => (d, rows.filterMap (pick other d.id))) ∧
      devcatsGo other year ds rows = some (unlines (headLines year p ps ++ entryLines (p :: ps) ++ [lit "}"])) := by
  have hk : ∀ r ∈ rows, Known other ((ds.map fun d => (d, ([] : List GenCategory))).map (·.1)) r := by
    intro r h
    obtain ⟨d, c, t, ⟨-, -, h1, h2, -⟩, hd⟩ := hr r h
    obtain ⟨g, hg, rfl⟩ := List.mem_map.mp hd
    exact ⟨g, by simpa using hg, h1, c, h2⟩
  have e := data_known other rows _ hk
  obtain ⟨g, gs, rfl⟩ := List.exists_cons_of_ne_nil hne
  refine ⟨(g, rows.filterMap (pick other g.id)), gs.map (fun d => (d, rows.filterMap (pick other d.id))), by simp [Function.comp_def], by simp, ?_⟩
  rw [devcatsGo, e]
  dsimp only
  rw [← text_lines]
  simp [Function.comp_def]

theorem entry_mem (other : Bytes → Option Int) (ds : List GenDomain) (rows : List DevRow) (l : Bytes) :
    l ∈ entryLines (ds.map (fun d => (d, rows.filterMap (pick other d.id)))) ↔ ∃ d ∈ ds, ∃ r ∈ rows, ∃ g, pick other d.id r = some g ∧ l = catLine d g := by
  simp only [entryLines, List.mem_flatMap, List.mem_map]
  constructor
  · rintro ⟨p, ⟨d, hd, rfl⟩, g, hm, rfl⟩
    obtain ⟨r, hr, hg⟩ := List.mem_filterMap.mp hm
    exact ⟨d, hd, r, hr, g, hg, rfl⟩
  · rintro ⟨d, hd, r, hr, g, hg, rfl⟩
    exact ⟨_, ⟨d, hd, rfl⟩, g, List.mem_filterMap.mpr ⟨r, hr, hg⟩, rfl⟩

theorem fileLines_newline (other : Bytes → Option Int) (year : Bytes) (hy : 0x0a#8 ∉ year) (ds : List GenDomain) (hd : DomainTable ds) (rows : List DevRow)
    (hr : ∀ r ∈ rows, ∃ d c t, Reads other r d c t ∧ 0x0a#8 ∉ t) (p : GenDomain × List GenCategory) (ps : List (GenDomain × List GenCategory))
    (h1 : (p :: ps).map (·.1) = ds) (h2 : (p :: ps) = ds.map (fun d => (d, rows.filterMap (pick other d.id)))) :
    ∀ l ∈ headLines year p ps ++ entryLines (p :: ps) ++ [lit "}"], 0x0a#8 ∉ l := by
  have hi : ∀ q ∈ p :: ps, Ident q.1.var ∧ q.1.id < 256 := fun q hq => hd.2.1 q.1 (h1 ▸ List.mem_map_of_mem hq)
  intro l hl
  rcases List.mem_append.mp hl with hl | hl
  · rcases List.mem_append.mp hl with hl | hl
    · exact headLines_newline year hy p ps hi l hl
    · rw [h2, entry_mem] at hl
      obtain ⟨d, hdm, r, hrm, g, hg, rfl⟩ := hl
      obtain ⟨k, c, t, hR, hp⟩ := hr r hrm
      obtain ⟨rfl, rfl⟩ := (pick_reads hR _ _).mp hg
      rw [catLine]
      simp only [List.mem_append, not_or]
      exact ⟨⟨⟨⟨⟨⟨by decide, hex02_newline _ hR.1⟩, by decide⟩, hex02_newline _ hR.2.1⟩, by decide⟩, htmlEscape_newline hp⟩, by decide⟩
  · rw [List.mem_singleton.mp hl]; decide

theorem reads_names (other : Bytes → Option Int) (year : Bytes) (hy : 0x0a#8 ∉ year) (ds : List GenDomain) (hd : DomainTable ds) (rows : List DevRow)
    (hr : ∀ r ∈ rows, ∃ d c t, Reads other r d c t ∧ PlainText t ∧ d ∈ ds.map (·.id)) :
    ∃ out, devcatsGo other year ds rows = some out ∧ ∀ (d c : Nat) (t : Bytes), (∃ l, HasLine out l ∧ NamesCategory l d c t) ↔ ∃ r ∈ rows, Reads other r d c t := by
  obtain ⟨p, ps, h1, h2, h3⟩ := devcatsGo_lines other year ds hd.1 rows fun r h => by
    obtain ⟨d, c, t, a, -, b⟩ := hr r h; exact ⟨d, c, t, a, b⟩
  have hi : ∀ q ∈ p :: ps, Ident q.1.var := fun q hq => (hd.2.1 q.1 (h1 ▸ List.mem_map_of_mem hq)).1
  have hnl := fileLines_newline other year hy ds hd rows (fun r h => by obtain ⟨d, c, t, a, b, -⟩ := hr r h; exact ⟨d, c, t, a, b.1⟩) p ps h1 h2
  refine ⟨_, h3, fun d c t => ?_⟩
  constructor
  · rintro ⟨l, hl, hn⟩
    rcases (hasLine_unlines _ hnl l).mp hl with h | rfl
    · rcases List.mem_append.mp h with h | h
      · rcases List.mem_append.mp h with h | h
        · obtain ⟨s, hs⟩ := names_start hn
          exact absurd hs (headLines_silent year p ps hi l h s)
        · rw [h2, entry_mem] at h
          obtain ⟨g, hg, r, hrm, x, hx, rfl⟩ := h
          obtain ⟨k, m, u, hR, hp, -⟩ := hr r hrm
          obtain ⟨e1, rfl⟩ := (pick_reads hR _ _).mp hx
          obtain ⟨a1, a2, a3, -, -⟩ := (catLine_says g (hd.2.1 g hg).2 _ m hR.2.1 rfl d c t).mp hn
          rw [plain_escape hp] at a3
          subst a1 a2 a3 e1
          exact ⟨r, hrm, hR⟩
      · obtain ⟨s, hs⟩ := names_start hn
        rw [List.mem_singleton.mp h] at hs
        exact absurd (congrArg List.length hs) (by simp [lit])
    · obtain ⟨s, hs⟩ := names_start hn
      simp at hs
  · rintro ⟨r, hrm, hR⟩
    obtain ⟨k, m, u, hR', hp, hk⟩ := hr r hrm
    have ek : d = k := by have := hR.2.2.1.symm.trans hR'.2.2.1; simp at this; omega
    have em : c = m := by have := hR.2.2.2.1.symm.trans hR'.2.2.2.1; simp at this; omega
    have eu : t = u := hR.2.2.2.2.symm.trans hR'.2.2.2.2
    subst ek em eu
    obtain ⟨g, hg, rfl⟩ := List.mem_map.mp hk
    refine ⟨catLine g ⟨c, trimSpace r.sku, t⟩, (hasLine_unlines _ hnl _).mpr (.inl ?_), (catLine_says g hR.1 _ c hR.2.1 rfl _ _ _).mpr ⟨rfl, rfl, plain_escape hp, hp.2.1, hp.2.2.1⟩⟩
    refine List.mem_append_left _ (List.mem_append_right _ ?_)
    rw [h2, entry_mem]
    exact ⟨g, hg, r, hrm, _, (pick_reads hR _ _).mpr ⟨rfl, rfl⟩, rfl⟩

theorem reads_of_lists (other : Bytes → Option Int) {r : DevRow} {d c : Nat} {t : Bytes} (h : Lists r d c t) : Reads other r d c t :=
  ⟨h.1, h.2.1, lists_values other h⟩

theorem reads_unique {other : Bytes → Option Int} {r : DevRow} {d c k m : Nat} {t u : Bytes} (h : Reads other r d c t) (h' : Reads other r k m u) : d = k ∧ c = m ∧ t = u := by
  refine ⟨?_, ?_, h.2.2.2.2.symm.trans h'.2.2.2.2⟩
  · have := h.2.2.1.symm.trans h'.2.2.1; simp at this; omega
  · have := h.2.2.2.1.symm.trans h'.2.2.2.1; simp at this; omega

theorem lists_of_reads {other : Bytes → Option Int} {r : DevRow} {d c k m : Nat} {t u : Bytes} (h : Lists r d c t) (h' : Reads other r k m u) : Lists r k m u := by
  obtain ⟨rfl, rfl, rfl⟩ := reads_unique (reads_of_lists other h) h'
  exact h

/-! ### Constants -/

/-- A line without the blanks at its beginning. -/
def strip (l : Bytes) : Bytes := l.dropWhile (· == 0x20#8)

theorem strip_blanks (w s : Bytes) (hw : ∀ b ∈ w, b = 0x20#8) : strip (w ++ s) = strip s := by
  induction w with
  | nil => rfl
  | cons b w ih =>
    have := ih fun x hx => hw x (by simp [hx])
    rw [← this, hw b (by simp)]
    simp [strip]

theorem strip_ident (n s : Bytes) (hn : Ident n) : strip (n ++ s) = n ++ s := by
  obtain ⟨b, v, rfl⟩ := List.exists_cons_of_ne_nil hn.1
  have hb : b ≠ 0x20#8 := fun e => absurd (hn.2 b (by simp)) (by rw [e]; decide)
  simp [strip, hb]

theorem declares_strip {l name : Bytes} {v : Nat} (h : DeclaresDomain l name v) :
    strip l = name ++ 0x20#8 :: (ascii "Domain = 0x" ++ hexPair v) ∨ strip l = name ++ 0x20#8 :: (ascii "= 0x" ++ hexPair v) := by
  obtain ⟨hi, -, w, hw, rfl | rfl⟩ := h
  · left; rw [List.append_assoc, List.append_assoc, strip_blanks _ _ hw, strip_ident _ _ hi]; simp [ascii]
  · right; rw [List.append_assoc, List.append_assoc, strip_blanks _ _ hw, strip_ident _ _ hi]; simp [ascii]

theorem not_declares_start {l : Bytes} (h : ∀ b s, strip l = b :: s → identByte b = false) (name : Bytes) (v : Nat) : ¬ DeclaresDomain l name v := by
  intro hd
  obtain ⟨b, u, e⟩ := List.exists_cons_of_ne_nil hd.1.1
  have hb := hd.1.2 b (by rw [e]; simp)
  rcases declares_strip hd with h' | h' <;> rw [e] at h' <;> · have := h b _ h'; rw [hb] at this; simp at this

theorem not_declares_word (w : Bytes) (hw : Ident w) (x : Byte) (hx : identByte x = false) (rest : Bytes) (h1 : x :: rest.take 6 ≠ ascii " Domain") (h2 : x :: rest.take 1 ≠ ascii " =")
    (name : Bytes) (v : Nat) : ¬ DeclaresDomain (w ++ x :: rest) name v := by
  intro hd
  have e := declares_strip hd
  rw [strip_ident _ _ hw] at e
  rcases e with e | e
  · obtain ⟨-, e⟩ := ident_cut hw hd.1 x 0x20#8 hx (by decide) e
    obtain ⟨rfl, e'⟩ := List.cons.inj e
    exact h1 (by rw [e']; simp [ascii])
  · obtain ⟨-, e⟩ := ident_cut hw hd.1 x 0x20#8 hx (by decide) e
    obtain ⟨rfl, e'⟩ := List.cons.inj e
    exact h2 (by rw [e']; simp [ascii])

theorem constant_says (w : Bytes) (hw : ∀ b ∈ w, b = 0x20#8) (typ : Bytes) (ht : typ = [] ∨ typ = lit " Domain") (d : GenDomain) (hi : Ident d.var) (hd : d.id < 256)
    (name : Bytes) (v : Nat) : DeclaresDomain (w ++ constant typ d) name v ↔ d.var = name ∧ d.id = v := by
  have e : constant typ d = d.var ++ typ ++ lit " = 0x" ++ hexPair d.id := by rw [constant, htmlEscape_ident hi, hex02_pair _ hd]
  constructor
  · intro h
    have hs := declares_strip h
    rw [strip_blanks _ _ hw, e, List.append_assoc, List.append_assoc, strip_ident _ _ hi] at hs
    have hv := h.2.1
    rcases ht with rfl | rfl
    · have hs' : ∀ r, d.var ++ ([] ++ (lit " = 0x" ++ hexPair d.id)) = name ++ 0x20#8 :: r → d.var = name ∧ ascii "= 0x" ++ hexPair d.id = r := by
        intro r hr
        obtain ⟨a, b⟩ := ident_cut hi h.1 0x20#8 0x20#8 (by decide) (by decide) (show d.var ++ 0x20#8 :: (ascii "= 0x" ++ hexPair d.id) = name ++ 0x20#8 :: r from hr)
        exact ⟨a, (List.cons.inj b).2⟩
      rcases hs with hs | hs
      · obtain ⟨-, hs⟩ := hs' _ hs
        exact absurd (List.cons.inj (show 0x3d#8 :: _ = 0x44#8 :: _ from hs)).1 (by decide)
      · obtain ⟨a, hs⟩ := hs' _ hs
        rw [List.append_cancel_left_eq] at hs
        exact ⟨a, hexPair_same _ hd _ hv hs⟩
    · have hs' : ∀ r, d.var ++ (lit " Domain" ++ (lit " = 0x" ++ hexPair d.id)) = name ++ 0x20#8 :: r → d.var = name ∧ ascii "Domain = 0x" ++ hexPair d.id = r := by
        intro r hr
        obtain ⟨a, b⟩ := ident_cut hi h.1 0x20#8 0x20#8 (by decide) (by decide) (show d.var ++ 0x20#8 :: (ascii "Domain = 0x" ++ hexPair d.id) = name ++ 0x20#8 :: r from hr)
        exact ⟨a, (List.cons.inj b).2⟩
      rcases hs with hs | hs
      · obtain ⟨a, hs⟩ := hs' _ hs
        rw [List.append_cancel_left_eq] at hs
        exact ⟨a, hexPair_same _ hd _ hv hs⟩
      · obtain ⟨-, hs⟩ := hs' _ hs
        exact absurd (List.cons.inj (show 0x44#8 :: _ = 0x3d#8 :: _ from hs)).1 (by decide)
  · rintro ⟨rfl, rfl⟩
    refine ⟨hi, hd, w, hw, ?_⟩
    rw [e]
    rcases ht with rfl | rfl
    · right; simp [lit, ch, ascii]
    · left; simp [lit, ch, ascii]

/-- A line that declares no domain. -/
def Quiet (l : Bytes) : Prop := ∀ name v, ¬ DeclaresDomain l name v

theorem quiet_start (b : Byte) (s : Bytes) (hb : b ≠ 0x20#8) (h : identByte b = false) : Quiet (b :: s) :=
  not_declares_start fun c r e => by
    rw [strip, List.dropWhile_cons_of_neg (by simpa using hb)] at e
    rw [← (List.cons.inj e).1]
    exact h

theorem quiet_nil : Quiet [] := not_declares_start (by simp [strip])

theorem quiet_before (year l : Bytes) (h : l ∈ Generator.license year ++ [[], [], lit "package insteon", [], lit "const("]) : Quiet l := by
  simp only [List.mem_append, List.mem_cons, List.not_mem_nil, or_false] at h
  rcases h with h | rfl | rfl | rfl | rfl | rfl
  · have : ∃ s, l = lit "// " ++ s := by
      simp only [Generator.license, List.mem_cons, List.not_mem_nil, or_false] at h
      rcases h with rfl | rfl | rfl | rfl | rfl | rfl | rfl | rfl | rfl | rfl | rfl | rfl | rfl
      all_goals exact ⟨_, rfl⟩
    obtain ⟨s, rfl⟩ := this
    exact quiet_start 0x2f#8 _ (by decide) (by decide)
  · exact quiet_nil
  · exact quiet_nil
  · exact not_declares_word (lit "package") (by decide) 0x20#8 (by decide) (lit "insteon") (by decide) (by decide)
  · exact quiet_nil
  · exact not_declares_word (lit "const") (by decide) 0x28#8 (by decide) [] (by decide) (by decide)

theorem quiet_after (ps : List (GenDomain × List GenCategory)) (l : Bytes) (h : l ∈ [lit ")", [], lit "var devcatStrings = map[DevCat]string { "] ++ entryLines ps ++ [lit "}"] ++ [[]]) : Quiet l := by
  simp only [List.mem_append, List.mem_cons, List.not_mem_nil, or_false] at h
  rcases h with (((rfl | rfl | rfl) | h) | rfl) | rfl
  · exact quiet_start 0x29#8 _ (by decide) (by decide)
  · exact quiet_nil
  · exact not_declares_word (lit "var") (by decide) 0x20#8 (by decide) (lit "devcatStrings = map[DevCat]string { ") (by decide) (by decide)
  · simp only [entryLines, List.mem_flatMap, List.mem_map] at h
    obtain ⟨p, -, g, -, rfl⟩ := h
    exact not_declares_start fun b s e => by
      obtain ⟨rfl, -⟩ := List.cons.inj (show 0x7b#8 :: _ = b :: s from e)
      decide
  · exact quiet_start 0x7d#8 _ (by decide) (by decide)
  · exact quiet_nil

end DevCats

open DevCats

/-! ### The property -/

/-- C215, for records in the form the table has, with texts that are the same in HTML: the categories named in the file are exactly those of the records. Missing: other texts, see
`devcats_names_refuted`. -/
theorem devcats_names_partial (other : Bytes → Option Int) (year : Bytes) (hy : 0x0a#8 ∉ year) (ds : List GenDomain) (hd : DomainTable ds) (rows : List DevRow)
    (hr : ∀ r ∈ rows, ∃ d c t, Lists r d c t ∧ PlainText t ∧ d ∈ ds.map (·.id)) :
    ∃ out, devcatsGo other year ds rows = some out ∧ ∀ (d c : Nat) (t : Bytes), (∃ l, HasLine out l ∧ NamesCategory l d c t) ↔ ∃ r ∈ rows, Lists r d c t := by
  obtain ⟨out, h1, h2⟩ := reads_names other year hy ds hd rows fun r h => by
    obtain ⟨d, c, t, a, b⟩ := hr r h; exact ⟨d, c, t, reads_of_lists other a, b⟩
  refine ⟨out, h1, fun d c t => (h2 d c t).trans ⟨?_, ?_⟩⟩
  · rintro ⟨r, hrm, h⟩
    obtain ⟨k, m, u, a, -⟩ := hr r hrm
    exact ⟨r, hrm, lists_of_reads a h⟩
  · rintro ⟨r, hrm, h⟩
    exact ⟨r, hrm, reads_of_lists other h⟩

/-- C215: no file is made if and only if a record has a domain that is not in the table of domains. -/
theorem devcats_stops (other : Bytes → Option Int) (year : Bytes) (ds : List GenDomain) (hd : DomainTable ds) (rows : List DevRow) (hr : ∀ r ∈ rows, ∃ d c t, Lists r d c t) :
    devcatsGo other year ds rows = none ↔ ∃ r ∈ rows, ∃ d c t, Lists r d c t ∧ d ∉ ds.map (·.id) := by
  constructor
  · intro h
    by_contra hn
    push Not at hn
    obtain ⟨p, ps, -, -, e⟩ := devcatsGo_lines other year ds hd.1 rows fun r hrm => by
      obtain ⟨d, c, t, a⟩ := hr r hrm
      exact ⟨d, c, t, reads_of_lists other a, hn r hrm d c t a⟩
    rw [h] at e
    cases e
  · rintro ⟨r, hrm, d, c, t, h, hnot⟩
    rw [devcatsGo, data_unknown other rows _ ⟨r, hrm, ?_⟩]
    rintro ⟨g, hg, h1, -⟩
    rw [(reads_of_lists other h).2.2.1] at h1
    simp at h1
    apply hnot
    simp only [List.map_map, List.mem_map, Function.comp] at hg ⊢
    obtain ⟨x, hx, rfl⟩ := hg
    exact ⟨x, hx, h1.symm⟩

/-- C215: if no two records have the same category, no two lines of the file do, so that the map can be compiled. -/
theorem devcats_once (other : Bytes → Option Int) (year : Bytes) (hy : 0x0a#8 ∉ year) (ds : List GenDomain) (hd : DomainTable ds) (rows : List DevRow)
    (hr : ∀ r ∈ rows, ∃ d c t, Lists r d c t ∧ 0x0a#8 ∉ t ∧ d ∈ ds.map (·.id))
    (hp : rows.Pairwise fun r s => ∀ d c t u, Lists r d c t → ¬ Lists s d c u) (out : Bytes) (ho : devcatsGo other year ds rows = some out) (ls : List Bytes) (hl : LinesOf out ls) :
    ls.Pairwise fun a b => ∀ d c t u, NamesCategory a d c t → ¬ NamesCategory b d c u := by
  obtain ⟨p, ps, h1, h2, h3⟩ := devcatsGo_lines other year ds hd.1 rows fun r h => by
    obtain ⟨d, c, t, a, -, b⟩ := hr r h; exact ⟨d, c, t, reads_of_lists other a, b⟩
  have hi : ∀ q ∈ p :: ps, Ident q.1.var := fun q hq => (hd.2.1 q.1 (h1 ▸ List.mem_map_of_mem hq)).1
  have hnl := fileLines_newline other year hy ds hd rows (fun r h => by obtain ⟨d, c, t, a, b, -⟩ := hr r h; exact ⟨d, c, t, reads_of_lists other a, b⟩) p ps h1 h2
  rw [ho] at h3
  cases h3
  have hs := splitLines_unlines _ hnl
  rw [splitLines_of hl] at hs
  rw [hs]
  have quiet : ∀ l, (∀ s, l ≠ 0x20#8 :: 0x20#8 :: 0x7b#8 :: s) → ∀ d c t, ¬ NamesCategory l d c t := by
    intro l h d c t hn
    obtain ⟨s, hs⟩ := names_start hn
    exact h s hs
  have qend : ∀ d c t, ¬ NamesCategory (lit "}") d c t := quiet _ fun s e => absurd (congrArg List.length e) (by simp [lit])
  have qnil : ∀ d c t, ¬ NamesCategory [] d c t := quiet _ fun s e => by simp at e
  have qhead : ∀ l ∈ headLines year p ps, ∀ d c t, ¬ NamesCategory l d c t := fun l h => quiet l (headLines_silent year p ps hi l h)
  have hentry : (entryLines (p :: ps)).Pairwise fun a b => ∀ d c t u, NamesCategory a d c t → ¬ NamesCategory b d c u := by
    rw [h2, entryLines, List.flatMap_map, List.pairwise_flatMap]
    constructor
    · intro g hg
      rw [List.pairwise_map, List.pairwise_filterMap]
      refine hp.imp_of_mem ?_
      intro r s hrm hsm hrs x hx y hy' d c t u hn hn'
      obtain ⟨k, m, w, a, -, -⟩ := hr r hrm
      obtain ⟨k', m', w', a', -, -⟩ := hr s hsm
      obtain ⟨e1, rfl⟩ := (pick_reads (reads_of_lists other a) _ _).mp hx
      obtain ⟨e2, rfl⟩ := (pick_reads (reads_of_lists other a') _ _).mp hy'
      obtain ⟨b1, b2, -⟩ := (catLine_says g (hd.2.1 g hg).2 _ m a.2.1 rfl d c t).mp hn
      obtain ⟨b3, b4, -⟩ := (catLine_says g (hd.2.1 g hg).2 _ m' a'.2.1 rfl d c u).mp hn'
      subst e1 b1 b2 b4
      rw [← e2] at a'
      exact hrs _ _ _ _ a a'
    · have hnd := hd.2.2
      rw [List.nodup_iff_pairwise_ne, List.pairwise_map] at hnd
      refine hnd.imp_of_mem ?_
      intro g g' hg hg' hne x hx y hy' d c t u hn hn'
      obtain ⟨z, hz, rfl⟩ := List.mem_map.mp hx
      obtain ⟨z', hz', rfl⟩ := List.mem_map.mp hy'
      obtain ⟨r, hrm, hz⟩ := List.mem_filterMap.mp hz
      obtain ⟨s, hsm, hz'⟩ := List.mem_filterMap.mp hz'
      obtain ⟨k, m, w, a, -, -⟩ := hr r hrm
      obtain ⟨k', m', w', a', -, -⟩ := hr s hsm
      obtain ⟨e1, rfl⟩ := (pick_reads (reads_of_lists other a) _ _).mp hz
      obtain ⟨e2, rfl⟩ := (pick_reads (reads_of_lists other a') _ _).mp hz'
      obtain ⟨b1, -⟩ := (catLine_says g (hd.2.1 g hg).2 _ m a.2.1 rfl d c t).mp hn
      obtain ⟨b3, -⟩ := (catLine_says g' (hd.2.1 g' hg').2 _ m' a'.2.1 rfl d c u).mp hn'
      exact hne (b1.trans b3.symm)
  rw [List.pairwise_append, List.pairwise_append, List.pairwise_append]
  refine ⟨⟨⟨List.Pairwise.imp_of_mem (fun {a b} ha _ _ d c t u hn => absurd hn (qhead a ha d c t)) (List.pairwise_of_forall (R := fun _ _ => True) (fun _ _ => trivial)), hentry,
    fun a ha b _ d c t u hn => absurd hn (qhead a ha d c t)⟩, by simp, ?_⟩, by simp, ?_⟩
  · intro a _ b hb d c t u _ hn
    rw [List.mem_singleton.mp hb] at hn
    exact qend _ _ _ hn
  · intro a _ b hb d c t u _ hn
    rw [List.mem_singleton.mp hb] at hn
    exact qnil _ _ _ hn

/-- C215: the constants declared in the file are exactly the domains. -/
theorem devcats_constants (other : Bytes → Option Int) (year : Bytes) (hy : 0x0a#8 ∉ year) (ds : List GenDomain) (hd : DomainTable ds) (rows : List DevRow)
    (hr : ∀ r ∈ rows, ∃ d c t, Lists r d c t ∧ 0x0a#8 ∉ t ∧ d ∈ ds.map (·.id)) :
    ∃ out, devcatsGo other year ds rows = some out ∧ ∀ (name : Bytes) (v : Nat), (∃ l, HasLine out l ∧ DeclaresDomain l name v) ↔ ∃ d ∈ ds, d.var = name ∧ d.id = v := by
  obtain ⟨p, ps, h1, h2, h3⟩ := devcatsGo_lines other year ds hd.1 rows fun r h => by
    obtain ⟨d, c, t, a, -, b⟩ := hr r h; exact ⟨d, c, t, reads_of_lists other a, b⟩
  have hnl := fileLines_newline other year hy ds hd rows (fun r h => by obtain ⟨d, c, t, a, b, -⟩ := hr r h; exact ⟨d, c, t, reads_of_lists other a, b⟩) p ps h1 h2
  have hmem : ∀ q ∈ p :: ps, q.1 ∈ ds := fun q hq => h1 ▸ List.mem_map_of_mem hq
  have hsays : ∀ w : Bytes, (∀ b ∈ w, b = 0x20#8) → ∀ typ, (typ = [] ∨ typ = lit " Domain") → ∀ q ∈ p :: ps, ∀ name v,
      (DeclaresDomain (w ++ constant typ q.1) name v ↔ q.1.var = name ∧ q.1.id = v) := by
    intro w hw typ ht q hq name v
    exact constant_says w hw typ ht q.1 (hd.2.1 _ (hmem q hq)).1 (hd.2.1 _ (hmem q hq)).2 name v
  have hb2 : ∀ b ∈ lit "  ", b = 0x20#8 := by decide
  refine ⟨_, h3, fun name v => ?_⟩
  constructor
  · rintro ⟨l, hl, hn⟩
    have hnil : ∀ name v, ¬ DeclaresDomain [] name v := not_declares_start (by simp [strip])
    have hdone : ∀ q ∈ p :: ps, q.1.var = name ∧ q.1.id = v → ∃ d ∈ ds, d.var = name ∧ d.id = v := fun q hq h => ⟨q.1, hmem q hq, h⟩
    rcases (hasLine_unlines _ hnl l).mp hl with h | rfl
    · rcases List.mem_append.mp h with h | h
      · rcases List.mem_append.mp h with h | h
        · simp only [headLines, List.mem_append, List.mem_cons, List.not_mem_nil, or_false] at h
          rcases h with ((h | rfl | rfl | rfl | rfl | rfl | rfl) | h) | rfl | rfl | rfl
          · have : ∃ s, l = lit "// " ++ s := by
              simp only [Generator.license, List.mem_cons, List.not_mem_nil, or_false] at h
              rcases h with rfl | rfl | rfl | rfl | rfl | rfl | rfl | rfl | rfl | rfl | rfl | rfl | rfl
              all_goals exact ⟨_, rfl⟩
            obtain ⟨s, rfl⟩ := this
            exact absurd hn (not_declares_start (fun b r e => by
              obtain ⟨rfl, -⟩ := List.cons.inj (show 0x2f#8 :: _ = b :: r from e)
              decide) _ _)
          · exact absurd hn (hnil _ _)
          · exact absurd hn (hnil _ _)
          · exact absurd hn (not_declares_word (lit "package") (by decide) 0x20#8 (by decide) (lit "insteon") (by decide) (by decide) _ _)
          · exact absurd hn (hnil _ _)
          · exact absurd hn (not_declares_word (lit "const") (by decide) 0x28#8 (by decide) [] (by decide) (by decide) _ _)
          · exact hdone p (by simp) ((hsays _ hb2 _ (.inr rfl) p (by simp) name v).mp hn)
          · rcases ps with _ | ⟨q, qs⟩
            · simp only [constLines, List.mem_cons, List.not_mem_nil, or_false] at h
              subst h
              exact absurd hn (not_declares_start (fun b s e => by simp [strip, lit, ch] at e) _ _)
            · simp only [constLines, List.mem_append, List.mem_cons, List.not_mem_nil, or_false, List.mem_map] at h
              rcases h with rfl | ⟨x, hx, rfl⟩ | rfl
              · exact hdone q (by simp) ((hsays _ hb2 _ (.inl rfl) q (by simp) name v).mp hn)
              · exact hdone x (by simp [hx]) ((hsays [] (by simp) _ (.inl rfl) x (by simp [hx]) name v).mp hn)
              · exact absurd hn (hnil _ _)
          · exact absurd hn (not_declares_start (fun b r e => by
              obtain ⟨rfl, -⟩ := List.cons.inj (show 0x29#8 :: _ = b :: r from e)
              decide) _ _)
          · exact absurd hn (hnil _ _)
          · exact absurd hn (not_declares_word (lit "var") (by decide) 0x20#8 (by decide) (lit "devcatStrings = map[DevCat]string { ") (by decide) (by decide) _ _)
        · rw [h2, entry_mem] at h
          obtain ⟨g, hg, r, hrm, x, hx, rfl⟩ := h
          exact absurd hn (not_declares_start (fun b s e => by
            obtain ⟨rfl, -⟩ := List.cons.inj (show 0x7b#8 :: _ = b :: s from e)
            decide) _ _)
      · rw [List.mem_singleton.mp h] at hn
        exact absurd hn (not_declares_start (fun b r e => by
          obtain ⟨rfl, -⟩ := List.cons.inj (show 0x7d#8 :: _ = b :: r from e)
          decide) _ _)
    · exact absurd hn (hnil _ _)
  · rintro ⟨g, hg, rfl, rfl⟩
    rw [← h1] at hg
    obtain ⟨q, hq, rfl⟩ := List.mem_map.mp hg
    have key : ∀ l ∈ headLines year p ps, DeclaresDomain l q.1.var q.1.id → ∃ l, HasLine (unlines (headLines year p ps ++ entryLines (p :: ps) ++ [lit "}"])) l ∧ DeclaresDomain l q.1.var q.1.id :=
      fun l hl h => ⟨l, (hasLine_unlines _ hnl l).mpr (.inl (List.mem_append_left _ (List.mem_append_left _ hl))), h⟩
    rcases List.mem_cons.mp hq with rfl | hq'
    · refine key _ ?_ ((hsays _ hb2 _ (.inr rfl) q hq _ _).mpr ⟨rfl, rfl⟩)
      simp [headLines]
    · rcases ps with _ | ⟨x, xs⟩
      · simp at hq'
      · rcases List.mem_cons.mp hq' with rfl | hx
        · refine key _ ?_ ((hsays _ hb2 _ (.inl rfl) q hq _ _).mpr ⟨rfl, rfl⟩)
          simp [headLines, constLines]
        · refine key _ ?_ ((hsays [] (by simp) _ (.inl rfl) q hq _ _).mpr ⟨rfl, rfl⟩)
          simp only [headLines, constLines, List.mem_append, List.mem_cons, List.mem_map, List.nil_append]
          exact .inl (.inr (.inr (.inl ⟨q, hx, rfl⟩)))

/-- C215: if the domains have different names, no two lines of the file declare the same constant. -/
theorem devcats_constants_once (other : Bytes → Option Int) (year : Bytes) (hy : 0x0a#8 ∉ year) (ds : List GenDomain) (hd : DomainTable ds) (hnd : (ds.map (·.var)).Nodup) (rows : List DevRow)
    (hr : ∀ r ∈ rows, ∃ d c t, Lists r d c t ∧ 0x0a#8 ∉ t ∧ d ∈ ds.map (·.id)) (out : Bytes) (ho : devcatsGo other year ds rows = some out) (ls : List Bytes) (hl : LinesOf out ls) :
    ls.Pairwise fun a b => ∀ name v w, DeclaresDomain a name v → ¬ DeclaresDomain b name w := by
  obtain ⟨p, ps, h1, h2, h3⟩ := devcatsGo_lines other year ds hd.1 rows fun r h => by
    obtain ⟨d, c, t, a, -, b⟩ := hr r h; exact ⟨d, c, t, reads_of_lists other a, b⟩
  have hnl := fileLines_newline other year hy ds hd rows (fun r h => by obtain ⟨d, c, t, a, b, -⟩ := hr r h; exact ⟨d, c, t, reads_of_lists other a, b⟩) p ps h1 h2
  rw [ho] at h3
  cases h3
  have hs := splitLines_unlines _ hnl
  rw [splitLines_of hl] at hs
  have hmem : ∀ q ∈ p :: ps, Ident q.1.var ∧ q.1.id < 256 := fun q hq => hd.2.1 _ (h1 ▸ List.mem_map_of_mem hq)
  rw [← h1, List.map_map, List.nodup_iff_pairwise_ne, List.pairwise_map, List.pairwise_cons] at hnd
  have hb2 : ∀ b ∈ lit "  ", b = 0x20#8 := by decide
  have both : ∀ w w' : Bytes, (∀ b ∈ w, b = 0x20#8) → (∀ b ∈ w', b = 0x20#8) → ∀ typ typ', (typ = [] ∨ typ = lit " Domain") → (typ' = [] ∨ typ' = lit " Domain") → ∀ q ∈ p :: ps, ∀ q' ∈ p :: ps,
      q.1.var ≠ q'.1.var → ∀ name v u, DeclaresDomain (w ++ constant typ q.1) name v → ¬ DeclaresDomain (w' ++ constant typ' q'.1) name u := by
    intro w w' hw hw' typ typ' ht ht' q hq q' hq' hne name v u hn hn'
    have a := ((constant_says w hw typ ht q.1 (hmem q hq).1 (hmem q hq).2 name v).mp hn).1
    have b := ((constant_says w' hw' typ' ht' q'.1 (hmem q' hq').1 (hmem q' hq').2 name u).mp hn').1
    exact hne (a.trans b.symm)
  have hconst : ((lit "  " ++ constant (lit " Domain") p.1) :: constLines ps).Pairwise fun a b => ∀ name v w, DeclaresDomain a name v → ¬ DeclaresDomain b name w := by
    rcases ps with _ | ⟨q, qs⟩
    · simp only [constLines, List.pairwise_cons, List.mem_singleton, forall_eq, List.not_mem_nil, false_implies, implies_true, List.Pairwise.nil, and_true]
      intro name v w _
      exact not_declares_start (fun b s e => by simp [strip, lit, ch] at e) _ _
    · have hq := hnd.2
      rw [List.pairwise_cons] at hq
      rw [constLines, List.pairwise_cons, List.pairwise_cons, List.pairwise_append, List.pairwise_map]
      refine ⟨?_, ?_, ?_, by simp, ?_⟩
      · intro l hl
        simp only [List.mem_cons, List.mem_append, List.mem_map, List.not_mem_nil, or_false] at hl
        rcases hl with rfl | ⟨x, hx, rfl⟩ | rfl
        · exact both _ _ hb2 hb2 _ _ (.inr rfl) (.inl rfl) p (by simp) q (by simp) (hnd.1 q (by simp))
        · exact both _ [] hb2 (by simp) _ _ (.inr rfl) (.inl rfl) p (by simp) x (by simp [hx]) (hnd.1 x (by simp [hx]))
        · exact fun name v w _ => quiet_nil name w
      · intro l hl
        simp only [List.mem_append, List.mem_map, List.mem_cons, List.not_mem_nil, or_false] at hl
        rcases hl with ⟨x, hx, rfl⟩ | rfl
        · exact both _ [] hb2 (by simp) _ _ (.inl rfl) (.inl rfl) q (by simp) x (by simp [hx]) (hq.1 x hx)
        · exact fun name v w _ => quiet_nil name w
      · refine hq.2.imp_of_mem ?_
        intro x y hx hy' hne
        exact both [] [] (by simp) (by simp) _ _ (.inl rfl) (.inl rfl) x (by simp [hx]) y (by simp [hy']) hne
      · intro a _ b hb name v w _
        rw [List.mem_singleton.mp hb]
        exact quiet_nil name w
  rw [hs, show headLines year p ps ++ entryLines (p :: ps) ++ [lit "}"] ++ [[]] = (Generator.license year ++ [[], [], lit "package insteon", [], lit "const("]) ++
    (((lit "  " ++ constant (lit " Domain") p.1) :: constLines ps) ++ ([lit ")", [], lit "var devcatStrings = map[DevCat]string { "] ++ entryLines (p :: ps) ++ [lit "}"] ++ [[]])) by simp [headLines]]
  have free : ∀ xs : List Bytes, (∀ l ∈ xs, DevCats.Quiet l) → xs.Pairwise fun a b => ∀ name v w, DeclaresDomain a name v → ¬ DeclaresDomain b name w := by
    intro xs hx
    exact List.Pairwise.imp_of_mem (fun {a b} ha _ _ name v w hn => absurd hn (hx a ha name v)) (List.pairwise_of_forall (R := fun _ _ => True) (fun _ _ => trivial))
  refine List.pairwise_append.mpr ⟨free _ (quiet_before year), List.pairwise_append.mpr ⟨hconst, free _ (quiet_after _), fun a _ b hb name v w _ => quiet_after _ b hb name w⟩, fun a ha b _ name v w hn => absurd hn (quiet_before year a ha name v)⟩

/-- Two domains and their names. -/
def exDomains : List GenDomain := [⟨0x00, ascii "GeneralizeDomain", ascii "Generalized Controllers"⟩, ⟨0x10, ascii "SecurityDomain", ascii "Security, Health, Safety"⟩]

theorem ascii_trimmed (v t w : Bytes) (hv : White v) (hw : White w) (h : ∀ b u, t = b :: u → solid b = true) (h' : ∀ b u, t.reverse = b :: u → solid b = true) : Trimmed (v ++ t ++ w) t := by
  refine ⟨⟨v, w, hv, hw, rfl⟩, fun c hc => ⟨?_, ?_⟩⟩
  · rintro ⟨u, e⟩
    rcases t with _ | ⟨b, t⟩
    · exact utf8_ne_nil c (List.append_eq_nil_iff.mp e).1
    · exact absurd (spaceLen_solid (h b t rfl) t) (by
        rw [← e, spaceLen_white hc]
        exact fun h0 => utf8_ne_nil c (List.length_eq_zero_iff.mp h0))
  · rintro ⟨u, e⟩
    have e' := congrArg List.reverse e
    rw [List.reverse_append] at e'
    rcases ht : t.reverse with _ | ⟨b, s⟩
    · rw [ht] at e'
      exact utf8_ne_nil c (by simpa using (List.append_eq_nil_iff.mp e').1)
    · have := lastSpaceLen_solid (h' b s ht) s
      rw [← ht, ← e', lastSpaceLen_white hc] at this
      exact utf8_ne_nil c (List.length_eq_zero_iff.mp this)

theorem numeral_00 : HexNumeral (ascii "00") 0 := (hexNumeral_iff _ _).mpr ⟨by decide, [0, 0], by decide, by decide⟩

theorem numeral_1A : HexNumeral (ascii "1A") 0x1a := (hexNumeral_iff _ _).mpr ⟨by decide, [1, 10], by decide, by decide⟩

/-- A record of the project's table: a byte order mark before it and a non-breaking space at its end. -/
def exRow : DevRow := ⟨utf8 0xfeff ++ ascii "0x00", ascii "0x1A", ascii "2342-222", ascii "Mini Remote" ++ utf8 0xa0⟩

theorem exRow_lists : Lists exRow 0x00 0x1a (ascii "Mini Remote") := by
  refine ⟨by decide, by decide, ⟨ascii "00", numeral_00, .inr rfl⟩, ⟨ascii "1A", numeral_1A, .inl rfl⟩, ?_⟩
  exact ascii_trimmed [] (ascii "Mini Remote") (utf8 0xa0) ⟨[], by simp, rfl⟩ ⟨[0xa0], by decide, rfl⟩
    (fun b u e => by obtain ⟨rfl, -⟩ := List.cons.inj (show 0x4d#8 :: _ = b :: u from e); decide)
    (fun b u e => by obtain ⟨rfl, -⟩ := List.cons.inj (show 0x65#8 :: _ = b :: u from e); decide)

example : DomainTable exDomains ∧ Lists exRow 0x00 0x1a (ascii "Mini Remote") ∧ PlainText (ascii "Mini Remote") := ⟨by decide, exRow_lists, by decide⟩

/-- The file made of it names the category. -/
example (other : Bytes → Option Int) : ∃ out l, devcatsGo other (ascii "2021") exDomains [exRow] = some out ∧ HasLine out l ∧ NamesCategory l 0x00 0x1a (ascii "Mini Remote") := by
  obtain ⟨out, h1, h2⟩ := devcats_names_partial other (ascii "2021") (by decide) exDomains (by decide) [exRow] (by
    simp only [List.mem_singleton, forall_eq]
    exact ⟨_, _, _, exRow_lists, by decide, by decide⟩)
  obtain ⟨l, h⟩ := (h2 _ _ _).mpr ⟨exRow, by simp, exRow_lists⟩
  exact ⟨out, l, h1, h⟩

/-- A category with an ampersand in its name. -/
def exAmpersand : DevRow := ⟨ascii "0x00", ascii "0x1A", [], ascii "Fan & Light"⟩

/-- C215 in full is false of the code: the template is made for HTML, so that a name with an ampersand comes out different, although it needs no escape in a Go string. -/
theorem devcats_names_refuted :
    ¬ ∀ (other : Bytes → Option Int) (year : Bytes) (ds : List GenDomain) (rows : List DevRow), 0x0a#8 ∉ year → DomainTable ds →
      (∀ r ∈ rows, ∃ d c t, Lists r d c t ∧ 0x0a#8 ∉ t ∧ 0x22#8 ∉ t ∧ 0x5c#8 ∉ t ∧ d ∈ ds.map (·.id)) →
      ∃ out, devcatsGo other year ds rows = some out ∧ ∀ r ∈ rows, ∀ d c t, Lists r d c t → ∃ l, HasLine out l ∧ NamesCategory l d c t := by
  intro h
  have hl : Lists exAmpersand 0x00 0x1a (ascii "Fan & Light") := by
    refine ⟨by decide, by decide, ⟨ascii "00", numeral_00, .inl rfl⟩, ⟨ascii "1A", numeral_1A, .inl rfl⟩, ?_⟩
    have := ascii_trimmed [] (ascii "Fan & Light") [] ⟨[], by simp, rfl⟩ ⟨[], by simp, rfl⟩
      (fun b u e => by obtain ⟨rfl, -⟩ := List.cons.inj (show 0x46#8 :: _ = b :: u from e); decide)
      (fun b u e => by obtain ⟨rfl, -⟩ := List.cons.inj (show 0x74#8 :: _ = b :: u from e); decide)
    simpa [exAmpersand] using this
  have hd : DomainTable exDomains := by decide
  obtain ⟨out, ho, hn⟩ := h (fun _ => none) [] exDomains [exAmpersand] (by simp) hd (by
    simp only [List.mem_singleton, forall_eq]
    exact ⟨_, _, _, hl, by decide, by decide, by decide, by decide⟩)
  obtain ⟨l, hl1, hl2⟩ := hn exAmpersand (by simp) _ _ _ hl
  have hR : ∀ r ∈ [exAmpersand], ∃ d c t, Reads (fun _ => none) r d c t ∧ 0x0a#8 ∉ t ∧ d ∈ exDomains.map (·.id) := by
    simp only [List.mem_singleton, forall_eq]
    exact ⟨_, _, _, reads_of_lists _ hl, by decide, by decide⟩
  obtain ⟨p, ps, h1, h2, h3⟩ := devcatsGo_lines (fun _ => none) [] exDomains hd.1 [exAmpersand] fun r hr => by
    obtain ⟨d, c, t, a, -, b⟩ := hR r hr; exact ⟨d, c, t, a, b⟩
  have hnl := fileLines_newline (fun _ => none) [] (by simp) exDomains hd [exAmpersand] (fun r hr => by obtain ⟨d, c, t, a, b, -⟩ := hR r hr; exact ⟨d, c, t, a, b⟩) p ps h1 h2
  have hi : ∀ q ∈ p :: ps, Ident q.1.var := fun q hq => (hd.2.1 q.1 (h1 ▸ List.mem_map_of_mem hq)).1
  rw [ho] at h3
  cases h3
  rcases (hasLine_unlines _ hnl l).mp hl1 with h | rfl
  · rcases List.mem_append.mp h with h | h
    · rcases List.mem_append.mp h with h | h
      · obtain ⟨s, hs⟩ := names_start hl2
        exact headLines_silent [] p ps hi l h s hs
      · rw [h2, entry_mem] at h
        obtain ⟨g, hg, r, hrm, x, hx, rfl⟩ := h
        rw [List.mem_singleton.mp hrm] at hx
        obtain ⟨-, rfl⟩ := (pick_reads (reads_of_lists _ hl) _ _).mp hx
        obtain ⟨-, -, a3, -⟩ := (catLine_says g (hd.2.1 g hg).2 _ 0x1a (by decide) rfl _ _ _).mp hl2
        exact absurd a3 (by decide)
    · obtain ⟨s, hs⟩ := names_start hl2
      rw [List.mem_singleton.mp h] at hs
      exact absurd (congrArg List.length hs) (by simp [lit])
  · obtain ⟨s, hs⟩ := names_start hl2
    simp at hs

end Insteon
