import Verif.Model.Csv
import Verif.Spec.Csv

/-
C216: a table in a file is read as it was written.
-/

namespace Insteon
namespace Csv
open Spec

/-- What `readLine` returns, nothing at the end of the file. -/
def rl (s : Bytes) : Bytes × Bytes := (normal (takeLine s).1, (takeLine s).2)

theorem readLine_rl (s : Bytes) (h : s ≠ []) : readLine s = some (rl s) := by simp [readLine, h, rl]

theorem rl_cons (b : Byte) (s : Bytes) (h1 : b ≠ 0x0a#8) (h2 : b ≠ 0x0d#8) : rl (b :: s) = (b :: (rl s).1, (rl s).2) := by
  simp [rl, takeLine, normal, h1, h2]

theorem rl_append (p s : Bytes) (h1 : 0x0a#8 ∉ p) (h2 : 0x0d#8 ∉ p) : rl (p ++ s) = (p ++ (rl s).1, (rl s).2) := by
  induction p with
  | nil => simp
  | cons b p ih =>
    simp only [List.mem_cons, not_or] at h1 h2
    rw [List.cons_append, rl_cons _ _ (Ne.symm h1.1) (Ne.symm h2.1), ih h1.2 h2.2]
    simp

theorem rl_lf (s : Bytes) : rl (0x0a#8 :: s) = ([0x0a#8], s) := by simp [rl, takeLine, normal]

theorem rl_end {e : Bytes} (h : LineEnd e) (s : Bytes) : rl (e ++ s) = ([0x0a#8], s) := by
  rcases h with rfl | rfl
  · exact rl_lf s
  · simp [rl, takeLine, normal]

/-- What follows a row: a line end or the end of the file. -/
def Ends (T T' : Bytes) : Prop := rl T = ([0x0a#8], T') ∨ (rl T = ([], T') ∧ T' = [])

theorem tw_all (p : Bytes) (c : Byte) (h : c ∉ p) : p.takeWhile (fun b => b ≠ c) = p := by
  induction p with
  | nil => simp
  | cons b p ih =>
    simp only [List.mem_cons, not_or] at h
    rw [List.takeWhile_cons_of_pos (by simpa using Ne.symm h.1), ih h.2]

theorem dw_all (p : Bytes) (c : Byte) (h : c ∉ p) : p.dropWhile (fun b => b ≠ c) = [] := by
  induction p with
  | nil => simp
  | cons b p ih =>
    simp only [List.mem_cons, not_or] at h
    rw [List.dropWhile_cons_of_pos (by simpa using Ne.symm h.1), ih h.2]

theorem tw_stop (p s : Bytes) (c : Byte) (h : c ∉ p) : (p ++ c :: s).takeWhile (fun b => b ≠ c) = p := by
  induction p with
  | nil => simp
  | cons b p ih =>
    simp only [List.mem_cons, not_or] at h
    have := ih h.2
    simp_all [Ne.symm h.1]

theorem dw_stop (p s : Bytes) (c : Byte) (h : c ∉ p) : (p ++ c :: s).dropWhile (fun b => b ≠ c) = c :: s := by
  induction p with
  | nil => simp
  | cons b p ih =>
    simp only [List.mem_cons, not_or] at h
    have := ih h.2
    simp_all [Ne.symm h.1]

theorem parse_quoted_step (fuel : Nat) (q : Bytes) (b : Byte) (L rest : Bytes) (fields : List Bytes) (hb : b ≠ 0x22#8) (hL : L ≠ []) :
    parse (fuel + 1) (some q) (b :: L) rest fields = parse (fuel + 1) (some (q ++ [b])) L rest fields := by
  simp only [parse]
  rw [List.takeWhile_cons_of_pos (by simpa using hb), List.dropWhile_cons_of_pos (by simpa using hb)]
  simp [hL]

theorem rl_ne (b : Byte) (s : Bytes) (h2 : b ≠ 0x0d#8) : (rl (b :: s)).1 ≠ [] := by
  by_cases h : b = 0x0a#8
  · subst h; simp [rl_lf]
  · simp [rl_cons b s h h2]

theorem doubled_front (f K : Bytes) (h : 0x0d#8 ∉ f) : ∃ b s, doubled f ++ 0x22#8 :: K = b :: s ∧ b ≠ 0x0d#8 := by
  cases f with
  | nil => exact ⟨_, _, rfl, by decide⟩
  | cons b f =>
    simp only [List.mem_cons, not_or] at h
    by_cases hb : b = 0x22#8
    · subst hb; exact ⟨_, _, by simp [doubled]; exact ⟨rfl, rfl⟩, by decide⟩
    · exact ⟨b, _, by simp [doubled, hb]; rfl, Ne.symm h.1⟩

theorem parse_quoted (K : Bytes) (fields : List Bytes) (m : Nat) (x : Option (Out (List Bytes × Bytes))) (f : Bytes) :
    ∀ (q : Bytes) (fuel : Nat), 0x0d#8 ∉ f →
    (∀ fuel, m ≤ fuel → parse fuel (some (q ++ f)) (0x22#8 :: (rl K).1) (rl K).2 fields = x) → m + (doubled f).length ≤ fuel → 0 < m →
    parse fuel (some q) (rl (doubled f ++ 0x22#8 :: K)).1 (rl (doubled f ++ 0x22#8 :: K)).2 fields = x := by
  induction f with
  | nil =>
    intro q fuel _ hx hm _
    simp only [doubled, List.nil_append, List.append_nil] at hx ⊢
    rw [rl_cons _ _ (by decide) (by decide)]
    exact hx fuel (by simpa [doubled] using hm)
  | cons b f ih =>
    intro q fuel hr hx hm h0
    simp only [List.mem_cons, not_or] at hr
    obtain ⟨c, s, hc, hcr⟩ := doubled_front f K hr.2
    have hne : (rl (doubled f ++ 0x22#8 :: K)).1 ≠ [] := by rw [hc]; exact rl_ne c s hcr
    have hne' : doubled f ++ 0x22#8 :: K ≠ [] := by simp
    have hx' : ∀ fuel, m ≤ fuel → parse fuel (some (q ++ [b] ++ f)) (0x22#8 :: (rl K).1) (rl K).2 fields = x := by
      intro fuel hf; simpa using hx fuel hf
    by_cases hb : b = 0x22#8
    · subst hb
      simp only [doubled, if_true, List.length_cons, List.cons_append] at hm ⊢
      rw [rl_cons _ _ (by decide) (by decide), rl_cons _ _ (by decide) (by decide)]
      obtain ⟨k, rfl⟩ : ∃ k, fuel = k + 1 := ⟨fuel - 1, by omega⟩
      have := ih (q ++ [0x22#8]) k hr.2 hx' (by omega) h0
      simpa [parse] using this
    · simp only [doubled, if_neg hb, List.length_cons, List.cons_append] at hm ⊢
      by_cases hl : b = 0x0a#8
      · subst hl
        rw [rl_lf]
        obtain ⟨k, rfl⟩ : ∃ k, fuel = k + 1 := ⟨fuel - 1, by omega⟩
        have := ih (q ++ [0x0a#8]) k hr.2 hx' (by omega) h0
        simpa [parse, readLine_rl _ hne'] using this
      · rw [rl_cons _ _ hl (Ne.symm hr.1)]
        obtain ⟨k, rfl⟩ : ∃ k, fuel = k + 1 := ⟨fuel - 1, by omega⟩
        rw [parse_quoted_step k q b _ _ fields hb hne]
        exact ih (q ++ [b]) (k + 1) hr.2 hx' (by omega) h0

theorem parse_row {r : List Bytes} {t : Bytes} (h : WritesRow r t) : ∀ (T T' : Bytes), Ends T T' → ∀ (fuel : Nat) (fields : List Bytes), t.length + 1 ≤ fuel →
    parse fuel none (rl (t ++ T)).1 (rl (t ++ T)).2 fields = some (.ok (fields ++ r, T')) := by
  induction h with
  | @last f t hf =>
    intro T T' hT fuel fields hfuel
    obtain ⟨k, rfl⟩ : ∃ k, fuel = k + 1 := ⟨fuel - 1, by omega⟩
    cases hf with
    | plain h =>
      rw [rl_append _ _ h.2.2.1 h.2.2.2]
      rcases hT with hT | ⟨hT, h0⟩
      · rw [hT]
        have hh : (f ++ [0x0a#8]).head? ≠ some 0x22#8 := by
          cases f with
          | nil => simp
          | cons b f => simp only [List.mem_cons, not_or] at h; simpa using fun e => h.2.1.1 e.symm
        have hc : 0x2c#8 ∉ f ++ [0x0a#8] := by simp [h.1]
        simp only [parse, hh, if_false]
        rw [tw_all _ _ hc, dw_all _ _ hc]
        simp [lengthNL, h.2.1]
      · rw [hT, h0]
        have hh : f.head? ≠ some 0x22#8 := by
          cases f with
          | nil => simp
          | cons b f => simp only [List.mem_cons, not_or] at h; simpa using fun e => h.2.1.1 e.symm
        have hl : f.getLast? ≠ some 0x0a#8 := fun e => h.2.2.1 (List.mem_of_getLast? e)
        simp only [parse, List.append_nil, hh, if_false]
        rw [tw_all _ _ h.1, dw_all _ _ h.1]
        simp [lengthNL, h.2.1, hl]
    | quoted h =>
      rw [List.append_assoc, List.cons_append, rl_cons _ _ (by decide) (by decide)]
      simp only [parse, List.head?_cons, if_true, List.tail_cons, List.cons_append, List.nil_append]
      refine parse_quoted T fields 1 _ f [] k h (fun fuel hf => ?_) (by simp at hfuel; omega) (by omega)
      obtain ⟨j, rfl⟩ : ∃ j, fuel = j + 1 := ⟨fuel - 1, by omega⟩
      rcases hT with hT | ⟨hT, h0⟩
      · simp [hT, parse, lengthNL]
      · simp [hT, h0, parse, lengthNL]
  | @more f t fs ts hf hs ih =>
    intro T T' hT fuel fields hfuel
    obtain ⟨k, rfl⟩ : ∃ k, fuel = k + 1 := ⟨fuel - 1, by omega⟩
    have ih' := ih T T' hT
    rw [List.append_assoc, List.cons_append]
    cases hf with
    | plain h =>
      rw [rl_append _ _ h.2.2.1 h.2.2.2, rl_cons _ _ (by decide) (by decide)]
      have hh : (f ++ 0x2c#8 :: (rl (ts ++ T)).1).head? ≠ some 0x22#8 := by
        cases f with
        | nil => simp
        | cons b f => simp only [List.mem_cons, not_or] at h; simpa using fun e => h.2.1.1 e.symm
      simp only [parse, hh, if_false]
      rw [tw_stop _ _ _ h.1, dw_stop _ _ _ h.1]
      simp only [h.2.1, if_false]
      rw [ih' k (fields ++ [f]) (by simp at hfuel; omega)]
      simp
    | quoted h =>
      have e : 0x22#8 :: doubled f ++ [0x22#8] ++ 0x2c#8 :: (ts ++ T) = 0x22#8 :: (doubled f ++ 0x22#8 :: 0x2c#8 :: (ts ++ T)) := by simp
      rw [e, rl_cons _ _ (by decide) (by decide)]
      simp only [parse, List.head?_cons, if_true, List.tail_cons]
      refine parse_quoted (0x2c#8 :: (ts ++ T)) fields (ts.length + 2) _ f [] k h (fun fuel hf => ?_) (by simp at hfuel; omega) (by omega)
      obtain ⟨j, rfl⟩ : ∃ j, fuel = j + 1 := ⟨fuel - 1, by omega⟩
      rw [rl_cons _ _ (by decide) (by decide)]
      have := ih' j (fields ++ [f]) (by omega)
      simpa [parse] using this

theorem row_front {r : List Bytes} {t : Bytes} (h : WritesRow r t) (h2 : 2 ≤ r.length) : ∃ b s, t = b :: s ∧ b ≠ 0x0a#8 ∧ b ≠ 0x0d#8 := by
  cases h with
  | last h => simp at h2
  | @more f t fs ts hf hs =>
    cases hf with
    | plain h =>
      cases f with
      | nil => exact ⟨_, _, rfl, by decide, by decide⟩
      | cons b f =>
        simp only [List.mem_cons, not_or] at h
        exact ⟨b, _, rfl, Ne.symm h.2.2.1.1, Ne.symm h.2.2.2.1⟩
    | quoted h => exact ⟨_, _, rfl, by decide, by decide⟩

theorem not_blank (b : Byte) (l : Bytes) (hb : b ≠ 0x0a#8) : (b :: l).length ≠ lengthNL (b :: l) := by
  cases l with
  | nil => simp [lengthNL, hb]
  | cons c l => unfold lengthNL; split <;> simp

theorem records_row {r : List Bytes} {t T T' : Bytes} (h : WritesRow r t) (n : Nat) (h2 : 2 ≤ r.length) (hT : Ends T T') (hn : n = 0 ∨ n = r.length) (fuel : Nat) :
    records (fuel + 1) n (t ++ T) = match records fuel r.length T' with
      | some (.ok rs) => some (.ok (r :: rs))
      | x => x := by
  obtain ⟨b, s, rfl, hb1, hb2⟩ := row_front h h2
  have hp := parse_row h T T' hT ((b :: s ++ T).length + 1) [] (by simp)
  have hne : ¬ (rl (b :: s ++ T)).1.length = lengthNL (rl (b :: s ++ T)).1 := by
    rw [List.cons_append, rl_cons _ _ hb1 hb2]; exact not_blank b _ hb1
  have hr : readLine (b :: s ++ T) = some (rl (b :: s ++ T)) := readLine_rl _ (by simp)
  rw [records, hr]
  simp only [hne, if_false, hp, List.nil_append]
  rw [if_neg (by rcases hn with rfl | rfl <;> simp)]
  rfl

/-- C216: rows written with commas, quotes and line ends are read as they were. -/
theorem csv_reads {rows : List (List Bytes)} {text : Bytes} (h : WritesTable rows text) (n : Nat) (hn : ∀ r ∈ rows, r.length = n) (h2 : 2 ≤ n) :
    read text = some (.ok rows) := by
  suffices H : ∀ (k fuel : Nat), (k = 0 ∨ k = n) → text.length + 1 ≤ fuel → records fuel k text = some (.ok rows) from H 0 _ (.inl rfl) (Nat.le_refl _)
  induction h with
  | none =>
    intro k fuel _ hf
    obtain ⟨j, rfl⟩ : ∃ j, fuel = j + 1 := ⟨fuel - 1, by omega⟩
    simp [records, readLine]
  | @blank rs e ts he hs ih =>
    intro k fuel hk hf
    obtain ⟨j, rfl⟩ : ∃ j, fuel = j + 1 := ⟨fuel - 1, by omega⟩
    have hne : e ++ ts ≠ [] := by rcases he with rfl | rfl <;> simp
    have hl : 1 ≤ e.length := by rcases he with rfl | rfl <;> simp
    rw [records, readLine_rl _ hne, rl_end he]
    simp only [lengthNL]
    simpa using ih hn k j hk (by simp at hf; omega)
  | @row r rs t e ts h he hs ih =>
    intro k fuel hk hf
    obtain ⟨j, rfl⟩ : ∃ j, fuel = j + 1 := ⟨fuel - 1, by omega⟩
    have hr : r.length = n := hn r (by simp)
    rw [List.append_assoc, records_row (T' := ts) h k (by omega) (.inl (rl_end he ts)) (by omega), ih (fun r' h' => hn r' (by simp [h'])) r.length j (.inr hr) (by
      have : 1 ≤ e.length := by rcases he with rfl | rfl <;> simp
      simp at hf; omega)]
  | @final r t h =>
    intro k fuel hk hf
    obtain ⟨j, rfl⟩ : ∃ j, fuel = j + 1 := ⟨fuel - 1, by omega⟩
    have hr : r.length = n := hn r (by simp)
    obtain ⟨b, s, ht, _, _⟩ := row_front h (by omega)
    have := records_row (T := []) (T' := []) h k (by omega) (.inr ⟨rfl, rfl⟩) (by omega) j
    rw [List.append_nil] at this
    rw [this]
    obtain ⟨i, rfl⟩ : ∃ i, j = i + 1 := ⟨j - 1, by subst ht; simp at hf; omega⟩
    simp [records, readLine]

/-- `csv_reads` on two rows with a quoted comma, doubled quotes, a line end within quotes, an empty line and no last line end. -/
example : WritesTable [[[0x61#8, 0x2c#8, 0x22#8], [0x62#8]], [[], [0x0a#8]]]
    ([0x22#8, 0x61#8, 0x2c#8, 0x22#8, 0x22#8, 0x22#8, 0x2c#8, 0x62#8] ++ [0x0d#8, 0x0a#8] ++ ([0x0a#8] ++ [0x2c#8, 0x22#8, 0x0a#8, 0x22#8])) :=
  .row (.more (t := [0x22#8, 0x61#8, 0x2c#8, 0x22#8, 0x22#8, 0x22#8]) (.quoted (f := [0x61#8, 0x2c#8, 0x22#8]) (by decide)) (.last (.plain (by decide)))) (.inr rfl)
    (.blank (.inl rfl) (.final (.more (t := []) (.plain (by decide)) (.last (.quoted (f := [0x0a#8]) (by decide))))))

theorem records_short {r : List Bytes} {t T T' : Bytes} (h : WritesRow r t) (n : Nat) (h2 : 2 ≤ r.length) (hT : Ends T T') (hn : 0 < n) (hr : r.length ≠ n) (fuel : Nat) :
    records (fuel + 1) n (t ++ T) = some (.err (.other 62)) := by
  obtain ⟨b, s, rfl, hb1, hb2⟩ := row_front h h2
  have hp := parse_row h T T' hT ((b :: s ++ T).length + 1) [] (by simp)
  have hne : ¬ (rl (b :: s ++ T)).1.length = lengthNL (rl (b :: s ++ T)).1 := by
    rw [List.cons_append, rl_cons _ _ hb1 hb2]; exact not_blank b _ hb1
  have hl : readLine (b :: s ++ T) = some (rl (b :: s ++ T)) := readLine_rl _ (by simp)
  rw [records, hl]
  simp only [hne, if_false, hp, List.nil_append]
  rw [if_pos ⟨hn, hr⟩]

theorem records_uneven {rows : List (List Bytes)} {text : Bytes} (h : WritesTable rows text) (h2 : ∀ r ∈ rows, 2 ≤ r.length) :
    ∀ (n fuel : Nat), 0 < n → (∃ r ∈ rows, r.length ≠ n) → text.length + 1 ≤ fuel → records fuel n text = some (.err (.other 62)) := by
  induction h with
  | none => intro n fuel _ hr; simp at hr
  | @blank rs e ts he hs ih =>
    intro n fuel h0 hr hf
    obtain ⟨j, rfl⟩ : ∃ j, fuel = j + 1 := ⟨fuel - 1, by omega⟩
    have hne : e ++ ts ≠ [] := by rcases he with rfl | rfl <;> simp
    have hl : 1 ≤ e.length := by rcases he with rfl | rfl <;> simp
    rw [records, readLine_rl _ hne, rl_end he]
    simp only [lengthNL]
    simpa using ih h2 n j h0 hr (by simp at hf; omega)
  | @row r rs t e ts h he hs ih =>
    intro n fuel h0 hr hf
    obtain ⟨j, rfl⟩ : ∃ j, fuel = j + 1 := ⟨fuel - 1, by omega⟩
    have hr2 : 2 ≤ r.length := h2 r (by simp)
    rw [List.append_assoc]
    by_cases hn : r.length = n
    · obtain ⟨r', hm, hne⟩ := hr
      have hm' : r' ∈ rs := by
        rcases List.mem_cons.mp hm with rfl | hm
        · exact absurd hn hne
        · exact hm
      rw [records_row (T' := ts) h n hr2 (.inl (rl_end he ts)) (by omega), hn, ih (fun r' h' => h2 r' (by simp [h'])) n j h0 ⟨r', hm', hne⟩ (by
        have : 1 ≤ e.length := by rcases he with rfl | rfl <;> simp
        simp at hf; omega)]
    · exact records_short h n hr2 (.inl (rl_end he ts)) h0 hn j
  | @final r t h =>
    intro n fuel h0 hr hf
    obtain ⟨j, rfl⟩ : ∃ j, fuel = j + 1 := ⟨fuel - 1, by omega⟩
    have := records_short (T := []) (T' := []) h n (h2 r (by simp)) (.inr ⟨rfl, rfl⟩) h0 (by simpa using hr) j
    rwa [List.append_nil] at this

/-- C216: a table whose rows do not all have as many fields as the first is refused. -/
theorem csv_uneven {first : List Bytes} {rows : List (List Bytes)} {text : Bytes} (h : WritesTable (first :: rows) text) (h2 : ∀ r ∈ first :: rows, 2 ≤ r.length)
    (hne : ∃ r ∈ rows, r.length ≠ first.length) : ∃ e, read text = some (.err e) := by
  suffices H : ∀ (all : List (List Bytes)), WritesTable all text → all = first :: rows → ∀ fuel, text.length + 1 ≤ fuel → records fuel 0 text = some (.err (.other 62)) from
    ⟨_, H _ h rfl _ (Nat.le_refl _)⟩
  clear h
  intro all h
  induction h with
  | none => intro e; simp at e
  | @blank rs e ts he hs ih =>
    intro ea fuel hf
    obtain ⟨j, rfl⟩ : ∃ j, fuel = j + 1 := ⟨fuel - 1, by omega⟩
    have hn : e ++ ts ≠ [] := by rcases he with rfl | rfl <;> simp
    have hl : 1 ≤ e.length := by rcases he with rfl | rfl <;> simp
    rw [records, readLine_rl _ hn, rl_end he]
    simp only [lengthNL]
    simpa using ih ea j (by simp at hf; omega)
  | @row r rs t e ts h he hs ih =>
    intro ea fuel hf
    obtain ⟨rfl, rfl⟩ := List.cons.inj ea
    obtain ⟨j, rfl⟩ : ∃ j, fuel = j + 1 := ⟨fuel - 1, by omega⟩
    have hr2 : 2 ≤ r.length := h2 r (by simp)
    rw [List.append_assoc, records_row (T' := ts) h 0 hr2 (.inl (rl_end he ts)) (.inl rfl),
      records_uneven hs (fun r' h' => h2 r' (by simp [h'])) r.length j (by omega) hne (by
        have : 1 ≤ e.length := by rcases he with rfl | rfl <;> simp
        simp at hf; omega)]
  | @final r t h =>
    intro ea
    obtain ⟨rfl, rfl⟩ := List.cons.inj ea
    simp at hne

/-- `csv_uneven` on the rows `a,b` and `a,b,c`. -/
example : read [0x61#8, 0x2c#8, 0x62#8, 0x0a#8, 0x61#8, 0x2c#8, 0x62#8, 0x2c#8, 0x63#8] = some (.err (.other 62)) := by decide +kernel

theorem takeLine_length (s : Bytes) : (takeLine s).1.length + (takeLine s).2.length = s.length := by
  induction s with
  | nil => simp [takeLine]
  | cons b s ih =>
    rw [takeLine]
    split
    · simp; omega
    · simp; omega

theorem normal_length (s : Bytes) : (normal s).length ≤ s.length := by
  induction s with
  | nil => simp [normal]
  | cons b s ih =>
    rw [normal]
    split
    · simp
    · simpa using ih

theorem readLine_length {s line rest : Bytes} (h : readLine s = some (line, rest)) : line.length + rest.length ≤ s.length ∧ rest.length < s.length := by
  unfold readLine at h
  split at h
  · simp at h
  · rename_i hs
    simp only [Option.some.injEq, Prod.mk.injEq] at h
    obtain ⟨rfl, rfl⟩ := h
    have h1 := takeLine_length s
    have h2 := normal_length (takeLine s).1
    refine ⟨by omega, ?_⟩
    cases s with
    | nil => exact absurd rfl hs
    | cons b s =>
      have : 0 < (takeLine (b :: s)).1.length := by
        rw [takeLine]; split <;> simp
      omega

theorem dw_length (s : Bytes) (p : Byte → Bool) : (s.dropWhile p).length ≤ s.length := by
  induction s with
  | nil => simp
  | cons b s ih =>
    rw [List.dropWhile_cons]
    split
    · simp; omega
    · simp

/-- What every call of `parse` with enough fuel gives. -/
theorem parse_total (fuel : Nat) : ∀ (q : Option Bytes) (line rest : Bytes) (fields : List Bytes), line.length + rest.length < fuel →
    (∃ e, parse fuel q line rest fields = some (.err e)) ∨
      ∃ r rest', parse fuel q line rest fields = some (.ok (r, rest')) ∧ fields.length < r.length ∧ rest'.length ≤ rest.length := by
  induction fuel with
  | zero => intro q line rest fields h; omega
  | succ fuel ih =>
    intro q line rest fields h
    cases q with
    | none =>
      rw [parse]
      split
      · rename_i hq
        cases line with
        | nil => simp at hq
        | cons b line =>
          exact ih (some []) line rest fields (by simp at h; omega)
      · dsimp only
        have hd := dw_length line (fun b => b ≠ 0x2c#8)
        split
        · split
          · exact .inl ⟨_, rfl⟩
          · exact .inr ⟨_, _, rfl, by simp, Nat.le_refl _⟩
        · rename_i c l e
          rw [e] at hd
          split
          · exact .inl ⟨_, rfl⟩
          · rcases ih none l rest (fields ++ [line.takeWhile (fun b => b ≠ 0x2c#8)]) (by simp at hd; omega) with h' | ⟨r, rest', h', h1, h2⟩
            · exact .inl h'
            · exact .inr ⟨r, rest', h', by simp at h1; omega, h2⟩
    | some q =>
      rw [parse]
      have hd := dw_length line (fun b => b ≠ 0x22#8)
      split
      · split
        · exact .inl ⟨_, rfl⟩
        · rename_i hl
          have hl : 0 < line.length := List.length_pos_iff.mpr hl
          split
          · rename_i l r e
            have := readLine_length e
            rcases ih (some (q ++ line.takeWhile (fun b => b ≠ 0x22#8))) l r fields (by omega) with h' | ⟨r, rest', h', h1, h2⟩
            · exact .inl h'
            · exact .inr ⟨r, rest', h', h1, by omega⟩
          · rcases ih (some (q ++ line.takeWhile (fun b => b ≠ 0x22#8))) [] [] fields (by simp; omega) with h' | ⟨r, rest', h', h1, h2⟩
            · exact .inl h'
            · exact .inr ⟨r, rest', h', h1, by simp at h2; simp [h2]⟩
      · rename_i c l e
        rw [e] at hd
        simp only [List.length_cons] at hd
        have ht : l.tail.length ≤ l.length := by simp
        split
        · exact ih _ l.tail rest fields (by omega)
        · split
          · rcases ih none l.tail rest (fields ++ [q ++ line.takeWhile (fun b => b ≠ 0x22#8)]) (by omega) with h' | ⟨r, rest', h', h1, h2⟩
            · exact .inl h'
            · exact .inr ⟨r, rest', h', by simp at h1; omega, h2⟩
          · split
            · exact .inr ⟨_, _, rfl, by simp, Nat.le_refl _⟩
            · exact .inl ⟨_, rfl⟩

theorem records_total (fuel : Nat) : ∀ (n : Nat) (s : Bytes), s.length < fuel → (∃ e, records fuel n s = some (.err e)) ∨
    ∃ rows, records fuel n s = some (.ok rows) ∧ ∃ k, (0 < n → k = n) ∧ 0 < k ∧ ∀ r ∈ rows, r.length = k := by
  induction fuel with
  | zero => intro n s h; omega
  | succ fuel ih =>
    intro n s h
    rw [records]
    split
    · refine .inr ⟨_, rfl, if n = 0 then 1 else n, ?_, ?_, by simp⟩
      · intro h; rw [if_neg (by omega)]
      · split <;> omega
    · rename_i line rest e
      have hl := readLine_length e
      split
      · exact ih n rest (by omega)
      · rcases parse_total (s.length + 1) none line rest [] (by omega) with ⟨e, h'⟩ | ⟨r, rest', h', h1, h2⟩
        · rw [h']; exact .inl ⟨_, rfl⟩
        · rw [h']
          simp only [List.length_nil] at h1
          dsimp only
          split
          · exact .inl ⟨_, rfl⟩
          · rename_i hc
            rcases ih r.length rest' (by omega) with ⟨e, h'⟩ | ⟨rows, h', k, hk, h0, hr⟩
            · rw [h']; exact .inl ⟨_, rfl⟩
            · rw [h']
              have hk := hk h1
              refine .inr ⟨_, rfl, k, fun hn => ?_, h0, ?_⟩
              · have : ¬ r.length ≠ n := fun hne => hc ⟨hn, hne⟩
                omega
              · intro r' hr'
                rcases List.mem_cons.mp hr' with rfl | hr'
                · exact hk.symm
                · exact hr r' hr'

/-- C216: reading any file ends, with an error or with rows that all have the same number of fields, at least one. -/
theorem csv_ends (text : Bytes) : (∃ e, read text = some (.err e)) ∨ ∃ rows, read text = some (.ok rows) ∧ ∃ n, 0 < n ∧ ∀ r ∈ rows, r.length = n := by
  rcases records_total (text.length + 1) 0 text (by omega) with h | ⟨rows, h, k, _, h0, hr⟩
  · exact .inl h
  · exact .inr ⟨rows, h, k, h0, hr⟩

/-- `csv_ends` on a file with a quote that is not closed. -/
example : read [0x61#8, 0x2c#8, 0x22#8, 0x62#8, 0x0a#8] = some (.err (.other 61)) := by decide +kernel

/-- `csv_ends` on a file of one row. -/
example : read [0x61#8, 0x2c#8, 0x62#8, 0x0d#8, 0x0a#8] = some (.ok [[[0x61#8], [0x62#8]]]) := by decide +kernel

end Csv
end Insteon
