import Verif.Props.Device

/-
Properties C46 - C51: the message cache and the filters.
-/

namespace Insteon
open Spec

/-! ### C46 -/

namespace Cache
variable {α : Type}

/-- The cache's contents, newest first. -/
def recent (c : Cache α) : List α := (c.msgs.take (c.i + 1)).reverse ++ (c.msgs.drop (c.i + 1)).reverse

/-- The index is right: that of the last element while filling up, anything inside when full. -/
def wf (c : Cache α) : Prop :=
  0 < c.cap ∧ c.msgs.length ≤ c.cap ∧
    (c.msgs = [] → c.i = 0) ∧ (c.msgs ≠ [] → c.i < c.msgs.length) ∧
    (c.msgs.length < c.cap → c.msgs ≠ [] → c.i + 1 = c.msgs.length)

theorem recent_length (c : Cache α) : c.recent.length = c.msgs.length := by
  simp [recent]; omega

theorem new_wf (size : Nat) (ms : List α) (h : 0 < size ∨ ms ≠ []) :
    (new size ms).wf ∧ (new size ms).recent = ms.reverse ∧ (new size ms).cap = max size ms.length := by
  have hcap : (new size ms).cap = max size ms.length := by
    simp only [new]; split_ifs <;> omega
  refine ⟨⟨?_, ?_, ?_, ?_, ?_⟩, ?_, hcap⟩
  · rw [hcap]
    rcases h with h | h
    · omega
    · have := List.length_pos_iff.mpr h; omega
  · rw [hcap]; simp [new]
  · intro h0
    have : ms = [] := h0
    simp [new, this]
  · intro h0
    have : ms ≠ [] := h0
    have := List.length_pos_iff.mpr this
    simp only [new]; omega
  · intro _ h0
    have : ms ≠ [] := h0
    have := List.length_pos_iff.mpr this
    simp only [new]; omega
  · have h1 : ms.length ≤ ms.length - 1 + 1 := by omega
    simp [recent, new, List.take_of_length_le h1, List.drop_of_length_le h1]

theorem push_wf (c : Cache α) (h : c.wf) (m : α) :
    ∃ c', c.push (some m) = .ok c' ∧ c'.wf ∧ c'.cap = c.cap ∧ c'.recent = (m :: c.recent).take c.cap := by
  obtain ⟨msgs, cap, i⟩ := c
  obtain ⟨h0, h1, h2, h3, h4⟩ := h
  dsimp only at h0 h1 h2 h3 h4
  unfold push
  dsimp only
  by_cases hn : msgs = []
  · subst hn
    have := h2 rfl
    subst this
    simp only [List.length_nil, lt_irrefl, if_false, h0, if_true]
    refine ⟨_, rfl, ⟨h0, ?_, by simp, by simp, by simp⟩, rfl, ?_⟩
    · show 1 ≤ cap; omega
    · obtain ⟨k, rfl⟩ : ∃ k, cap = k + 1 := ⟨cap - 1, by omega⟩
      simp [recent]
  · have hpos := List.length_pos_iff.mpr hn
    have hi := h3 hn
    rw [if_pos hpos]
    by_cases hf : msgs.length < cap
    · have he := h4 hf hn
      rw [if_pos hf]
      refine ⟨_, rfl, ⟨h0, ?_, by simp, fun _ => ?_, fun _ _ => ?_⟩, rfl, ?_⟩
      · simp; omega
      · simp; omega
      · simp; omega
      · have hr : (⟨msgs, cap, i⟩ : Cache α).recent = msgs.reverse := by
          simp only [recent]
          rw [List.take_of_length_le (by omega), List.drop_of_length_le (by omega)]
          simp
        rw [hr, List.take_of_length_le (by simp; omega)]
        simp only [recent]
        rw [List.take_of_length_le (by simp; omega), List.drop_of_length_le (by simp; omega)]
        simp
    · have hc : cap = msgs.length := by omega
      subst hc
      rw [if_neg hf]
      set k := if i + 1 = msgs.length then 0 else i + 1 with hk
      have hklt : k < msgs.length := by rw [hk]; split_ifs <;> omega
      rw [if_pos hklt]
      refine ⟨_, rfl, ⟨h0, by simp, fun h => ?_, fun _ => by simpa using hklt, fun h => by simp at h⟩, rfl, ?_⟩
      · simp at h; exact absurd h hn
      · have hlen : ((⟨msgs, msgs.length, i⟩ : Cache α).recent).length = msgs.length := recent_length _
        have hdl : (m :: (⟨msgs, msgs.length, i⟩ : Cache α).recent).take msgs.length =
            m :: (⟨msgs, msgs.length, i⟩ : Cache α).recent.dropLast := by
          obtain ⟨n, hn'⟩ : ∃ n, msgs.length = n + 1 := ⟨msgs.length - 1, by omega⟩
          rw [List.dropLast_eq_take, hlen]
          conv => lhs; rw [show List.take msgs.length = List.take (n + 1) by rw [hn']]
          rw [List.take_succ_cons, hn']
          simp
        rw [hdl]
        simp only [recent]
        by_cases hw : i + 1 = msgs.length
        · have hk0 : k = 0 := by rw [hk, if_pos hw]
          rw [hk0, List.take_of_length_le (by omega : msgs.length ≤ i + 1), List.drop_of_length_le (by omega : msgs.length ≤ i + 1)]
          cases msgs with
          | nil => simp at hn
          | cons x xs => simp
        · have hk1 : k = i + 1 := by rw [hk, if_neg hw]
          rw [hk1]
          have hlt : i + 1 < msgs.length := by omega
          have e1 : (msgs.set (i + 1) m).take (i + 1 + 1) = msgs.take (i + 1) ++ [m] := by
            rw [List.take_add_one, List.take_set_of_le (by omega)]
            simp [hlt]
          have e2 : (msgs.set (i + 1) m).drop (i + 1 + 1) = msgs.drop (i + 1 + 1) := by
            rw [List.drop_set_of_lt (by omega)]
          have e3 : msgs.drop (i + 1) = msgs[i + 1] :: msgs.drop (i + 1 + 1) := List.drop_eq_getElem_cons hlt
          rw [e1, e2, e3, List.reverse_cons, ← List.append_assoc, List.dropLast_concat, List.reverse_append]
          rfl

/-- Going down from index `i` finds the newest match among the first `i + 1` entries and stops at `j`
or goes on at the top. -/
theorem lookupLoop_down (c : Cache α) (f : α → Bool) (j : Nat) (i : Nat) (hi : i < c.msgs.length)
    (hj : i < j) (fuel : Nat) :
    lookupLoop c f j (fuel + (i + 1)) i = match (c.msgs.take (i + 1)).reverse.find? f with
      | some m => some (.ok (some m))
      | none => lookupLoop c f j fuel (-1) := by
  induction i with
  | zero =>
    rw [show fuel + (0 + 1) = fuel + 1 by omega, lookupLoop]
    have h0 : c.msgs[0]? = some c.msgs[0] := List.getElem?_eq_getElem hi
    have ht : c.msgs.take (0 + 1) = [c.msgs[0]] := by
      rw [List.take_add_one]; simp [h0]
    simp only [Nat.cast_zero, lt_irrefl, if_false, Int.toNat_zero, h0, ht, List.reverse_singleton, List.find?_cons,
      List.find?_nil]
    cases hf : f c.msgs[0]
    · have hj0 : ¬ ((0 : Int) = (j : Int)) := by omega
      simp [hj0]
    · simp
  | succ i ih =>
    rw [show fuel + (i + 1 + 1) = (fuel + (i + 1)) + 1 by omega, lookupLoop]
    have h0 : c.msgs[i + 1]? = some c.msgs[i + 1] := List.getElem?_eq_getElem hi
    have hneg : ¬ (((i + 1 : Nat) : Int) < 0) := by omega
    have ht : c.msgs.take (i + 1 + 1) = c.msgs.take (i + 1) ++ [c.msgs[i + 1]] := by
      rw [List.take_add_one]; simp [h0]
    simp only [hneg, if_false, Int.toNat_natCast, h0, ht, List.reverse_append, List.reverse_singleton,
      List.singleton_append, List.find?_cons]
    cases hf : f c.msgs[i + 1]
    · have hj0 : ¬ (((i + 1 : Nat) : Int) = (j : Int)) := by omega
      simp only [Bool.false_eq_true, if_false, hj0]
      have : ((i + 1 : Nat) : Int) - 1 = (i : Int) := by omega
      rw [this]
      exact ih (by omega) (by omega)
    · simp

/-- Going down from index `i` to `j`. -/
theorem lookupLoop_to (c : Cache α) (f : α → Bool) (j n : Nat) (h : j + n < c.msgs.length) (fuel : Nat) :
    lookupLoop c f j (fuel + (n + 1)) ((j + n : Nat) : Int) =
      some (.ok (((c.msgs.drop j).take (n + 1)).reverse.find? f)) := by
  induction n with
  | zero =>
    rw [show fuel + (0 + 1) = fuel + 1 by omega, lookupLoop]
    have h0 : c.msgs[j]? = some c.msgs[j] := List.getElem?_eq_getElem (by omega)
    have hneg : ¬ ((j : Int) < 0) := by omega
    have ht : (c.msgs.drop j).take (0 + 1) = [c.msgs[j]] := by
      rw [List.drop_eq_getElem_cons (by omega)]; rfl
    simp only [hneg, if_false, Int.toNat_natCast, Nat.add_zero, h0, ht, List.reverse_singleton, List.find?_cons,
      List.find?_nil]
    cases hf : f c.msgs[j] <;> simp
  | succ n ih =>
    rw [show fuel + (n + 1 + 1) = (fuel + (n + 1)) + 1 by omega, lookupLoop]
    have h0 : c.msgs[j + (n + 1)]? = some c.msgs[j + (n + 1)] := List.getElem?_eq_getElem (by omega)
    have hneg : ¬ (((j + (n + 1) : Nat) : Int) < 0) := by omega
    have ht : (c.msgs.drop j).take (n + 1 + 1) = (c.msgs.drop j).take (n + 1) ++ [c.msgs[j + (n + 1)]] := by
      rw [List.take_add_one (l := c.msgs.drop j), List.getElem?_drop]
      simp [h0]
    simp only [hneg, if_false, Int.toNat_natCast, h0, ht, List.reverse_append, List.reverse_singleton,
      List.singleton_append, List.find?_cons]
    cases hf : f c.msgs[j + (n + 1)]
    · have hj0 : ¬ (((j + (n + 1) : Nat) : Int) = (j : Int)) := by omega
      simp only [Bool.false_eq_true, if_false, hj0]
      have : ((j + (n + 1) : Nat) : Int) - 1 = ((j + n : Nat) : Int) := by omega
      rw [this]
      exact ih (by omega)
    · simp

theorem lookupLoop_neg (c : Cache α) (f : α → Bool) (j fuel : Nat) (h : 0 < c.msgs.length) :
    lookupLoop c f j fuel (-1) = lookupLoop c f j fuel ((c.msgs.length - 1 : Nat) : Int) := by
  cases fuel with
  | zero => rfl
  | succ fuel =>
    rw [lookupLoop, lookupLoop]
    have h1 : ¬ (((c.msgs.length - 1 : Nat) : Int) < 0) := by omega
    have h2 : (c.msgs.length : Int) - 1 = ((c.msgs.length - 1 : Nat) : Int) := by omega
    simp only [h1, if_false, show ((-1 : Int) < 0) by omega, if_true, h2]

theorem lookup_recent (c : Cache α) (h : c.wf) (f : α → Bool) (fuel : Nat) (hf : c.msgs.length ≤ fuel) :
    c.lookup f fuel = some (.ok (c.recent.find? f)) := by
  unfold lookup
  by_cases hn : c.msgs = []
  · simp [hn, recent]
  · have hpos := List.length_pos_iff.mpr hn
    have hi := h.2.2.2.1 hn
    rw [if_neg (by omega)]
    dsimp only
    by_cases hl : c.i + 1 = c.msgs.length
    · rw [if_pos hl]
      obtain ⟨k, rfl⟩ : ∃ k, fuel = k + (c.i + 1) := ⟨fuel - (c.i + 1), by omega⟩
      have := lookupLoop_to c f 0 c.i (by omega) k
      rw [Nat.zero_add] at this
      rw [this]
      simp only [recent, List.drop_zero]
      rw [List.drop_of_length_le (by omega)]
      simp
    · rw [if_neg hl]
      obtain ⟨k, rfl⟩ : ∃ k, fuel = (k + (c.msgs.length - 1 - (c.i + 1) + 1)) + (c.i + 1) :=
        ⟨fuel - c.msgs.length, by omega⟩
      rw [lookupLoop_down c f (c.i + 1) c.i hi (by omega)]
      simp only [recent, List.find?_append]
      cases hfd : (c.msgs.take (c.i + 1)).reverse.find? f with
      | some m => simp
      | none =>
        simp only [Option.none_or]
        rw [lookupLoop_neg c f _ _ hpos]
        have := lookupLoop_to c f (c.i + 1) (c.msgs.length - 1 - (c.i + 1)) (by omega) k
        have e : c.i + 1 + (c.msgs.length - 1 - (c.i + 1)) = c.msgs.length - 1 := by omega
        rw [e] at this
        rw [this, List.take_of_length_le (by simp; omega)]

/-- A sequence of pushes (nil messages are ignored). -/
def pushAll (c : Cache α) : List (Option α) → Out (Cache α)
  | [] => .ok c
  | m :: ms => match c.push m with
    | .ok c => pushAll c ms
    | e => e

end Cache

theorem take_cons_take {α : Type} (n : Nat) (a : α) (l : List α) : (a :: l.take n).take n = (a :: l).take n := by
  cases n with
  | zero => rfl
  | succ n => simp [List.take_take]

/-- C46: after any sequence of pushes into a new cache, `Lookup` finds exactly the newest match among the
last N messages, where N is the capacity; nothing panics and the search ends within N steps. -/
theorem cache_lookup {α : Type} (size : Nat) (first : List α) (pushed : List (Option α)) (f : α → Bool)
    (h : 0 < size ∨ first ≠ []) :
    ∃ c, (Cache.new size first).pushAll pushed = .ok c ∧
      ∀ fuel ≥ max size first.length,
        c.lookup f fuel = some (.ok (((first ++ pushed.filterMap id).reverse.take (max size first.length)).find? f)) := by
  have key : ∀ (pushed : List (Option α)) (c : Cache α) (l : List α), c.wf → c.recent = l.reverse.take c.cap →
      ∃ c', c.pushAll pushed = .ok c' ∧ c'.wf ∧ c'.cap = c.cap ∧
        c'.recent = (l ++ pushed.filterMap id).reverse.take c.cap := by
    intro pushed
    induction pushed with
    | nil => intro c l hw hr; exact ⟨c, rfl, hw, rfl, by simpa using hr⟩
    | cons m ms ih =>
      intro c l hw hr
      cases m with
      | none =>
        obtain ⟨c', h1, h2, h3, h4⟩ := ih c l hw hr
        exact ⟨c', by simpa [Cache.pushAll, Cache.push] using h1, h2, h3, by simpa using h4⟩
      | some m =>
        obtain ⟨c1, p1, p2, p3, p4⟩ := Cache.push_wf c hw m
        obtain ⟨c', h1, h2, h3, h4⟩ := ih c1 (l ++ [m]) p2 (by
          rw [p4, hr, p3, take_cons_take]; simp)
        refine ⟨c', by simp only [Cache.pushAll, p1]; exact h1, h2, by rw [h3, p3], ?_⟩
        rw [h4, p3]; simp
  obtain ⟨n1, n2, n3⟩ := Cache.new_wf size first h
  obtain ⟨c', h1, h2, h3, h4⟩ := key pushed (Cache.new size first) first n1 (by
    rw [n2, List.take_of_length_le]
    rw [n3]; simp)
  refine ⟨c', h1, fun fuel hf => ?_⟩
  rw [Cache.lookup_recent c' h2 f fuel, h4, n3]
  have := h2.2.1
  rw [h3, n3] at this
  omega

/-- A cache without capacity panics at the first message (why C46 asks for N > 0). -/
theorem cache_zero_panics {α : Type} (m : α) : (Cache.new 0 ([] : List α)).pushAll [some m] = .panic := rfl

example : ((Cache.new 3 [1, 2]).pushAll [some 3, none, some 4, some 5]) = .ok ⟨[4, 5, 3], 3, 1⟩ := by decide
example : (⟨[4, 5, 3], 3, 1⟩ : Cache Nat).lookup (fun n => n % 2 == 1) 3 = some (.ok (some 5)) := by decide

/-! ### C47, C48 -/

/-- The state of a duplicate filter that has seen `seen` (newest first). -/
structure DupInv {σ : Type} (s : DupSt σ) (seen : List Message) : Prop where
  wf : s.cache.wf
  cap : s.cache.cap = 10
  recent : s.cache.recent.map Prod.snd = seen.take 10
  fresh : ∀ o ∈ s.cache.recent, o.1 < s.fresh

theorem dup_push {σ : Type} (s : DupSt σ) (seen : List Message) (h : DupInv s seen) (m : Message) :
    ∃ c, s.cache.push (some (s.fresh, m)) = .ok c ∧ c.cap = 10 ∧
      c.recent = (s.fresh, m) :: s.cache.recent.take 9 ∧ ∀ t : σ, DupInv ⟨c, s.fresh + 1, t⟩ (m :: seen) := by
  obtain ⟨c, p1, p2, p3, p4⟩ := Cache.push_wf s.cache h.wf (s.fresh, m)
  rw [h.cap, List.take_succ_cons] at p4
  refine ⟨c, p1, by rw [p3, h.cap], p4, fun t => ⟨p2, by rw [p3, h.cap], ?_, ?_⟩⟩
  · show c.recent.map Prod.snd = _
    rw [p4]
    simp only [List.map_cons, List.map_take, h.recent, List.take_take, List.take_succ_cons]
    simp
  · show ∀ o ∈ c.recent, o.1 < s.fresh + 1
    rw [p4]
    intro o ho
    simp only [List.mem_cons] at ho
    rcases ho with rfl | ho
    · simp
    · have := h.fresh o (List.mem_of_mem_take ho); omega

theorem dup_lookup {σ : Type} (s : DupSt σ) (seen : List Message) (h : DupInv s seen) (m : Message)
    (c : Cache MsgObj) (hc : c.recent = (s.fresh, m) :: s.cache.recent.take 9) (hw : c.wf) :
    ∃ r, c.lookup (DupFilter.dupMatcher (s.fresh, m)) (c.msgs.length + 1) = some (.ok r) ∧
      (r.isSome = (seen.take 9).any fun d => m.duplicate d) := by
  refine ⟨_, Cache.lookup_recent c hw _ _ (by omega), ?_⟩
  rw [hc]
  have hself : DupFilter.dupMatcher (s.fresh, m) (s.fresh, m) = false := by simp [DupFilter.dupMatcher]
  rw [List.find?_cons, hself]
  have hany : ((s.cache.recent.take 9).find? (DupFilter.dupMatcher (s.fresh, m))).isSome =
      (s.cache.recent.take 9).any (DupFilter.dupMatcher (s.fresh, m)) := by
    rw [Bool.eq_iff_iff, List.find?_isSome, List.any_eq_true]
  dsimp only
  rw [hany]
  have hcong : (s.cache.recent.take 9).any (DupFilter.dupMatcher (s.fresh, m)) =
      (s.cache.recent.take 9).any (fun o => m.duplicate o.2) := by
    rw [Bool.eq_iff_iff, List.any_eq_true, List.any_eq_true]
    constructor
    · rintro ⟨o, ho, h2⟩
      refine ⟨o, ho, ?_⟩
      have := h.fresh o (List.mem_of_mem_take ho)
      simpa [DupFilter.dupMatcher, show s.fresh ≠ o.1 by omega] using h2
    · rintro ⟨o, ho, h2⟩
      refine ⟨o, ho, ?_⟩
      have := h.fresh o (List.mem_of_mem_take ho)
      simpa [DupFilter.dupMatcher, show s.fresh ≠ o.1 by omega] using h2
  rw [hcong]
  have : seen.take 9 = (s.cache.recent.take 9).map Prod.snd := by
    rw [List.map_take, h.recent, List.take_take]; rfl
  rw [this, List.any_map]
  rfl

/-- One read through the filter is one step of the specification. -/
theorem dup_read (answer : Message → MRes) (inbox sent seen : List Message) (s : DupSt Wire)
    (hs : s.inner = ⟨inbox, sent⟩) (h : DupInv s seen) (fuel : Nat) (hf : inbox.length < fuel) :
    ∃ s', DupFilter.read (wireIO answer) fuel s = some (s', match (dedupRead seen inbox).1 with
        | some m => .ret (some m) none
        | none => .ret none (some .eof)) ∧
      s'.inner = ⟨(dedupRead seen inbox).2.2, sent⟩ ∧ DupInv s' (dedupRead seen inbox).2.1 := by
  induction inbox generalizing s seen fuel with
  | nil =>
    obtain ⟨fuel, rfl⟩ : ∃ k, fuel = k + 1 := ⟨fuel - 1, by simp at hf; omega⟩
    refine ⟨⟨s.cache, s.fresh + 1, ⟨[], sent⟩⟩, ?_, rfl, ⟨h.wf, h.cap, h.recent, ?_⟩⟩
    · rw [DupFilter.read]
      simp [DupFilter.cacheRead, hs, wireIO, Cache.push, dedupRead]
    · intro o ho; have := h.fresh o ho; dsimp only; omega
  | cons m rest ih =>
    obtain ⟨fuel, rfl⟩ : ∃ k, fuel = k + 1 := ⟨fuel - 1, by simp at hf; omega⟩
    obtain ⟨c, c1, c2, c3, c4⟩ := dup_push s seen h m
    obtain ⟨r, hl, hr⟩ := dup_lookup s seen h m c c3 (c4 ⟨rest, sent⟩).wf
    have hcr : DupFilter.cacheRead (wireIO answer) s = (⟨c, s.fresh + 1, ⟨rest, sent⟩⟩, .ok (some (s.fresh, m), none)) := by
      simp [DupFilter.cacheRead, hs, wireIO, c1]
    rw [DupFilter.read, hcr]
    dsimp only
    rw [hl]
    rw [dedupRead]
    cases r with
    | none =>
      rw [← hr]
      simp only [Option.isSome_none, Bool.false_eq_true, if_false]
      exact ⟨_, rfl, rfl, c4 _⟩
    | some o =>
      rw [← hr]
      simp only [Option.isSome_some, if_true]
      exact ih (m :: seen) _ rfl (c4 _) fuel (by simp at hf; omega)

/-- Operations on the filter: read the next message, or write one. -/
inductive DupOp where
  | rd
  | wr (m : Message)

/-- Running the filter on a list of operations: what each read delivered. -/
def dupRun (answer : Message → MRes) (fuel : Nat) : DupSt Wire → List DupOp → Option (DupSt Wire × List MRes)
  | s, [] => some (s, [])
  | s, .rd :: ops => match DupFilter.read (wireIO answer) fuel s with
    | none => none
    | some (s, r) => (dupRun answer fuel s ops).map fun x => (x.1, r :: x.2)
  | s, .wr m :: ops => dupRun answer fuel (DupFilter.write (wireIO answer) s m).1 ops

/-- What should be delivered: a message is delivered exactly when none of the nine messages most recently
read or written is a duplicate of it. -/
def Spec.dedup : List Message → List Message → List DupOp → List MRes
  | _, _, [] => []
  | seen, inbox, .rd :: ops => match dedupRead seen inbox with
    | (some m, seen, inbox) => .ret (some m) none :: dedup seen inbox ops
    | (none, seen, inbox) => .ret none (some .eof) :: dedup seen inbox ops
  | seen, inbox, .wr m :: ops => dedup (m :: seen) inbox ops

theorem dedupRead_rest (seen inbox : List Message) : (dedupRead seen inbox).2.2.length ≤ inbox.length := by
  induction inbox generalizing seen with
  | nil => simp [dedupRead]
  | cons m rest ih =>
    rw [dedupRead]
    split_ifs
    · have := ih (m :: seen); simp; omega
    · simp

theorem dup_run (answer : Message → MRes) (ops : List DupOp) (inbox sent seen : List Message) (s : DupSt Wire)
    (hs : s.inner = ⟨inbox, sent⟩) (h : DupInv s seen) (fuel : Nat) (hf : inbox.length < fuel) :
    ∃ s', dupRun answer fuel s ops = some (s', dedup seen inbox ops) := by
  induction ops generalizing inbox sent seen s with
  | nil => exact ⟨s, rfl⟩
  | cons op ops ih =>
    cases op with
    | rd =>
      obtain ⟨s1, h1, h2, h3⟩ := dup_read answer inbox sent seen s hs h fuel hf
      have hlen := dedupRead_rest seen inbox
      obtain ⟨s', h'⟩ := ih _ _ _ s1 h2 h3 (by omega)
      refine ⟨s', ?_⟩
      rw [dupRun, h1]
      dsimp only
      rw [h']
      rw [dedup]
      rcases dedupRead seen inbox with ⟨_ | m, a, b⟩ <;> rfl
    | wr m =>
      obtain ⟨c, c1, c2, c3, c4⟩ := dup_push s seen h m
      have hw : (DupFilter.write (wireIO answer) s m).1 = ⟨c, s.fresh + 1, ⟨inbox, sent ++ [m]⟩⟩ := by
        simp [DupFilter.write, c1, wireIO, hs]
      rw [dupRun, hw, dedup]
      exact ih inbox (sent ++ [m]) (m :: seen) _ rfl (c4 _) hf

/-- C47: for any incoming messages and any interleaving of reads and writes, the duplicate filter
delivers exactly what the specification says. -/
theorem duplicate_filter (answer : Message → MRes) (inbox sent : List Message) (ops : List DupOp) (fuel : Nat)
    (hf : inbox.length < fuel) :
    ∃ s', dupRun answer fuel (DupFilter.init ⟨inbox, sent⟩) ops = some (s', dedup [] inbox ops) := by
  refine dup_run answer ops inbox sent [] _ rfl ?_ fuel hf
  obtain ⟨n1, n2, n3⟩ := Cache.new_wf (α := MsgObj) 10 [] (Or.inl (by omega))
  refine ⟨n1, by rw [show (DupFilter.init (⟨inbox, sent⟩ : Wire)).cache = Cache.new 10 [] from rfl, n3]; rfl, ?_, ?_⟩
  · rw [show (DupFilter.init (⟨inbox, sent⟩ : Wire)).cache = Cache.new 10 [] from rfl, n2]; rfl
  · rw [show (DupFilter.init (⟨inbox, sent⟩ : Wire)).cache = Cache.new 10 [] from rfl, n2]; simp

/-- What the specification means for one read: the messages skipped and the message delivered are the
next ones received; each skipped one has a duplicate among its nine predecessors, the delivered one
has none. -/
theorem dedupRead_spec (seen inbox seen' rest : List Message) (r : Option Message)
    (h : dedupRead seen inbox = (r, seen', rest)) :
    ∃ skipped, inbox = skipped ++ r.toList ++ rest ∧ seen' = r.toList ++ skipped.reverse ++ seen ∧
      (∀ a m b, skipped = a ++ m :: b → ∃ d ∈ (a.reverse ++ seen).take 9, m.duplicate d = true) ∧
      (∀ m, r = some m → ∀ d ∈ (skipped.reverse ++ seen).take 9, m.duplicate d = false) ∧
      (r = none → rest = []) := by
  induction inbox generalizing seen with
  | nil =>
    simp only [dedupRead, Prod.mk.injEq] at h
    obtain ⟨rfl, rfl, rfl⟩ := h
    exact ⟨[], by simp, by simp, by simp, by simp, by simp⟩
  | cons m ms ih =>
    rw [dedupRead] at h
    split_ifs at h with hd
    · obtain ⟨sk, h1, h2, h3, h4, h5⟩ := ih _ h
      refine ⟨m :: sk, by rw [h1]; simp, by rw [h2]; simp, ?_, ?_, h5⟩
      · intro a x b hab
        cases a with
        | nil =>
          simp only [List.nil_append, List.cons.injEq] at hab
          obtain ⟨rfl, rfl⟩ := hab
          simpa using hd
        | cons y a =>
          simp only [List.cons_append, List.cons.injEq] at hab
          obtain ⟨rfl, hab⟩ := hab
          simpa using h3 a x b hab
      · intro x hx d hdm
        exact h4 x hx d (by simpa using hdm)
    · simp only [Prod.mk.injEq] at h
      obtain ⟨rfl, rfl, rfl⟩ := h
      refine ⟨[], by simp, by simp, by simp, ?_, by simp⟩
      intro x hx d hdm
      simp only [Option.some.injEq] at hx
      subst hx
      rw [Bool.not_eq_true, List.any_eq_false] at hd
      simpa using hd d (by simpa using hdm)

/-- The messages delivered are a subsequence of the messages received. -/
theorem duplicate_filter_order (ops : List DupOp) (seen inbox : List Message) :
    ((dedup seen inbox ops).filterMap fun r => match r with
      | .ret (some m) none => some m
      | _ => none).Sublist inbox := by
  induction ops generalizing seen inbox with
  | nil => simp [dedup]
  | cons op ops ih =>
    cases op with
    | rd =>
      rw [dedup]
      rcases hd : dedupRead seen inbox with ⟨r, seen', rest⟩
      obtain ⟨sk, h1, -⟩ := dedupRead_spec seen inbox seen' rest r hd
      cases r with
      | none =>
        dsimp only
        rw [List.filterMap_cons_none rfl, h1]
        exact (ih seen' rest).trans (List.sublist_append_right _ _)
      | some m =>
        dsimp only
        rw [h1]
        simp only [List.filterMap_cons, Option.toList_some, List.append_assoc, List.singleton_append]
        exact ((ih seen' rest).cons_cons m).trans (List.sublist_append_right _ _)
    | wr m => rw [dedup]; exact ih _ _

/-- A button press of device 5. -/
def press : Message := ⟨5, 1, 0xcb, 0x0c1100, []⟩

/-- C48 is false of the code: the same button pressed twice is delivered once, however much later
the second press comes. -/
theorem second_press_delivered_refuted :
    ¬ ∀ (answer : Message → MRes) (inbox : List Message) (n fuel : Nat) (s' : DupSt Wire) (out : List MRes),
      dupRun answer fuel (DupFilter.init ⟨inbox, []⟩) (List.replicate n .rd) = some (s', out) → n = inbox.length →
      (out.filter fun r => r == .ret (some press) none).length = (inbox.filter fun m => m == press).length := by
  intro h
  obtain ⟨s', hs'⟩ := duplicate_filter acks [press, press] [] (List.replicate 2 .rd) 5 (by decide)
  have := h acks [press, press] 2 5 s' _ hs' rfl
  exact absurd this (by decide)

/-- What is true instead: the press is delivered again once nine messages that are no duplicates of it
have been read or written in between. -/
theorem second_press_delivered_partial (seen : List Message) (m : Message) (rest : List Message)
    (h : ∀ d ∈ seen.take 9, m.duplicate d = false) :
    dedupRead seen (m :: rest) = (some m, m :: seen, rest) := by
  rw [dedupRead, if_neg]
  simpa using h

example : dedup [] [press, press, ⟨6, 1, 0xcb, 0x0c1100, []⟩] [.rd, .rd] =
    [.ret (some press) none, .ret (some ⟨6, 1, 0xcb, 0x0c1100, []⟩) none] := by decide

/-! ### C49 -/

/-- C49: with the TTL filter a write is one write of the same message with both hop counters set to the
value modulo 4; reads are passed through. Writing the result again changes nothing more. -/
theorem ttl_filter {σ : Type} (ttl : BitVec 64) (io : MsgIO σ) (s : σ) (m : Message) :
    ∃ out, (ttlFilter ttl io).write s m = io.write s out ∧
      hopsLeft out.flags = ttl.toNat % 4 ∧ maxHops out.flags = ttl.toNat % 4 ∧
      out.flags.toNat / 16 = m.flags.toNat / 16 ∧
      out.src = m.src ∧ out.dst = m.dst ∧ out.command = m.command ∧ out.payload = m.payload ∧
      (ttlFilter ttl io).read s = io.read s ∧ ttlMsg ttl out = out := by
  refine ⟨ttlMsg ttl m, rfl, ?_⟩
  have ht : (ttl.setWidth 8).toNat % 4 = ttl.toNat % 4 := by
    rw [BitVec.toNat_setWidth]; omega
  have hlt : ttl.toNat % 4 < 4 := Nat.mod_lt _ (by omega)
  have e : ∀ f : Flags, ((f.setMaxTTL (ttl.setWidth 8)).setTTL (ttl.setWidth 8)).toNat =
      f.toNat / 16 * 16 + ttl.toNat % 4 * 4 + ttl.toNat % 4 := by
    intro f
    rw [setTTL_value, setMaxTTL_value, ht]; omega
  refine ⟨?_, ?_, ?_, rfl, rfl, rfl, rfl, rfl, ?_⟩
  · simp only [hopsLeft, ttlMsg, e]
    generalize ttl.toNat % 4 = t at hlt
    interval_cases t <;> omega
  · simp only [maxHops, ttlMsg, e]
    generalize ttl.toNat % 4 = t at hlt
    omega
  · simp only [ttlMsg, e]
    generalize ttl.toNat % 4 = t at hlt
    omega
  · simp only [ttlMsg, Message.mk.injEq, true_and, and_true]
    apply BitVec.eq_of_toNat_eq
    rw [e, e]
    generalize ttl.toNat % 4 = t at hlt
    omega

/-- Negative numbers count modulo 4, too. -/
example : (ttlMsg (BitVec.ofInt 64 (-1)) ⟨1, 2, 0x0a, 3, []⟩).flags = 0x0f := by decide

/-! ### C50, C51 -/

theorem wAfter_shift {σ : Type} (w : σ → Message → σ × MRes) (m : Message) (s : σ) (k : Nat) :
    wAfter w m (w s m).1 k = wAfter w m s (k + 1) := by
  induction k with
  | zero => rfl
  | succ k ih => rw [wAfter, ih]; rfl

theorem retryFilterLoop_spec {σ : Type} (w : σ → Message → σ × MRes) (m : Message) (n : Nat) (s : σ) :
    ∃ k ≤ n, retryFilterLoop w m n s = (wAfter w m s (k + 1), wOutcome w m s k) ∧
      (∀ j < k, isTimeout (wOutcome w m s j)) ∧ (k < n → ¬ isTimeout (wOutcome w m s k)) := by
  induction n generalizing s with
  | zero => exact ⟨0, le_refl _, rfl, by simp, by simp⟩
  | succ n ih =>
    rw [retryFilterLoop]
    have h0 : wOutcome w m s 0 = (w s m).2 := rfl
    rcases hw : w s m with ⟨s1, ⟨a, _ | e⟩ | _⟩
    · refine ⟨0, by omega, by simp [wAfter, wOutcome, hw], by simp, fun _ => ?_⟩
      rw [h0, hw]; simp [isTimeout]
    · dsimp only
      split_ifs with he
      · obtain ⟨k, hk, h1, h2, h3⟩ := ih s1
        have hs1 : s1 = (w s m).1 := by rw [hw]
        have hsh : ∀ j, wOutcome w m s1 j = wOutcome w m s (j + 1) := by
          intro j; unfold wOutcome; rw [hs1, wAfter_shift]
        refine ⟨k + 1, by omega, ?_, ?_, ?_⟩
        · rw [h1, hsh, hs1, wAfter_shift]
        · intro j hj
          cases j with
          | zero => rw [h0, hw]; simp [isTimeout, he]
          | succ j => rw [← hsh]; exact h2 j (by omega)
        · intro hlt
          rw [← hsh]; exact h3 (by omega)
      · refine ⟨0, by omega, by simp [wAfter, wOutcome, hw], by simp, fun _ => ?_⟩
        rw [h0, hw]; simp [isTimeout, he]
    · refine ⟨0, by omega, by simp [wAfter, wOutcome, hw], by simp, fun _ => ?_⟩
      rw [h0, hw]; simp [isTimeout]

/-- C50: the retry filter makes between one and max(1, tries) attempts, all with the same message; all
but the last ended in a device read timeout; it stops early only at another outcome; the result is
that of the last attempt. -/
theorem retry_filter {σ : Type} (tries : Int) (io : MsgIO σ) (s : σ) (m : Message) :
    ∃ attempts : Nat, 1 ≤ attempts ∧ (attempts : Int) ≤ max 1 tries ∧
      (retryFilter tries io).write s m = (wAfter io.write m s attempts, wOutcome io.write m s (attempts - 1)) ∧
      (∀ j, j + 1 < attempts → isTimeout (wOutcome io.write m s j)) ∧
      ((attempts : Int) < max 1 tries → ¬ isTimeout (wOutcome io.write m s (attempts - 1))) ∧
      (retryFilter tries io).read s = io.read s := by
  obtain ⟨k, hk, h1, h2, h3⟩ := retryFilterLoop_spec io.write m (tries - 1).toNat s
  refine ⟨k + 1, by omega, by omega, h1, fun j hj => h2 j (by omega), fun hlt => h3 (by omega), rfl⟩


/-- A PLM as message writer; running out of fuel counts as a panic here. -/
def Plm.msgIO {σ : Type} (io : PlmIO σ) (retries : Int) (fuel : Nat) : MsgIO σ where
  read := Plm.read io
  write := fun s m => (Plm.write io retries fuel s m).getD (s, .panic)

theorem plm_read_timeout {σ : Type} (io : PlmIO σ) (s : σ) : ¬ isTimeout (Plm.read io s).2 := by
  unfold Plm.read
  rcases io.rxMsg s with ⟨s1, p | _ | _⟩
  · simp only [isTimeout]
    intro h
    have : ∀ b, (Message.zero.unmarshalBinary b).2 ≠ some .devReadTimeout := by
      intro b
      unfold Message.unmarshalBinary
      split
      · dsimp only; split_ifs <;> simp
      · simp
    exact this _ h
  · simp [isTimeout]
  · simp [isTimeout]

theorem checkAck_timeout (pkt ack : Packet) : Plm.checkAck pkt ack ≠ .ok (some .devReadTimeout) := by
  unfold Plm.checkAck
  dsimp only
  by_cases hn : ack.isNAK = true
  · split
    · simp [hn]
    · split_ifs <;> simp_all
  · split
    · rename_i e h
      intro h2
      rw [if_neg hn] at h2
      have := h2 ▸ h
      simp only [Out.ok.injEq] at h2
      subst h2
      split_ifs at h <;> simp_all
    · split_ifs <;> simp_all

theorem retryLoop_timeout {σ : Type} (w : σ → Packet → σ × PRes) (b : Bool) (pkt : Packet)
    (hw : ∀ s a, (w s pkt).2 ≠ .ret a (some .devReadTimeout)) (n : Nat) (s : σ) (cur : PRes)
    (hc : ∀ a, cur ≠ .ret a (some .devReadTimeout)) (a : Option Packet) :
    (retryLoop w b pkt n s cur).2 ≠ .ret a (some .devReadTimeout) := by
  induction n generalizing s cur with
  | zero => exact hc a
  | succ n ih =>
    rw [retryLoop]
    have h1 := hw s
    rcases hws : w s pkt with ⟨s1, ⟨a1, e1⟩ | _⟩ <;> rw [hws] at h1
    · dsimp only
      split_ifs
      · exact ih s1 _ h1
      · exact h1 a
    · simp

theorem awaitAck_timeout {σ : Type} (io : PlmIO σ) (dst : Address) (fuel : Nat) (s s' : σ) (r : MRes)
    (h : Plm.awaitAck io dst fuel s = some (s', r)) : ¬ isTimeout r := by
  induction fuel generalizing s with
  | zero => simp [Plm.awaitAck] at h
  | succ fuel ih =>
    rw [Plm.awaitAck] at h
    have h1 := plm_read_timeout io s
    rcases hr : Plm.read io s with ⟨s1, ⟨_ | m, _ | e⟩ | _⟩ <;> rw [hr] at h h1 <;> dsimp only at h
    · simp only [Option.some.injEq, Prod.mk.injEq] at h; rw [← h.2]; simp [isTimeout]
    · simp only [Option.some.injEq, Prod.mk.injEq] at h; rw [← h.2]; exact h1
    · split_ifs at h with h2 h3
      · simp only [Option.some.injEq, Prod.mk.injEq] at h; rw [← h.2]; simp [isTimeout]
      · simp only [Option.some.injEq, Prod.mk.injEq] at h; rw [← h.2]; simp [isTimeout]
      · exact ih s1 h
    · simp only [Option.some.injEq, Prod.mk.injEq] at h; rw [← h.2]; exact h1
    · simp only [Option.some.injEq, Prod.mk.injEq] at h; rw [← h.2]; simp [isTimeout]

theorem plm_write_timeout {σ : Type} (io : PlmIO σ) (retries : Int) (fuel : Nat) (s : σ) (m : Message)
    (htx : ∀ s b, (io.tx s b).2 ≠ some .devReadTimeout) :
    ¬ isTimeout ((Plm.msgIO io retries fuel).write s m).2 := by
  have hwp : ∀ p s a, (Plm.writePacket io s p).2 ≠ .ret a (some .devReadTimeout) := by
    intro p s a
    unfold Plm.writePacket
    have h1 := htx s p.marshalBinary
    rcases hx : io.tx s p.marshalBinary with ⟨s1, _ | e⟩ <;> rw [hx] at h1
    · dsimp only
      rcases io.rxPacket s1 with ⟨s2, ack | _ | _⟩
      · dsimp only
        have h2 := checkAck_timeout p ack
        rcases hk : Plm.checkAck p ack with e | e | _ <;> rw [hk] at h2 <;> simp_all
      · simp
      · simp
    · intro h; simp only [PRes.ret.injEq] at h; exact h1 h.2
  simp only [Plm.msgIO, Plm.write, retryWrite]
  have h3 := retryLoop_timeout (Plm.writePacket io) true ⟨PCmd.sendInsteonMsg, m.marshalBinary.drop 3, 0#8⟩
    (hwp _) (retries + 1).toNat s (.ret none none) (by simp)
  rcases hr : retryLoop (Plm.writePacket io) true ⟨PCmd.sendInsteonMsg, m.marshalBinary.drop 3, 0#8⟩
    (retries + 1).toNat s (.ret none none) with ⟨s1, ⟨a, _ | e⟩ | _⟩ <;> rw [hr] at h3 <;> dsimp only
  · rcases ha : Plm.awaitAck io m.dst fuel s1 with _ | ⟨s2, r⟩
    · simp [isTimeout]
    · exact awaitAck_timeout io _ _ _ _ _ ha
  · simpa [isTimeout] using h3 a
  · simp [isTimeout]

/-- C51 is false of the code: a retry filter over a modem never retries, because no error of the
modem driver is the device read timeout it looks for. Whatever the modem and the device do, a write
through the filter is exactly one write. -/
theorem retry_filter_plm_partial {σ : Type} (tries : Int) (io : PlmIO σ) (retries : Int) (fuel : Nat) (s : σ)
    (m : Message) (htx : ∀ s b, (io.tx s b).2 ≠ some .devReadTimeout) :
    (retryFilter tries (Plm.msgIO io retries fuel)).write s m = (Plm.msgIO io retries fuel).write s m := by
  obtain ⟨n, h1, h2, h3, h4, h5, -⟩ := retry_filter tries (Plm.msgIO io retries fuel) s m
  have : n = 1 := by
    by_contra hne
    have := h4 0 (by omega)
    exact plm_write_timeout io retries fuel s m htx (by simpa [wOutcome, wAfter] using this)
  subst this
  rw [h3]
  simp [wOutcome, wAfter]

/-- A modem that confirms everything and a device that never answers; the state counts the writes. -/
def silentDevice : PlmIO (Nat × Bytes) where
  tx := fun s b => ((s.1 + 1, b), none)
  rxPacket := fun s => (s, .packet ⟨PCmd.sendInsteonMsg, [0, 0, 0] ++ (s.2.drop 2), 0x06⟩)
  rxMsg := fun s => (s, .timeout)

/-- C51 is false of the code: when the device stays silent each write of the modem driver ends in a read
timeout, and still the frame is sent once and not `tries` times. -/
theorem retry_filter_plm_refuted :
    ((Plm.msgIO silentDevice 3 5).write (0, []) ⟨0, 5, 0x0f, 0x1100, []⟩).2 = .ret none (some (.wrapped .insReadTimeout)) ∧
    ¬ ∀ tries : Int, 1 < tries →
      (((retryFilter tries (Plm.msgIO silentDevice 3 5)).write (0, []) ⟨0, 5, 0x0f, 0x1100, []⟩).1.1 : Int) = tries := by
  refine ⟨rfl, fun h => ?_⟩
  have := h 3 (by decide)
  rw [retry_filter_plm_partial 3 silentDevice 3 5 _ _ (by simp [silentDevice])] at this
  exact absurd this (by decide)

end Insteon
