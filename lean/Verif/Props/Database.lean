import Verif.Lemmas.Database
import Verif.Props.Device

/-
Properties C67 - C73 and C96 - C99: the device database.
-/

namespace Insteon
open Spec

/-- A device used in examples. -/
def info5 : DeviceInfo := ⟨0x050607, (1, 2), 3, 2⟩
/-- Another one. -/
def info9 : DeviceInfo := ⟨0x0a0b0c, (2, 8), 0x41, 1⟩

/-! ### C67 -/

/-- C67, what is proved: a new database knows nothing; after storing a device it is found and the others are as before, unless
the info is all zero and new. -/
theorem database_map_partial (db db' : MemDb) (info : DeviceInfo) (a : Address)
    (h : info ≠ ⟨0, (0, 0), 0, 0⟩ ∨ db.get 0 ≠ none) (hp : db.put info = some db') :
    MemDb.new.get a = none ∧
    db'.get info.address = some info ∧
    (a ≠ info.address → db'.get a = db.get a) := by
  refine ⟨rfl, ?_⟩
  unfold MemDb.put at hp
  split_ifs at hp with h1 h2 <;> simp only [Option.some.injEq] at hp <;> subst hp <;> unfold MemDb.get
  · refine ⟨by rw [dbmap_get_put, if_pos rfl], fun ha => by rw [dbmap_get_put, if_neg ha]⟩
  · refine ⟨?_, fun _ => rfl⟩
    rw [not_not] at h1
    rcases hg : db.values.get info.address with _ | i
    · rw [hg] at h1
      have hz : info = DeviceInfo.zero := h1.symm
      rcases h with h | h
      · exact absurd hz h
      · rw [hz] at hg
        exact absurd hg h
    · rw [hg] at h1
      exact congrArg some h1

theorem put_runs (db : MemDb) (info : DeviceInfo) (h : db.nilMap = false) : ∃ db', db.put info = some db' ∧ db'.nilMap = false := by
  unfold MemDb.put
  split_ifs <;> simp_all

/-- C67 for any sequence of calls, none of them with the info that is all zero: an address is known by the last info that was stored for it, and unknown if there was none. -/
theorem database_sequence_partial (infos : List DeviceInfo) (h : ∀ i ∈ infos, i ≠ ⟨0, (0, 0), 0, 0⟩) :
    ∃ db, infos.foldlM MemDb.put MemDb.new = some db ∧ ∀ a, db.get a = infos.reverse.find? fun i => decide (i.address = a) := by
  suffices H : ∀ db0 : MemDb, db0.nilMap = false → ∃ db, infos.foldlM MemDb.put db0 = some db ∧ ∀ a, db.get a = (infos.reverse.find? fun i => decide (i.address = a)).or (db0.get a) by
    obtain ⟨db, h1, h2⟩ := H MemDb.new rfl
    exact ⟨db, h1, fun a => by rw [h2 a, show MemDb.new.get a = none from rfl, Option.or_none]⟩
  induction infos with
  | nil => exact fun db0 _ => ⟨db0, rfl, fun a => rfl⟩
  | cons i infos ih =>
    intro db0 hn
    obtain ⟨db1, hp, hn1⟩ := put_runs db0 i hn
    obtain ⟨db, h1, h2⟩ := ih (fun j hj => h j (List.mem_cons_of_mem _ hj)) db1 hn1
    refine ⟨db, by rw [List.foldlM_cons, hp]; exact h1, fun a => ?_⟩
    obtain ⟨-, m1, m2⟩ := database_map_partial db0 db1 i a (Or.inl (h i (List.mem_cons_self ..))) hp
    rw [h2 a, List.reverse_cons, List.find?_append, Option.or_assoc]
    congr 1
    by_cases ha : i.address = a
    · subst ha; simp [m1]
    · rw [m2 (Ne.symm ha)]; simp [ha]

/-- A database of two devices, used in examples. -/
def db59 : MemDb := ⟨[(0x050607, info5), (0x0a0b0c, info9)], true, false⟩

example : (MemDb.new.put info5).bind (·.put info9) = some db59 ∧ db59.get 0x050607 = some info5 ∧ db59.get 7 = none := by decide

/-- C67 in full is false of the code: the info that is all zero is not stored. -/
theorem database_map_refuted : ¬ ∀ (db db' : MemDb) (info : DeviceInfo), db.put info = some db' → db'.get info.address = some info := by
  intro h
  exact absurd (h MemDb.new MemDb.new ⟨0, (0, 0), 0, 0⟩ (by decide)) (by decide)

/-! ### C68 -/

/-- A history in which no text that is not a database is loaded. -/
def Spec.GoodLoads : MemDb → List DbOp → Prop
  | _, [] => True
  | db, op :: ops => ∀ r, op.run db = some r → (∀ data, op = .load (.ok data) → r.2 = none) ∧ GoodLoads r.1 ops

theorem clean_step (ops : List DbOp) (db db' : MemDb) (c c' : Contents) (hc : db.dirty = false → db.get = c) (hg : GoodLoads db ops)
    (hh : history db c ops = some (db', c')) : db'.dirty = false → db'.get = c' := by
  induction ops generalizing db c with
  | nil =>
    simp only [history, Option.some.injEq, Prod.mk.injEq] at hh
    obtain ⟨rfl, rfl⟩ := hh
    exact hc
  | cons op ops ih =>
    rw [history] at hh
    rcases hr : op.run db with _ | r <;> rw [hr] at hh
    · cases hh
    obtain ⟨h1, h2⟩ := hg r hr
    refine ih r.1 _ ?_ h2 hh
    cases op with
    | put info =>
      simp only [DbOp.run, Option.map_eq_some_iff] at hr
      obtain ⟨d, hp, rfl⟩ := hr
      intro hd
      unfold MemDb.put at hp
      split_ifs at hp <;> simp only [Option.some.injEq] at hp <;> subst hp
      · exact absurd hd (by simp)
      · exact hc hd
    | save f =>
      simp only [DbOp.run, MemDb.save, Option.some.injEq] at hr
      subst hr
      intro hd
      cases f with
      | none => rfl
      | some e => exact hc hd
    | load input =>
      simp only [DbOp.run, Option.some.injEq] at hr
      subst hr
      intro hd
      cases input with
      | error e => exact hc hd
      | ok data =>
        have h0 := h1 data rfl
        rw [h0]

/-- C68, what is proved: in every history without failed loads, a database that needs no saving has the content it had when it was
last saved or loaded. -/
theorem clean_is_saved_partial (ops : List DbOp) (db : MemDb) (saved : Contents) (h : GoodLoads MemDb.new ops)
    (hh : history MemDb.new Contents.empty ops = some (db, saved)) : db.dirty = false → db.get = saved :=
  clean_step ops MemDb.new db Contents.empty saved (fun _ => rfl) h hh

example : GoodLoads MemDb.new [.put info5, .save none, .put info9, .save (some .eof), .load (.error .eof), .put info9] ∧
    (history MemDb.new Contents.empty [.put info5, .save none, .put info5]).map (fun r => r.1.dirty) = some false := by
  refine ⟨?_, by rfl⟩
  simp [GoodLoads]

/-- C68 in full is false of the code: after a failed load the database is empty and does not need saving. -/
theorem clean_is_saved_refuted :
    ¬ ∀ (ops : List DbOp) (db : MemDb) (saved : Contents), history MemDb.new Contents.empty ops = some (db, saved) →
      db.dirty = false → db.get = saved := by
  intro h
  have := congrFun (h [.put info5, .save none, .load (.ok [])] ⟨[], false, false⟩ (MemDb.get ⟨[(0x050607, info5)], false, false⟩) rfl rfl) 0x050607
  exact absurd this (by decide)

/-- C68: after a change has been stored, the database needs saving until a save succeeds. -/
theorem change_needs_saving (db db' : MemDb) (info : DeviceInfo) (hp : db.put info = some db') (h : db'.get ≠ db.get) (fs : List Err) :
    ∃ d c, history db' db'.get (fs.map fun e => .save (some e)) = some (d, c) ∧ d.get = db'.get ∧ d.dirty = true := by
  have h0 : db'.dirty = true := by
    unfold MemDb.put at hp
    split_ifs at hp <;> simp only [Option.some.injEq] at hp <;> subst hp
    · rfl
    · exact absurd rfl h
  have key : ∀ (fs : List Err) (c : Contents), history db' c (fs.map fun e => .save (some e)) = some (db', c) := by
    intro fs
    induction fs with
    | nil => intro c; rfl
    | cons e fs ih => intro c; exact ih c
  exact ⟨db', _, key fs _, rfl, h0⟩

example : MemDb.new.put info5 = some ⟨[(0x050607, info5)], true, false⟩ ∧ MemDb.get ⟨[(0x050607, info5)], true, false⟩ ≠ MemDb.new.get := by
  refine ⟨by decide, ?_⟩
  intro h
  exact absurd (congrFun h 0x050607) (by decide)

/-! ### C69 -/

/-- C69: what any history of calls has left in a database with three byte addresses is restored exactly by loading, into any
database, what `Save` writes; saving and loading report no error. -/
theorem save_load (ops : List DbOp) (db db' : MemDb) (c : Contents) (hdb : history MemDb.new Contents.empty ops = some (db, c))
    (h3 : ThreeBytes db.get) :
    ∃ data : List (BitVec 8), ∃ saved loaded : MemDb,
      db.save (fun (out : List (BitVec 8)) b => (out ++ b, none)) [] = (data, saved, none) ∧
      saved.dirty = false ∧ saved.get = db.get ∧
      db'.load (.ok data) = (loaded, none) ∧ loaded.get = db.get := by
  obtain ⟨m, h1, h2, -⟩ := unmarshal_marshal db db' (history_ok new_ok hdb) h3
  exact ⟨db.marshalJSON, { db with dirty := false }, ⟨m, db'.dirty, db.nilMap⟩, rfl, rfl, rfl, h1, h2⟩

theorem db59_three : ThreeBytes db59.get := by
  intro a i h
  have hm := (dbmap_get_mem db59.values (by unfold DbMap.Distinct; decide) a i).mp h
  simp only [db59, List.mem_cons, Prod.mk.injEq, List.not_mem_nil, or_false] at hm
  rcases hm with ⟨rfl, rfl⟩ | ⟨rfl, rfl⟩ <;> decide

example : (history MemDb.new Contents.empty [.put info5, .put info9]).map Prod.fst = some db59 ∧ ThreeBytes db59.get := ⟨by decide, db59_three⟩

/-- The text of a database of two devices, in order of the address text. -/
example : MemDb.marshalJSON ⟨[(0x0a0b0c, info9), (0x050607, info5)], true, false⟩ = lit ("{\"05.06.07\":{\"address\":\"05.06.07\",\"devCat\":\"01.02\"," ++
    "\"firmwareVersion\":3,\"engineVersion\":2},\"0a.0b.0c\":{\"address\":\"0a.0b.0c\",\"devCat\":\"02.08\"," ++
    "\"firmwareVersion\":65,\"engineVersion\":1}}") := by decide +kernel

/-- Without the restriction to three bytes C69 is false of the code. -/
theorem save_load_refuted : ¬ ∀ db db' : MemDb, (db'.load (.ok db.marshalJSON)).1.get = db.get := by
  intro h
  have := congrFun (h ⟨[(0x01000005, ⟨0x01000005, (1, 2), 3, 2⟩)], true, false⟩ MemDb.new) 0x01000005
  exact absurd this (by decide +kernel)

/-- C69: the text does not depend on the order in which Go iterates over the map. -/
theorem save_deterministic (db db' : MemDb) (hd : db.values.Distinct) (h3 : ThreeBytes db.get) (hp : db.values.Perm db'.values)
    (hn : db.nilMap = db'.nilMap) : db.marshalJSON = db'.marshalJSON := by
  unfold MemDb.marshalJSON
  rw [hn]
  congr 3
  have hle : ∀ x y : Address × DeviceInfo, MemDb.entryLe x y = true ↔ x.1.toNat % 2 ^ 24 ≤ y.1.toNat % 2 ^ 24 := by
    intro x y
    unfold MemDb.entryLe
    rw [Bool.not_eq_true', ← Bool.not_eq_true, strLt_address]
    omega
  have htr : IsTrans _ (fun x y : Address × DeviceInfo => MemDb.entryLe x y = true) := ⟨by
    intro a b c
    rw [hle, hle, hle]
    omega⟩
  have hto : Std.Total (fun x y : Address × DeviceInfo => MemDb.entryLe x y = true) := ⟨by
    intro a b
    rw [hle, hle]
    omega⟩
  have p1 : db.sorted.Perm db.values := List.perm_insertionSort _ _
  have p2 : db'.sorted.Perm db'.values := List.perm_insertionSort _ _
  have s1 : db.sorted.Pairwise fun x y => MemDb.entryLe x y = true := List.pairwise_insertionSort _ _
  have s2 : db'.sorted.Pairwise fun x y => MemDb.entryLe x y = true := List.pairwise_insertionSort _ _
  refine List.Perm.eq_of_pairwise (le := fun a b => MemDb.entryLe a b = true) ?_ s1 s2 (p1.trans (hp.trans p2.symm))
  intro a b ha hb hab hba
  rw [hle] at hab hba
  have ha' := p1.mem_iff.mp ha
  have hb' := hp.mem_iff.mpr (p2.mem_iff.mp hb)
  obtain ⟨a1, a2⟩ := a
  obtain ⟨b1, b2⟩ := b
  have h1 := (dbmap_get_mem _ hd a1 a2).mpr ha'
  have h2 := (dbmap_get_mem _ hd b1 b2).mpr hb'
  have e1 := (h3 _ _ h1).1
  have e2 := (h3 _ _ h2).1
  have : a1 = b1 := BitVec.eq_of_toNat_eq (by dsimp only at hab hba; omega)
  subst this
  rw [h1] at h2
  rw [Option.some.inj h2]

/-! ### C70 -/

/-- C70, what is proved: whatever the moment at which the program stops while saving, if what is then in the file can be loaded
without error it is the old file or the complete new one. -/
theorem crash_save_partial (db db' : MemDb) (old : Option (List (BitVec 8))) (found : Option (List (BitVec 8)))
    (h : found ∈ saveStates old db) (hload : (loadDB found db').2 = none) :
    found = old ∨ found = some db.marshalJSON := by
  unfold saveStates at h
  rcases List.mem_cons.mp h with rfl | h
  · exact Or.inl rfl
  · split_ifs at h
    · simp only [List.mem_map, List.mem_range] at h
      obtain ⟨k, hk, rfl⟩ := h
      right
      by_contra hne
      have hdrop : db.marshalJSON.drop k ≠ [] := by
        intro h0
        rw [List.drop_eq_nil_iff] at h0
        exact hne (by rw [List.take_of_length_le h0])
      have := marshal_prefix db (db.marshalJSON.take k) (db.marshalJSON.drop k) (by rw [List.take_append_drop]) hdrop
      simp only [loadDB, MemDb.load, MemDb.unmarshalJSON, this] at hload
      simp at hload
    · simp at h

/-- A write that fails part way leaves one of the states of a crash. -/
theorem failed_save_states (f : FileFault) (file : Option (List (BitVec 8))) (db : MemDb) : (saveDB f file db).1 ∈ saveStates file db := by
  unfold saveDB saveStates
  split_ifs with hd
  · rcases f with ⟨_ | e, w⟩
    · dsimp only [MemDb.save, FileFault.write]
      rcases w with _ | ⟨k, e⟩
      · refine List.mem_cons_of_mem _ (List.mem_map.mpr ⟨db.marshalJSON.length, by simp, by simp⟩)
      · refine List.mem_cons_of_mem _ (List.mem_map.mpr ⟨min k db.marshalJSON.length, ?_, ?_⟩)
        · rw [List.mem_range]; omega
        · dsimp only [Option.getD_some, List.nil_append]
          rcases Nat.le_total k db.marshalJSON.length with hk | hk
          · rw [Nat.min_eq_left hk]
          · rw [Nat.min_eq_right hk, List.take_of_length_le hk, List.take_length]
    · exact List.mem_cons_self
  · exact List.mem_cons_self

example : some [] ∈ saveStates (some (lit "{}")) db59 ∧ (loadDB (some []) MemDb.new).2 ≠ none ∧
    (loadDB (some (lit "{}")) MemDb.new).2 = none := by decide +kernel

/-- C70 in full is false of the code: the file can be left empty, which is neither the old nor the new database. -/
theorem crash_save_refuted :
    ¬ ∀ (db : MemDb) (old found : Option (List (BitVec 8))), found ∈ saveStates old db → found = old ∨ found = some db.marshalJSON := by
  intro h
  have := h db59 (some (lit "{}")) (some []) (by decide +kernel)
  exact absurd this (by decide +kernel)

/-! ### C71 -/

/-- C71: opening a known device causes no traffic, uses the stored info and changes nothing. -/
theorem open_known {σ : Type} (db : MemDb) (io : MsgIO σ) (fuel : Nat) (s : σ) (addr : Address) (info : DeviceInfo)
    (filters : List (MsgIO σ → MsgIO σ)) (h : db.get addr = some info) :
    db.openDevice io fuel s addr filters = some (s, db, .ok (some (info, io), none)) := by
  unfold MemDb.openDevice
  rw [h]

/-- C71, what is proved: opening an unknown device does what opening it directly does; its info is stored exactly if there was no
error, so a device that is not linked is returned but not stored. Excluded is the all-zero info of address 0. -/
theorem open_unknown_partial {σ : Type} (db db' : MemDb) (io : MsgIO σ) (fuel : Nat) (s s' : σ) (addr : Address)
    (dev : Option (DeviceInfo × MsgIO σ)) (err : Option Err) (filters : List (MsgIO σ → MsgIO σ)) (h : db.get addr = none)
    (ha : addr ≠ 0) (ho : db.openDevice io fuel s addr filters = some (s', db', .ok (dev, err))) :
    ∃ found info, Dev.open (applyFilters filters io) fuel s addr = some (s', .ok (found, info, err)) ∧
      info.address = addr ∧
      (dev = some (info, applyFilters filters io) ∧ (err = none ∨ err = some .notLinked) ∨
        dev = none ∧ err ≠ none ∧ err ≠ some .notLinked) ∧
      db'.get = if err = none then Contents.set db.get addr info else db.get := by
  unfold MemDb.openDevice at ho
  rw [h] at ho
  dsimp only at ho
  rcases hd : Dev.open (applyFilters filters io) fuel s addr with _ | ⟨s1, ⟨found, info, err1⟩ | e | _⟩ <;> rw [hd] at ho <;>
    simp only [reduceCtorEq, Option.some.injEq, Prod.mk.injEq, Out.ok.injEq, and_false] at ho
  rcases hput : (if err1 = none then db.put info else some db) with _ | db1 <;> rw [hput] at ho <;>
    simp only [reduceCtorEq, Option.some.injEq, Prod.mk.injEq, Out.ok.injEq, and_false] at ho
  obtain ⟨rfl, hdb, hdev, rfl⟩ := ho
  obtain ⟨k1, k2, -⟩ := open_device _ _ _ _ _ _ _ _ hd
  refine ⟨found, info, rfl, k1, ?_, ?_⟩
  · cases found with
    | true => exact Or.inl ⟨by rw [← hdev]; rfl, k2.mp rfl⟩
    | false =>
      refine Or.inr ⟨by rw [← hdev]; rfl, ?_, ?_⟩
      · intro h0; exact absurd (k2.mpr (Or.inl h0)) (by decide)
      · intro h0; exact absurd (k2.mpr (Or.inr h0)) (by decide)
  · rw [← hdb]
    split_ifs at hput ⊢ with he
    · funext b
      unfold Contents.set
      obtain ⟨-, p1, p2⟩ := database_map_partial db db1 info b (Or.inl (by rintro rfl; exact ha k1.symm)) hput
      split_ifs with hb
      · rw [hb, ← k1]; exact p1
      · exact p2 (by rw [k1]; exact hb)
    · rw [Option.some.inj hput]

example : (MemDb.openDevice MemDb.new (wireIO fun m => if m.command = 0x000d00 then .ret (some ⟨m.dst, 0, 0x2f, 0x000d02, []⟩) none else acks m) 5
    ⟨[⟨7, 0x012a43, 0x8b, 0x080100, []⟩], []⟩ 7 []).map (fun r => r.2.1.values) = some [(7, ⟨7, (1, 0x2a), 0x43, 2⟩)] := by
  rfl

/-- A device that is not linked: returned, not stored. -/
example : (MemDb.openDevice MemDb.new (wireIO fun m => .ret (some ⟨m.dst, 0, 0xaf, 0x000dff, []⟩) (some .devNak)) 5
    ⟨[], []⟩ 7 []).map (fun r => r.2.1.values) = some [] := by
  rfl

/-- C71 in full is false of the code: a device at address 0 whose answers are all zero is opened without error and not stored. -/
theorem open_unknown_refuted :
    ¬ ∀ (db db' : MemDb) (answer : Message → MRes) (w w' : Wire) (addr : Address) (info : DeviceInfo) (io : MsgIO Wire),
      db.openDevice (wireIO answer) 5 w addr [] = some (w', db', .ok (some (info, io), none)) → db'.get addr = some info := by
  intro h
  have := h MemDb.new MemDb.new acks ⟨[⟨0, 0, 0x8b, 0x080100, []⟩], []⟩ ⟨[], [⟨0, 0, 0x0a, 0x000d00, []⟩, ⟨0, 0, 0x0a, 0x001000, []⟩]⟩ 0
    ⟨0, (0, 0), 0, 0⟩ (wireIO acks) (by rfl)
  exact absurd this (by decide)

/-! ### C72 -/

/-- C72, what is proved: a memory database uses the filters for a device it does not know. -/
theorem database_filters_partial {σ : Type} (db db' : MemDb) (io : MsgIO σ) (fuel : Nat) (s s' : σ) (addr : Address)
    (info : DeviceInfo) (mw : MsgIO σ) (err : Option Err) (filters : List (MsgIO σ → MsgIO σ)) (h : db.get addr = none)
    (ho : db.openDevice io fuel s addr filters = some (s', db', .ok (some (info, mw), err))) :
    mw = applyFilters filters io := by
  unfold MemDb.openDevice at ho
  rw [h] at ho
  dsimp only at ho
  rcases hd : Dev.open (applyFilters filters io) fuel s addr with _ | ⟨s1, ⟨found, info1, err1⟩ | e | _⟩ <;> rw [hd] at ho <;>
    simp only [reduceCtorEq, Option.some.injEq, Prod.mk.injEq, Out.ok.injEq, and_false] at ho
  rcases hput : (if err1 = none then db.put info1 else some db) with _ | db1 <;> rw [hput] at ho <;>
    simp only [reduceCtorEq, Option.some.injEq, Prod.mk.injEq, Out.ok.injEq, and_false] at ho
  obtain ⟨-, -, hdev, -⟩ := ho
  split_ifs at hdev
  simp only [Option.some.injEq, Prod.mk.injEq] at hdev
  exact hdev.2.symm

/-- C72 in full is false of the code: a memory database drops the filters for a known device, and a file database always does. -/
theorem database_filters_refuted {σ : Type} (io : MsgIO σ) (s : σ) (addr : Address) (info : DeviceInfo)
    (filters : List (MsgIO σ → MsgIO σ)) (f : FileFault) :
    (∀ db : MemDb, db.get addr = some info → ∀ fuel, db.openDevice io fuel s addr filters = some (s, db, .ok (some (info, io), none))) ∧
    (∀ (db db' : FileDb) (fuel : Nat) (s' : σ) (i : DeviceInfo) (mw : MsgIO σ) (err : Option Err),
      db.openDevice f io fuel s addr filters = some (s', db', .ok (some (i, mw), err)) → mw = io) := by
  refine ⟨fun db h fuel => open_known db io fuel s addr info filters h, ?_⟩
  intro db db' fuel s' i mw err h
  unfold FileDb.openDevice at h
  rcases hd : db.mem.openDevice io fuel s addr [] with _ | ⟨s1, mem, ⟨dev, err1⟩ | e | _⟩ <;> rw [hd] at h <;>
    simp only [reduceCtorEq, Option.some.injEq, Prod.mk.injEq, Out.ok.injEq, and_false] at h
  obtain ⟨-, -, rfl, -⟩ := h
  rcases hg : db.mem.get addr with _ | i0
  · exact database_filters_partial _ _ _ _ _ _ _ _ _ _ _ hg hd
  · rw [open_known _ _ _ _ _ _ _ hg] at hd
    simp only [Option.some.injEq, Prod.mk.injEq, Out.ok.injEq] at hd
    exact hd.2.2.1.2.symm

/-- The filters would matter: with a time-to-live of 1 the message on the wire is another one. -/
example : ((ttlFilter 1 (wireIO acks)).write ⟨[], []⟩ ⟨0, 7, 0x0f, 0x001100, []⟩).1.sent ≠
    ((wireIO acks).write ⟨[], []⟩ ⟨0, 7, 0x0f, 0x001100, []⟩).1.sent := by decide

/-! ### C73 -/

theorem isIn_iff (c : DevCat) (ds : List Byte) : c.isIn ds = true ↔ c.1 ∈ ds := by
  induction ds with
  | nil => simp [DevCat.isIn]
  | cons d ds ih =>
    unfold DevCat.isIn
    split_ifs with h
    · simp [h]
    · rw [ih, List.mem_cons]
      exact ⟨Or.inr, fun h' => h'.resolve_left h⟩

/-- C73: after any history, filtering returns exactly the addresses whose category belongs to one of the domains, each once. -/
theorem database_filter (ops : List DbOp) (domains : List (BitVec 8)) (db : MemDb) (c : Contents)
    (hdb : history MemDb.new Contents.empty ops = some (db, c)) :
    (∀ a, a ∈ db.filter domains ↔ ∃ info, db.get a = some info ∧ info.devCat.1 ∈ domains) ∧ (db.filter domains).Nodup := by
  have hd : db.values.Distinct := (history_ok new_ok hdb).1
  constructor
  · intro a
    simp only [MemDb.filter, List.mem_map, List.mem_filter, isIn_iff, Prod.exists]
    constructor
    · rintro ⟨b, i, ⟨h1, h2⟩, rfl⟩
      exact ⟨i, (dbmap_get_mem _ hd _ _).mpr h1, h2⟩
    · rintro ⟨i, h1, h2⟩
      exact ⟨a, i, ⟨(dbmap_get_mem _ hd _ _).mp h1, h2⟩, rfl⟩
  · exact hd.sublist (List.filter_sublist.map Prod.fst)

example : db59.filter [2, 3] = [0x0a0b0c] := by decide

/-! ### C96: failed loads -/

/-- C96, what is proved: a reader that fails leaves the database as it is. -/
theorem failed_load_partial (db : MemDb) (e : Err) : db.load (.error e) = (db, some e) := rfl

/-- C96 in full is false of the code: text that is not JSON empties the database, whatever was in it. -/
theorem failed_load_refuted (db : MemDb) (data : List (BitVec 8)) (h : ∀ v, ¬ JsonText data v) :
    (db.load (.ok data)).2 ≠ none ∧ (db.load (.ok data)).1.get = Contents.empty := by
  have hr : Json.readDoc data = none := by
    rcases hr : Json.readDoc data with _ | v
    · rfl
    · exact absurd ((Json.readDoc_iff _ _).mp hr) (h v)
  simp only [MemDb.load, MemDb.unmarshalJSON, hr]
  exact ⟨by simp, rfl⟩

example : (∀ v, ¬ JsonText (ascii "{\"05.06.07\":{\"address\":\"05.0") v) ∧ db59.get 0x050607 = some info5 := by
  refine ⟨?_, by decide⟩
  intro v h
  rw [← Json.readDoc_iff, show Json.readDoc (ascii "{\"05.06.07\":{\"address\":\"05.0") = none by decide +kernel] at h
  cases h

/-! ### C97: no file yet -/

/-- C97: without a file there is an error, but the database that comes with it is empty and usable: storing a device creates
the file, and a new database on that file knows the device. -/
theorem missing_file_partial (info : DeviceInfo) (h : info.address.toNat < 2 ^ 24) (hz : info.address ≠ 0) :
    ∃ db e db' again, FileDb.new none = (db, some e) ∧ db.mem.get = Contents.empty ∧
      db.put FileFault.none info = some (db', none) ∧ FileDb.new db'.file = (again, none) ∧
      again.mem.get = Contents.set Contents.empty info.address info := by
  have hne : (DbMap.get [] info.address).getD DeviceInfo.zero ≠ info := by
    intro h0
    have : info.address = 0 := by rw [← h0]; rfl
    exact hz this
  have hp : MemDb.new.put info = some ⟨[(info.address, info)], true, false⟩ := by
    unfold MemDb.put
    rw [if_pos (by exact hne)]
    rfl
  have hput : FileDb.put FileFault.none ⟨MemDb.new, none⟩ info =
      some (⟨⟨[(info.address, info)], false, false⟩, some (MemDb.marshalJSON ⟨[(info.address, info)], true, false⟩)⟩, none) := by
    unfold FileDb.put FileDb.save
    dsimp only
    rw [hp]
    rfl
  have hg : DbMap.get [(info.address, info)] = Contents.set Contents.empty info.address info := by
    funext a
    simp only [DbMap.get, Contents.set, Contents.empty, eq_comm]
  obtain ⟨m, h1, h2, -⟩ := unmarshal_marshal ⟨[(info.address, info)], true, false⟩ MemDb.new ⟨by simp [DbMap.Distinct], by simp⟩ (by
    intro a i hi
    rw [show MemDb.get ⟨[(info.address, info)], true, false⟩ = DbMap.get [(info.address, info)] from rfl, hg] at hi
    unfold Contents.set Contents.empty at hi
    split_ifs at hi with ha
    simp only [Option.some.injEq] at hi
    subst hi; subst ha
    exact ⟨h, h⟩)
  refine ⟨_, _, _, ⟨⟨m, MemDb.new.dirty, false⟩, some (MemDb.marshalJSON ⟨[(info.address, info)], true, false⟩)⟩, rfl, rfl, hput, ?_, ?_⟩
  · unfold FileDb.new loadDB MemDb.load
    dsimp only
    rw [h1]
  · exact h2.trans hg

/-- C97 in full, that a missing file is not an error, is false of the code. -/
theorem missing_file_refuted : (FileDb.new none).2 ≠ none := by decide

/-! ### C98: the file follows the database -/

/-- The file, read again, has the content of the database. -/
def Spec.FileCurrent (db : FileDb) : Prop := ∃ mem, loadDB db.file MemDb.new = (mem, none) ∧ mem.get = db.mem.get

theorem memOpen_put {σ : Type} (db db' : MemDb) (io : MsgIO σ) (fuel : Nat) (s s' : σ) (addr : Address) (filters : List (MsgIO σ → MsgIO σ))
    (r : Option (DeviceInfo × MsgIO σ) × Option Err) (h : db.openDevice io fuel s addr filters = some (s', db', .ok r)) :
    db' = db ∨ ∃ info, info.address = addr ∧ db.put info = some db' ∧ r.2 = none ∧ db.get addr = none := by
  unfold MemDb.openDevice at h
  rcases hg : db.get addr with _ | i
  · rw [hg] at h
    dsimp only at h
    rcases hd : Dev.open (applyFilters filters io) fuel s addr with _ | ⟨s1, ⟨found, info1, err1⟩ | e | _⟩ <;> rw [hd] at h <;>
      simp only [reduceCtorEq, Option.some.injEq, Prod.mk.injEq, and_false] at h
    rcases hput : (if err1 = none then db.put info1 else some db) with _ | db1 <;> rw [hput] at h <;>
      simp only [reduceCtorEq, Option.some.injEq, Prod.mk.injEq, and_false] at h
    obtain ⟨-, rfl, hr⟩ := h
    split_ifs at hput with he
    · refine Or.inr ⟨info1, (open_device _ _ _ _ _ _ _ _ hd).1, hput, ?_, rfl⟩
      rw [← Out.ok.inj hr]
      exact he
    · exact Or.inl (Option.some.inj hput).symm
  · rw [hg] at h
    simp only [Option.some.injEq, Prod.mk.injEq] at h
    exact Or.inl h.2.1.symm

/-- What the calls on a file database keep: if nothing needs saving, the file is current. -/
def FileInv (db : FileDb) : Prop :=
  db.mem.Ok ∧ ThreeBytes db.mem.get ∧ (db.mem.dirty = false → FileCurrent db)

theorem file_current_saved (db : MemDb) (hd : db.Ok) (h3 : ThreeBytes db.get) :
    FileCurrent ⟨{ db with dirty := false }, some db.marshalJSON⟩ := by
  obtain ⟨m, h1, h2, -⟩ := unmarshal_marshal db MemDb.new hd h3
  exact ⟨_, h1, h2⟩

theorem save_inv (f : FileFault) (db : FileDb) (err : Option Err) (hd : db.mem.Ok) (h3 : ThreeBytes db.mem.get)
    (hc : db.mem.dirty = false → FileCurrent db) :
    FileInv (db.save f err).1 ∧ ((db.save f err).2 = none → FileCurrent (db.save f err).1) := by
  unfold FileDb.save
  split_ifs with h
  · obtain ⟨rfl, hdirty⟩ := h
    unfold saveDB
    rw [if_pos hdirty]
    rcases f with ⟨_ | e, w⟩
    · dsimp only [MemDb.save, FileFault.write]
      rcases w with _ | ⟨k, e⟩
      · have := file_current_saved db.mem hd h3
        exact ⟨⟨hd, h3, fun _ => this⟩, fun _ => this⟩
      · dsimp only
        refine ⟨⟨hd, h3, ?_⟩, by simp⟩
        intro h0
        rw [hdirty] at h0
        exact absurd h0 (by decide)
    · dsimp only
      refine ⟨⟨hd, h3, ?_⟩, by simp⟩
      intro h0
      rw [hdirty] at h0
      exact absurd h0 (by decide)
  · refine ⟨⟨hd, h3, hc⟩, ?_⟩
    intro he
    have he : err = none := he
    apply hc
    rw [not_and] at h
    exact Bool.not_eq_true _ ▸ h he

theorem put_inv (db : FileDb) (mem : MemDb) (info : DeviceInfo) (h : FileInv db) (hi : info.address.toNat < 2 ^ 24)
    (hp : db.mem.put info = some mem) : FileInv ⟨mem, db.file⟩ := by
  obtain ⟨h1, h2, h3⟩ := h
  refine ⟨put_ok h1 hp, ?_⟩
  unfold MemDb.put at hp
  split_ifs at hp <;> simp only [Option.some.injEq] at hp <;> subst hp
  · refine ⟨?_, by simp⟩
    intro a i ha
    rw [MemDb.get, dbmap_get_put] at ha
    split_ifs at ha with hb
    · simp only [Option.some.injEq] at ha
      subst ha; subst hb
      exact ⟨hi, hi⟩
    · exact h2 a i ha
  · exact ⟨h2, h3⟩

theorem run_inv {σ : Type} (db db' : FileDb) (err : Option Err) (op : FileOp σ) (h : FileInv db)
    (hop : (∀ f info, op = .put f info → info.address.toNat < 2 ^ 24) ∧
      (∀ f io fuel s addr filters, op = .openDevice f io fuel s addr filters → addr.toNat < 2 ^ 24))
    (hr : op.run db = some (db', err)) : FileInv db' ∧ (err = none → FileCurrent db') := by
  cases op with
  | put f info =>
    simp only [FileOp.run, FileDb.put, Option.map_eq_some_iff] at hr
    obtain ⟨mem, hp, hr⟩ := hr
    obtain ⟨h1, h2, h3⟩ := put_inv db mem info h (hop.1 f info rfl) hp
    have := save_inv f { db with mem := mem } none h1 h2 h3
    rw [hr] at this
    exact this
  | openDevice f io fuel s addr filters =>
    unfold FileOp.run FileDb.openDevice at hr
    dsimp only at hr
    rcases hd : db.mem.openDevice io fuel s addr [] with _ | ⟨s1, mem, ⟨dev, err1⟩ | e | _⟩ <;> rw [hd] at hr <;>
      simp only [reduceCtorEq, Option.some.injEq] at hr
    have hm := memOpen_put _ _ _ _ _ _ _ _ _ hd
    have key : mem.Ok ∧ ThreeBytes mem.get ∧ (mem.dirty = false → FileCurrent { db with mem := mem }) := by
      rcases hm with rfl | ⟨info, hi, hp, -⟩
      · exact h
      · exact put_inv db mem info h (by rw [hi]; exact hop.2 f io fuel s addr filters rfl) hp
    have := save_inv f { db with mem := mem } err1 key.1 key.2.1 key.2.2
    rw [Prod.mk.injEq] at hr
    rw [hr.1, hr.2] at this
    exact this

/-- C98: starting from a file that could be loaded, after any sequence of calls with any failures of the file, if
the last call reports no error then reading the file again gives exactly the content of the database. Addresses have
three bytes. -/
theorem file_follows {σ : Type} (file : Option (List (BitVec 8))) (ops : List (FileOp σ)) (last : FileOp σ) (db0 db1 db2 : FileDb)
    (e1 : Option Err) (h0 : FileDb.new file = (db0, none)) (h3 : ThreeBytes db0.mem.get)
    (hops : ∀ op ∈ ops ++ [last], (∀ f info, op = .put f info → info.address.toNat < 2 ^ 24) ∧
      (∀ f io fuel s addr filters, op = .openDevice f io fuel s addr filters → addr.toNat < 2 ^ 24))
    (h1 : FileOp.runAll (db0, none) ops = some (db1, e1)) (h2 : last.run db1 = some (db2, none)) :
    ∃ mem, loadDB db2.file MemDb.new = (mem, none) ∧ mem.get = db2.mem.get := by
  have hinit : FileInv db0 := by
    unfold FileDb.new at h0
    simp only [Prod.mk.injEq] at h0
    obtain ⟨rfl, h0⟩ := h0
    refine ⟨?_, h3, fun _ => ⟨_, Prod.ext rfl h0, rfl⟩⟩
    unfold loadDB
    cases file with
    | none => exact new_ok
    | some data => exact unmarshal_ok MemDb.new data
  have key : ∀ (ops : List (FileOp σ)) (db : FileDb) (e : Option Err), FileInv db →
      (∀ op ∈ ops, (∀ f info, op = .put f info → info.address.toNat < 2 ^ 24) ∧
        (∀ f io fuel s addr filters, op = .openDevice f io fuel s addr filters → addr.toNat < 2 ^ 24)) →
      FileOp.runAll (db, e) ops = some (db1, e1) → FileInv db1 := by
    intro ops
    induction ops with
    | nil =>
      intro db e hi _ h
      simp only [FileOp.runAll, Option.some.injEq, Prod.mk.injEq] at h
      exact h.1 ▸ hi
    | cons op ops ih =>
      intro db e hi ho h
      unfold FileOp.runAll at h
      rcases hr : op.run db with _ | ⟨db', e'⟩ <;> dsimp only at h <;> rw [hr] at h
      · simp at h
      · exact ih db' e' (run_inv db db' e' op hi (ho op (by simp)) hr).1 (fun op hm => ho op (by simp [hm])) h
  exact (run_inv db1 db2 none last (key ops db0 none hinit (fun op hm => hops op (by simp [hm])) h1) (hops last (by simp)) h2).2 rfl

/-- A write that fails half way, then a store of something already there: the file is repaired. -/
example : FileDb.new (some (lit "{}")) = (⟨MemDb.new, some (lit "{}")⟩, none) ∧
    FileOp.runAll (σ := Unit) (⟨MemDb.new, some (lit "{}")⟩, none) [.put ⟨none, some (5, .eof)⟩ info5, .put FileFault.none info5] =
      some (⟨⟨[(0x050607, info5)], false, false⟩, some (lit ("{\"05.06.07\":{\"address\":\"05.06.07\",\"devCat\":\"01.02\"," ++
        "\"firmwareVersion\":3,\"engineVersion\":2}}"))⟩, none) := by decide +kernel

end Insteon
