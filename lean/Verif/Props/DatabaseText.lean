import Verif.Props.Database

/-
Properties C180 and C181: which files are databases, and what can be done after loading one.
-/

namespace Insteon
open Spec

/-! ### C180 -/

theorem fields_error (fs : List (Bytes × Json.Value)) (i j : DeviceInfo) (e : Err) (e' : Option Err)
    (h : decodeFields fs i (some e) = .ok (j, e')) : e' = some e := by
  induction fs generalizing i with
  | nil =>
    simp only [decodeFields, Except.ok.injEq, Prod.mk.injEq] at h
    exact h.2.symm
  | cons f fs ih =>
    obtain ⟨k, v⟩ := f
    rw [decodeFields] at h
    split_ifs at h
    · rcases hu : i.address.unmarshalJSON v with ⟨a, _ | err⟩ <;> rw [hu] at h
      · exact ih _ h
      · cases h
    · rcases hu : DevCat.unmarshalJSON v with _ | c <;> rw [hu] at h
      · cases h
      · exact ih _ h
    · exact ih _ h
    · exact ih _ h
    · exact ih _ h

/-- A key is the name of at most one field. -/
theorem one_name (k : Bytes) :
    (nameEq (lit "address") k = true → nameEq (lit "devCat") k = false ∧ nameEq (lit "firmwareVersion") k = false ∧
      nameEq (lit "engineVersion") k = false) ∧
    (nameEq (lit "devCat") k = true → nameEq (lit "firmwareVersion") k = false ∧ nameEq (lit "engineVersion") k = false) ∧
    (nameEq (lit "firmwareVersion") k = true → nameEq (lit "engineVersion") k = false) := by
  have a : lit "address" = 0x61#8 :: (lit "address").tail := by decide
  have d : lit "devCat" = 0x64#8 :: (lit "devCat").tail := by decide
  have f : lit "firmwareVersion" = 0x66#8 :: (lit "firmwareVersion").tail := by decide
  have g : lit "engineVersion" = 0x65#8 :: (lit "engineVersion").tail := by decide
  refine ⟨fun h => ?_, fun h => ?_, fun h => ?_⟩
  · rw [a] at h
    rw [d, f, g]
    exact ⟨names_differ _ _ _ _ _ h (by decide) (by decide) (by decide), names_differ _ _ _ _ _ h (by decide) (by decide) (by decide),
      names_differ _ _ _ _ _ h (by decide) (by decide) (by decide)⟩
  · rw [d] at h
    rw [f, g]
    exact ⟨names_differ _ _ _ _ _ h (by decide) (by decide) (by decide), names_differ _ _ _ _ _ h (by decide) (by decide) (by decide)⟩
  · rw [f] at h
    rw [g]
    exact names_differ _ _ _ _ _ h (by decide) (by decide) (by decide)

theorem decodeFields_say (fs : List (Bytes × Json.Value)) (i j : DeviceInfo) : decodeFields fs i none = .ok (j, none) → FieldsSay i fs j := by
  induction fs generalizing i with
  | nil =>
    intro h
    simp only [decodeFields, Except.ok.injEq, Prod.mk.injEq, and_true] at h
    exact h ▸ .done i
  | cons f fs ih =>
    obtain ⟨k, v⟩ := f
    intro h
    rw [decodeFields] at h
    split_ifs at h with h1 h2 h3 h4
    · rcases hu : i.address.unmarshalJSON v with ⟨a, _ | err⟩ <;> rw [hu] at h
      · cases v <;> simp only [Address.unmarshalJSON, Prod.mk.injEq, reduceCtorEq, and_false] at hu
        · exact absurd hu (address_empty _ _)
        · exact .address ((name_address k).mp h1) ((address_says _ _ _).mp hu) (ih _ h)
      · cases h
    · rcases hu : DevCat.unmarshalJSON v with _ | c <;> rw [hu] at h
      · cases h
      · cases v <;> simp only [DevCat.unmarshalJSON, reduceCtorEq, category_empty] at hu
        exact .category ((name_devCat k).mp h2) ((category_says _ _).mp hu) (ih _ h)
    · rcases hu : decodeInt i.firmwareVersion v with ⟨x, _ | e⟩ <;> rw [hu] at h
      · exact .firmware ((name_firmware k).mp h3) ((version_says _ _ _).mp hu) (ih _ h)
      · exact absurd (fields_error _ _ _ _ _ h) (by simp)
    · rcases hu : decodeInt i.engineVersion v with ⟨x, _ | e⟩ <;> rw [hu] at h
      · exact .engine ((name_engine k).mp h4) ((version_says _ _ _).mp hu) (ih _ h)
      · exact absurd (fields_error _ _ _ _ _ h) (by simp)
    · refine .other ?_ (ih _ h)
      intro n hn
      simp only [List.mem_cons, List.not_mem_nil, or_false] at hn
      rcases hn with rfl | rfl | rfl | rfl
      · rwa [← name_address]
      · rwa [← name_devCat]
      · rwa [← name_firmware]
      · rwa [← name_engine]

theorem fieldsSay_decode {fs : List (Bytes × Json.Value)} {i j : DeviceInfo} (h : FieldsSay i fs j) : decodeFields fs i none = .ok (j, none) := by
  induction h with
  | done i => rfl
  | @address i k s a fs j hk ha _ ih =>
    rw [decodeFields, if_pos ((name_address k).mpr hk), show i.address.unmarshalJSON (.str s) = (a, none) from (address_says _ _ _).mpr ha]
    exact ih
  | @category i k s c fs j hk hc _ ih =>
    have h1 := (name_devCat k).mpr hk
    have h0 : ¬ nameEq (lit "address") k = true := fun h => by rw [((one_name k).1 h).1] at h1; cases h1
    rw [decodeFields, if_neg h0, if_pos h1, show DevCat.unmarshalJSON (.str s) = some c from (category_says _ _).mpr hc]
    exact ih
  | @firmware i k v x fs j hk hv _ ih =>
    have h1 := (name_firmware k).mpr hk
    have h0 : ¬ nameEq (lit "address") k = true := fun h => by rw [((one_name k).1 h).2.1] at h1; cases h1
    have h2 : ¬ nameEq (lit "devCat") k = true := fun h => by rw [((one_name k).2.1 h).1] at h1; cases h1
    rw [decodeFields, if_neg h0, if_neg h2, if_pos h1, (version_says _ _ _).mpr hv]
    exact ih
  | @engine i k v x fs j hk hv _ ih =>
    have h1 := (name_engine k).mpr hk
    have h0 : ¬ nameEq (lit "address") k = true := fun h => by rw [((one_name k).1 h).2.2] at h1; cases h1
    have h2 : ¬ nameEq (lit "devCat") k = true := fun h => by rw [((one_name k).2.1 h).2] at h1; cases h1
    have h3 : ¬ nameEq (lit "firmwareVersion") k = true := fun h => by rw [(one_name k).2.2 h] at h1; cases h1
    rw [decodeFields, if_neg h0, if_neg h2, if_neg h3, if_pos h1, (version_says _ _ _).mpr hv]
    exact ih
  | @other i k v fs j hk _ ih =>
    rw [decodeFields, if_neg (by rw [name_address]; exact hk _ (by simp)), if_neg (by rw [name_devCat]; exact hk _ (by simp)),
      if_neg (by rw [name_firmware]; exact hk _ (by simp)), if_neg (by rw [name_engine]; exact hk _ (by simp))]
    exact ih

theorem entry_error (v : Json.Value) (i : DeviceInfo) (e : Err) (e' : Option Err) (h : decodeEntry v (some e) = .ok (i, e')) : e' = some e := by
  cases v with
  | obj fs => exact fields_error _ _ _ _ _ h
  | _ =>
    simp only [decodeEntry, Except.ok.injEq, Prod.mk.injEq] at h
    exact h.2.symm

theorem entry_says (v : Json.Value) (i : DeviceInfo) : decodeEntry v none = .ok (i, none) ↔ EntrySays v i := by
  unfold EntrySays
  cases v with
  | obj fs =>
    simp only [decodeEntry, reduceCtorEq, false_and, false_or, Json.Value.obj.injEq]
    constructor
    · intro h; exact ⟨fs, rfl, decodeFields_say _ _ _ h⟩
    · rintro ⟨_, rfl, h⟩; exact fieldsSay_decode h
  | null =>
    simp only [decodeEntry, Except.ok.injEq, Prod.mk.injEq, and_true, true_and, reduceCtorEq, false_and, exists_false, or_false]
    exact eq_comm
  | _ => simp [decodeEntry]

theorem doc_error (es : List (Bytes × Json.Value)) (m : DbMap) (e : Err) : (decodeDoc es m (some e)).2 ≠ none := by
  induction es generalizing m with
  | nil => simp [decodeDoc]
  | cons x es ih =>
    obtain ⟨k, v⟩ := x
    unfold decodeDoc
    rcases hd : decodeEntry v (some e) with err | ⟨i, e'⟩
    · simp
    · dsimp only
      rw [entry_error v i e e' hd]
      rcases Address.set 0 k with ⟨a, _ | err⟩
      · exact ih _
      · simp

theorem put_get (m : DbMap) (a : Address) (i : DeviceInfo) : (m.put a i).get = Contents.set m.get a i := by
  funext b
  rw [dbmap_get_put]
  rfl

theorem decodeDoc_say (es : List (Bytes × Json.Value)) (m : DbMap) (h : (decodeDoc es m none).2 = none) :
    EntriesSay m.get es (decodeDoc es m none).1.get := by
  induction es generalizing m with
  | nil => exact .done _
  | cons x es ih =>
    obtain ⟨k, v⟩ := x
    unfold decodeDoc at h ⊢
    rcases hd : decodeEntry v none with err | ⟨i, _ | e⟩ <;> rw [hd] at h <;> dsimp only at h ⊢
    · cases h
    · rcases ha : Address.set 0 k with ⟨a, _ | err⟩ <;> rw [ha] at h <;> dsimp only at h ⊢
      · refine .entry ((address_says 0 a k).mp ha) ((entry_says v i).mp hd) ?_
        rw [← put_get]
        exact ih _ h
      · cases h
    · rcases ha : Address.set 0 k with ⟨a, _ | err⟩ <;> rw [ha] at h <;> dsimp only at h ⊢
      · exact absurd h (doc_error _ _ _)
      · cases h

theorem entriesSay_decode {es : List (Bytes × Json.Value)} {c d : Contents} (h : EntriesSay c es d) (m : DbMap) (hm : m.get = c) :
    (decodeDoc es m none).2 = none ∧ (decodeDoc es m none).1.get = d := by
  induction h generalizing m with
  | done c => exact ⟨rfl, hm⟩
  | @entry c k v a i es d ha hv _ ih =>
    unfold decodeDoc
    rw [(entry_says v i).mpr hv]
    dsimp only
    rw [(address_says 0 a k).mpr ha]
    dsimp only
    exact ih _ (by rw [put_get, hm])

/-- C180: a text is loaded without error exactly if it is a database text, and then the content is the one it says, whatever was
in the database before. -/
theorem database_text (db : MemDb) (s : List (BitVec 8)) (c : Contents) :
    (∃ db', db.load (.ok s) = (db', none) ∧ db'.get = c) ↔ DatabaseText s c := by
  unfold DatabaseText
  constructor
  · rintro ⟨db', h, rfl⟩
    simp only [MemDb.load, MemDb.unmarshalJSON] at h
    rcases hr : Json.readDoc s with _ | _ | _ | _ | _ | _ | es <;> rw [hr] at h <;>
      simp only [Prod.mk.injEq, reduceCtorEq, and_false, and_true] at h
    · subst h
      exact Or.inl ⟨(Json.readDoc_iff _ _).mp hr, rfl⟩
    · obtain ⟨rfl, h⟩ := h
      exact Or.inr ⟨es, (Json.readDoc_iff _ _).mp hr, decodeDoc_say es [] h⟩
  · rintro (⟨h, rfl⟩ | ⟨es, h, hs⟩)
    · simp only [MemDb.load, MemDb.unmarshalJSON, (Json.readDoc_iff _ _).mpr h]
      exact ⟨_, rfl, rfl⟩
    · obtain ⟨h1, h2⟩ := entriesSay_decode hs [] rfl
      simp only [MemDb.load, MemDb.unmarshalJSON, (Json.readDoc_iff _ _).mpr h]
      exact ⟨{ db with values := (decodeDoc es [] none).1, nilMap := false }, by rw [h1], h2⟩

/-- A file written by hand: blanks, names in other cases, escapes, a field nobody knows, a category in one digit, the same device twice. -/
example : MemDb.new.load (.ok (ascii (" {\"5.6.7\" : {\"Address\": \"05.06.07\", \"DEVCAT\": \"1.2\", \"note\": [1, {\"x\": null}], " ++
      "\"firmwareVersion\": 3, \"engineVer\\u0073ion\": 2},\n \"050607\": {\"address\": \"05\\u002e06.07\", \"engineVersion\": null}} "))) =
    (⟨[(0x050607, ⟨0x050607, (0, 0), 0, 0⟩)], false, false⟩, none) := by decide +kernel

/-- A number with a fraction is no version: an error. -/
example : (MemDb.new.load (.ok (ascii "{\"05.06.07\": {\"firmwareVersion\": 3.0}}"))).2 ≠ none := by decide +kernel

/-- C180: no text says two things. -/
theorem database_text_unique (s : List (BitVec 8)) (c d : Contents) (h : DatabaseText s c) (h' : DatabaseText s d) : c = d := by
  obtain ⟨x, h1, rfl⟩ := (database_text MemDb.new s c).mpr h
  obtain ⟨y, h2, rfl⟩ := (database_text MemDb.new s d).mpr h'
  rw [h1, Prod.mk.injEq] at h2
  rw [h2.1]

/-- C180: what a database with three byte addresses writes is a database text that says what is in it. -/
theorem saved_text (ops : List DbOp) (db : MemDb) (c : Contents) (hdb : history MemDb.new Contents.empty ops = some (db, c))
    (h3 : ThreeBytes db.get) : ∃ data saved, db.save (fun (out : List (BitVec 8)) b => (out ++ b, none)) [] = (data, saved, none) ∧
      DatabaseText data db.get := by
  obtain ⟨data, saved, loaded, h1, -, -, h4, h5⟩ := save_load ops db MemDb.new c hdb h3
  exact ⟨data, saved, h1, (database_text MemDb.new data db.get).mp ⟨loaded, h4, h5⟩⟩

/-- C180: an entry whose key is another address than the one inside is accepted: the device is known under the key. -/
example : ((MemDb.new.load (.ok (ascii "{\"01.02.03\": {\"address\": \"05.06.07\"}}"))).1.get 0x010203) =
    some ⟨0x050607, (0, 0), 0, 0⟩ := by decide +kernel

/-! ### C181 -/

theorem history_returns (ops : List DbOp) (db : MemDb) (c : Contents) (hn : db.nilMap = false)
    (h : ∀ data, DbOp.load (.ok data) ∈ ops → ¬ JsonText data .null) : ∃ r, history db c ops = some r := by
  induction ops generalizing db c with
  | nil => exact ⟨_, rfl⟩
  | cons op ops ih =>
    have h' : ∀ data, DbOp.load (.ok data) ∈ ops → ¬ JsonText data .null := fun data hd => h data (List.mem_cons_of_mem _ hd)
    rw [history]
    cases op with
    | put info =>
      have hp : ∃ d, db.put info = some d ∧ d.nilMap = false := by
        unfold MemDb.put
        split_ifs with h1 h2
        · rw [hn] at h2; cases h2
        · exact ⟨_, rfl, hn⟩
        · exact ⟨_, rfl, hn⟩
      obtain ⟨d, hp, hd⟩ := hp
      simp only [DbOp.run, hp, Option.map_some]
      exact ih _ _ hd h'
    | save f =>
      simp only [DbOp.run, MemDb.save]
      cases f <;> exact ih _ _ hn h'
    | load input =>
      simp only [DbOp.run]
      refine ih _ _ ?_ h'
      cases input with
      | error e => exact hn
      | ok data =>
        have h0 := h data List.mem_cons_self
        rw [← Json.readDoc_iff] at h0
        simp only [MemDb.load, MemDb.unmarshalJSON]
        rcases hr : Json.readDoc data with _ | _ | _ | _ | _ | _ | es
        · rfl
        · exact absurd hr h0
        all_goals rfl

/-- C181, what is proved: as long as no text is loaded that is just `null`, no call panics, whatever is stored, saved and loaded. -/
theorem store_returns_partial (ops : List DbOp) (h : ∀ data, DbOp.load (.ok data) ∈ ops → ¬ JsonText data .null) :
    ∃ db saved, history MemDb.new Contents.empty ops = some (db, saved) := by
  obtain ⟨⟨db, c⟩, h⟩ := history_returns ops MemDb.new Contents.empty rfl h
  exact ⟨db, c, h⟩

example : ∀ data, DbOp.load (.ok data) ∈ [.load (.ok (ascii "{}")), .put info5, .save none, .load (.ok (ascii "nul")), .put info9] →
    ¬ JsonText data .null := by
  intro data h
  simp only [List.mem_cons, DbOp.load.injEq, Except.ok.injEq, reduceCtorEq, List.not_mem_nil, or_false, false_or] at h
  rw [← Json.readDoc_iff]
  rcases h with rfl | rfl
  · rw [show Json.readDoc (ascii "{}") = some (.obj []) by rfl]
    simp
  · rw [show Json.readDoc (ascii "nul") = none by rfl]
    simp

/-- C181 in full is false of the code: a file that is just `null` is loaded without error, and then storing a device panics; so does a file
database on such a file, for every device whose info is not all zero. -/
theorem store_returns_refuted (data : List (BitVec 8)) (h : JsonText data .null) (info : DeviceInfo) (hi : info ≠ ⟨0, (0, 0), 0, 0⟩) (db : MemDb)
    (f : FileFault) :
    (db.load (.ok data)).2 = none ∧ (db.load (.ok data)).1.get = Contents.empty ∧ (db.load (.ok data)).1.put info = none ∧
    (FileDb.new (some data)).2 = none ∧ (FileDb.new (some data)).1.put f info = none := by
  have hp : ∀ d : Bool, MemDb.put ⟨[], d, true⟩ info = none := by
    intro d
    unfold MemDb.put
    rw [if_pos (by simpa [DbMap.get, DeviceInfo.zero] using hi.symm), if_pos rfl]
  have hr := (Json.readDoc_iff _ _).mpr h
  simp only [FileDb.new, loadDB, FileDb.put, MemDb.load, MemDb.unmarshalJSON, hr, hp]
  exact ⟨trivial, rfl, trivial, trivial, rfl⟩

example : JsonText (ascii "\n null ") .null := by
  rw [← Json.readDoc_iff]
  rfl

end Insteon
