import Verif.Spec.Programs
import Verif.Props.DatabaseText

/-
Properties C182 - C185: programs that use the same database file.
-/

namespace Insteon
open Spec

/-- What the opening of a device, with a file that works, does to a database that needs no saving: nothing, or one more device is known and the
file has been written. -/
theorem opens_step {σ : Type} (op : FileOp σ) (ho : Opens op) (db db' : FileDb) (err : Option Err) (hok : db.mem.Ok) (h3 : ThreeBytes db.mem.get)
    (hc : db.mem.dirty = false) (hr : op.run db = some (db', err)) :
    db'.mem.Ok ∧ ThreeBytes db'.mem.get ∧ db'.mem.dirty = false ∧ Remembers db.mem.get db'.mem.get ∧ (db' = db ∨ FileCurrent db') := by
  obtain ⟨io, fuel, s, addr, filters, rfl, ha, hl⟩ := ho
  unfold FileOp.run FileDb.openDevice at hr
  dsimp only at hr
  rcases hd : db.mem.openDevice io fuel s addr [] with _ | ⟨s1, mem, ⟨dev, err1⟩ | e | _⟩ <;> rw [hd] at hr <;>
    simp only [reduceCtorEq, Option.some.injEq, Prod.mk.injEq] at hr
  have same : ∀ e : Option Err, FileDb.save FileFault.none { db with mem := db.mem } e = (db, e) := by
    intro e
    unfold FileDb.save
    rw [if_neg (by rintro ⟨-, h⟩; rw [hc] at h; cases h)]
  have stay : mem = db.mem → db'.mem.Ok ∧ ThreeBytes db'.mem.get ∧ db'.mem.dirty = false ∧ Remembers db.mem.get db'.mem.get ∧
      (db' = db ∨ FileCurrent db') := by
    rintro rfl
    rw [same] at hr
    rw [← hr.1]
    exact ⟨hok, h3, hc, fun _ _ h => h, Or.inl rfl⟩
  rcases memOpen_put _ _ _ _ _ _ _ _ _ hd with h | ⟨info, hi, hp, he, hn⟩
  · exact stay h
  · have hok' := put_ok hok hp
    unfold MemDb.put at hp
    split_ifs at hp with h1 h2 <;> simp only [Option.some.injEq] at hp
    · dsimp only at he
      subst hp he
      unfold FileDb.save saveDB at hr
      dsimp only [FileFault.none, MemDb.save, FileFault.write] at hr
      rw [if_pos ⟨rfl, rfl⟩, if_pos rfl] at hr
      have h3' : ThreeBytes (DbMap.get (db.mem.values.put info.address info)) := by
        intro a i hg
        rw [dbmap_get_put] at hg
        split_ifs at hg with hb
        · simp only [Option.some.injEq] at hg
          subst hg; subst hb
          rw [hi]; exact ⟨hl, hl⟩
        · exact h3 a i hg
      rw [← hr.1]
      refine ⟨hok', h3', rfl, ?_, Or.inr ?_⟩
      · intro a i hg
        have hne : a ≠ info.address := by
          rintro rfl
          rw [hi] at hg
          rw [hn] at hg
          cases hg
        show DbMap.get _ a = some i
        rw [dbmap_get_put, if_neg hne]
        exact hg
      · exact file_current_saved { db.mem with values := db.mem.values.put info.address info, dirty := true } hok' h3'
    · exact stay hp.symm

theorem opens_all {σ : Type} (ops : List (FileOp σ)) (ho : ∀ op ∈ ops, Opens op) (db db' : FileDb) (e err : Option Err) (hok : db.mem.Ok)
    (h3 : ThreeBytes db.mem.get) (hc : db.mem.dirty = false) (hf : FileCurrent db) (hr : FileOp.runAll (db, e) ops = some (db', err)) :
    db'.mem.Ok ∧ ThreeBytes db'.mem.get ∧ FileCurrent db' ∧ Remembers db.mem.get db'.mem.get := by
  induction ops generalizing db e with
  | nil =>
    simp only [FileOp.runAll, Option.some.injEq, Prod.mk.injEq] at hr
    rw [← hr.1]
    exact ⟨hok, h3, hf, fun _ _ h => h⟩
  | cons op ops ih =>
    unfold FileOp.runAll at hr
    rcases h1 : op.run db with _ | ⟨db1, e1⟩ <;> dsimp only at hr <;> rw [h1] at hr
    · cases hr
    · obtain ⟨k1, k2, k3, k4, k5⟩ := opens_step op (ho op List.mem_cons_self) db db1 e1 hok h3 hc h1
      obtain ⟨j1, j2, j3, j4⟩ := ih (fun o h => ho o (List.mem_cons_of_mem _ h)) db1 e1 k1 k2 k3 (by
        rcases k5 with rfl | h
        · exact hf
        · exact h) hr
      exact ⟨j1, j2, j3, fun a i h => j4 a i (k4 a i h)⟩

theorem opens_clean {σ : Type} (ops : List (FileOp σ)) (ho : ∀ op ∈ ops, Opens op) (db db' : FileDb) (e err : Option Err) (hok : db.mem.Ok)
    (h3 : ThreeBytes db.mem.get) (hc : db.mem.dirty = false) (hr : FileOp.runAll (db, e) ops = some (db', err)) :
    db'.mem.dirty = false := by
  induction ops generalizing db e with
  | nil =>
    simp only [FileOp.runAll, Option.some.injEq, Prod.mk.injEq] at hr
    rw [← hr.1]
    exact hc
  | cons op ops ih =>
    unfold FileOp.runAll at hr
    rcases h1 : op.run db with _ | ⟨db1, e1⟩ <;> dsimp only at hr <;> rw [h1] at hr
    · cases hr
    · obtain ⟨k1, k2, k3, -, -⟩ := opens_step op (ho op List.mem_cons_self) db db1 e1 hok h3 hc h1
      exact ih (fun o h => ho o (List.mem_cons_of_mem _ h)) db1 e1 k1 k2 k3 hr

theorem start_iff (file : Option Bytes) (db : FileDb) :
    startProgram file = some db ↔ FileDb.new file = (db, none) := by
  unfold startProgram
  rcases FileDb.new file with ⟨d, _ | e⟩ <;> simp

theorem start_ok (file : Option Bytes) (db : FileDb) (h : startProgram file = some db) :
    db.file = file ∧ db.mem.Ok ∧ db.mem.dirty = false ∧ FileCurrent db := by
  rw [start_iff] at h
  unfold FileDb.new at h
  simp only [Prod.mk.injEq] at h
  obtain ⟨rfl, h⟩ := h
  refine ⟨rfl, ?_, ?_, ⟨_, Prod.ext rfl h, rfl⟩⟩
  · unfold loadDB
    cases file with
    | none => exact new_ok
    | some data => exact unmarshal_ok MemDb.new data
  · unfold loadDB MemDb.load MemDb.unmarshalJSON
    cases file with
    | none => rfl
    | some data => dsimp only; rcases Json.readDoc data with _ | _ | _ | _ | _ | _ | es <;> rfl

/-- A file is current exactly if it is a database text that says what is in the database. -/
theorem current_iff (db : FileDb) : FileCurrent db ↔ ∃ data, db.file = some data ∧ DatabaseText data db.mem.get := by
  unfold FileCurrent loadDB
  constructor
  · rintro ⟨mem, h1, h2⟩
    rcases hf : db.file with _ | data <;> rw [hf] at h1
    · simp at h1
    · exact ⟨data, rfl, (database_text MemDb.new data _).mp ⟨mem, h1, h2⟩⟩
  · rintro ⟨data, hf, h⟩
    rw [hf]
    exact (database_text MemDb.new data _).mpr h

theorem start_says (data : Bytes) (c : Contents) (h : DatabaseText data c) : ∃ db, startProgram (some data) = some db ∧ db.mem.get = c := by
  obtain ⟨mem, h1, h2⟩ := (database_text MemDb.new data c).mpr h
  refine ⟨⟨mem, some data⟩, ?_, h2⟩
  rw [start_iff]
  unfold FileDb.new loadDB
  dsimp only
  rw [h1]

/-! ### C182 -/

/-- The outcomes of runs, each of which knows at its beginning exactly what the one before knew at its end, and forgets nothing. -/
def Spec.Chain : Contents → List RunOutcome → Contents → Prop
  | c, [], c' => c' = c
  | _, .refused :: _, _ => False
  | c, .ran first last :: os, c' => first = c ∧ Remembers first last ∧ Chain last os c'

/-- C182: programs run one after the other on a file that is a database all start, each knows exactly what the one before it knew at its end, none
forgets or changes what it knew, and the file they leave says what the last one knew. -/
theorem runs_remember {σ : Type} (data : List (BitVec 8)) (c : Contents) (hdata : DatabaseText data c) (h3 : ThreeBytes c)
    (runs : List (List (FileOp σ))) (hops : ∀ ops ∈ runs, ∀ op ∈ ops, Opens op) (os : List RunOutcome) (file : Option (List (BitVec 8)))
    (hr : Runs (some data) runs os file) :
    ∃ data' c', file = some data' ∧ DatabaseText data' c' ∧ Chain c os c' := by
  generalize hf : some data = file0 at hr
  induction hr generalizing data c with
  | done file =>
    subst hf
    exact ⟨data, c, rfl, hdata, rfl⟩
  | refused h _ _ =>
    subst hf
    obtain ⟨db, h1, -⟩ := start_says data c hdata
    rw [h1] at h
    cases h
  | @ran file0 ops rest os file' db db' err h hrun _ ih =>
    subst hf
    obtain ⟨db1, h1, hget⟩ := start_says data c hdata
    rw [h1, Option.some.injEq] at h
    subst h
    obtain ⟨-, k2, k3, k4⟩ := start_ok _ _ h1
    obtain ⟨j1, j2, j3, j4⟩ := opens_all ops (hops ops List.mem_cons_self) db1 db' none err k2 (by rw [hget]; exact h3) k3 k4 hrun
    obtain ⟨data1, hd1, hs1⟩ := (current_iff db').mp j3
    obtain ⟨data', c', g1, g2, g3⟩ := ih data1 db'.mem.get hs1 j2 (fun o ho => hops o (List.mem_cons_of_mem _ ho)) hd1.symm
    exact ⟨data', c', g1, g2, hget, j4, g3⟩

/-- Two runs, each opening another device; the second knows the first one's. -/
example : ∃ os file, Runs (some (ascii "{}"))
      [[.openDevice FileFault.none (wireIO fun m => if m.command = 0x000d00 then .ret (some ⟨m.dst, 0, 0x2f, 0x000d02, []⟩) none else acks m) 5
        ⟨[⟨7, 0x012a43, 0x8b, 0x080100, []⟩], []⟩ 7 []],
       [.openDevice FileFault.none (wireIO fun m => if m.command = 0x000d00 then .ret (some ⟨m.dst, 0, 0x2f, 0x000d02, []⟩) none else acks m) 5
        ⟨[⟨9, 0x020941, 0x8b, 0x080100, []⟩], []⟩ 9 []]] os file ∧
    file = some (ascii ("{\"00.00.07\":{\"address\":\"00.00.07\",\"devCat\":\"01.2a\",\"firmwareVersion\":67,\"engineVersion\":2}," ++
      "\"00.00.09\":{\"address\":\"00.00.09\",\"devCat\":\"02.09\",\"firmwareVersion\":65,\"engineVersion\":2}}")) := by
  refine ⟨_, _, .ran (db := ⟨MemDb.new, some (ascii "{}")⟩) (db' := ⟨⟨[(7, ⟨7, (1, 0x2a), 0x43, 2⟩)], false, false⟩,
      some (ascii "{\"00.00.07\":{\"address\":\"00.00.07\",\"devCat\":\"01.2a\",\"firmwareVersion\":67,\"engineVersion\":2}}")⟩) (err := none)
    (by decide +kernel) (by decide +kernel)
    (.ran (db := ⟨⟨[(7, ⟨7, (1, 0x2a), 0x43, 2⟩)], false, false⟩,
      some (ascii "{\"00.00.07\":{\"address\":\"00.00.07\",\"devCat\":\"01.2a\",\"firmwareVersion\":67,\"engineVersion\":2}}")⟩)
      (db' := ⟨⟨[(7, ⟨7, (1, 0x2a), 0x43, 2⟩), (9, ⟨9, (2, 9), 0x41, 2⟩)], false, false⟩, _⟩) (err := none)
      (by decide +kernel) (by decide +kernel) (.done _)), rfl⟩

/-! ### C183 -/

/-- C183: a file that is not a database is left alone: no program starts, and the file stays as it is. -/
theorem damaged_file {σ : Type} (data : List (BitVec 8)) (h : ∀ c, ¬ DatabaseText data c) (runs : List (List (FileOp σ))) (os : List RunOutcome)
    (file : Option (List (BitVec 8))) (hr : Runs (some data) runs os file) : file = some data ∧ ∀ o ∈ os, o = .refused := by
  generalize hf : some data = file0 at hr
  induction hr with
  | done file => exact ⟨rfl, by simp⟩
  | refused _ _ ih => exact ⟨(ih hf).1, fun o ho => (List.mem_cons.mp ho).elim id ((ih hf).2 o)⟩
  | ran h1 _ _ _ =>
    subst hf
    exfalso
    obtain ⟨e, -, -, hcur⟩ := start_ok _ _ h1
    obtain ⟨d, hd, hs⟩ := (current_iff _).mp hcur
    rw [e, Option.some.injEq] at hd
    subst hd
    exact h _ hs

/-- A file cut short by a crash while saving. -/
example : ∀ c, ¬ DatabaseText (ascii "{\"00.00.07\":{\"address\"") c := by
  intro c h
  obtain ⟨db, h1, -⟩ := (database_text MemDb.new _ c).mpr h
  have h2 : (MemDb.new.load (.ok (ascii "{\"00.00.07\":{\"address\""))).2 ≠ none := by decide +kernel
  rw [h1] at h2
  exact h2 rfl

/-! ### C184 -/

/-- C184 is false of the code: without a file no program ever starts, and none creates the file. -/
theorem first_use_refuted {σ : Type} (runs : List (List (FileOp σ))) (os : List RunOutcome) (file : Option (List (BitVec 8)))
    (hr : Runs none runs os file) : file = none ∧ ∀ o ∈ os, o = .refused := by
  generalize hf : (none : Option (List (BitVec 8))) = file0 at hr
  induction hr with
  | done file => exact ⟨rfl, by simp⟩
  | refused _ _ ih => exact ⟨(ih hf).1, fun o ho => (List.mem_cons.mp ho).elim id ((ih hf).2 o)⟩
  | ran h1 _ _ _ =>
    subst hf
    rw [show startProgram none = none from rfl] at h1
    cases h1

/-- C184, what is proved: a file with an empty object, made by hand, is enough. -/
theorem first_use_partial : ∃ db, startProgram (some (ascii "{}")) = some db ∧ db.mem.get = Contents.empty ∧
    ∀ info : DeviceInfo, db.mem.put info ≠ none := by
  refine ⟨⟨MemDb.new, some (ascii "{}")⟩, by decide +kernel, rfl, ?_⟩
  intro info
  unfold MemDb.put
  split_ifs with h1 h2
  · cases h2
  · simp
  · simp

/-! ### C185 -/

theorem together_inv {σ : Type} (ops : List (Bool × FileOp σ)) (ho : ∀ x ∈ ops, Opens x.2) (d e d' e' : FileDb)
    (hd : d.mem.Ok ∧ ThreeBytes d.mem.get ∧ d.mem.dirty = false) (he : e.mem.Ok ∧ ThreeBytes e.mem.get ∧ e.mem.dirty = false)
    (hf : d.file = e.file) (hc : FileCurrent d ∨ FileCurrent e) (hr : together (d, e) ops = some (d', e')) :
    d'.file = e'.file ∧ (FileCurrent d' ∨ FileCurrent e') ∧ Remembers d.mem.get d'.mem.get ∧ Remembers e.mem.get e'.mem.get := by
  induction ops generalizing d e with
  | nil =>
    simp only [together, Option.some.injEq, Prod.mk.injEq] at hr
    obtain ⟨rfl, rfl⟩ := hr
    exact ⟨hf, hc, fun _ _ h => h, fun _ _ h => h⟩
  | cons x ops ih =>
    obtain ⟨who, op⟩ := x
    have hop := ho (who, op) List.mem_cons_self
    have hrest : ∀ x ∈ ops, Opens x.2 := fun x hx => ho x (List.mem_cons_of_mem _ hx)
    cases who with
    | true =>
      unfold together at hr
      rcases h1 : op.run d with _ | ⟨d1, e1⟩ <;> rw [h1] at hr
      · cases hr
      · obtain ⟨k1, k2, k3, k4, k5⟩ := opens_step op hop d d1 e1 hd.1 hd.2.1 hd.2.2 h1
        obtain ⟨j1, j2, j3, j4⟩ := ih hrest d1 { e with file := d1.file } ⟨k1, k2, k3⟩ he rfl (by
          rcases k5 with rfl | h
          · rcases hc with h | h
            · exact Or.inl h
            · right
              rw [hf]
              exact h
          · exact Or.inl h) hr
        exact ⟨j1, j2, fun a i h => j3 a i (k4 a i h), j4⟩
    | false =>
      unfold together at hr
      rcases h1 : op.run e with _ | ⟨d1, e1⟩ <;> rw [h1] at hr
      · cases hr
      · obtain ⟨k1, k2, k3, k4, k5⟩ := opens_step op hop e d1 e1 he.1 he.2.1 he.2.2 h1
        obtain ⟨j1, j2, j3, j4⟩ := ih hrest { d with file := d1.file } d1 hd ⟨k1, k2, k3⟩ rfl (by
          rcases k5 with rfl | h
          · rcases hc with h | h
            · left
              rw [← hf]
              exact h
            · exact Or.inr h
          · exact Or.inr h) hr
        exact ⟨j1, j2, j3, fun a i h => j4 a i (k4 a i h)⟩

/-- C185, what is proved: two programs used at the same time, whatever the order of their calls, leave a file that is a database and says what
one of the two knows; neither forgets anything itself. -/
theorem together_partial {σ : Type} (file : Option (List (BitVec 8))) (d e d' e' : FileDb) (hd : startProgram file = some d)
    (he : startProgram file = some e) (h3 : ThreeBytes d.mem.get) (ops : List (Bool × FileOp σ)) (ho : ∀ x ∈ ops, Opens x.2)
    (hr : together (d, e) ops = some (d', e')) :
    ∃ data, d'.file = some data ∧ e'.file = some data ∧ (DatabaseText data d'.mem.get ∨ DatabaseText data e'.mem.get) ∧
      Remembers d.mem.get d'.mem.get ∧ Remembers e.mem.get e'.mem.get := by
  obtain rfl : d = e := Option.some.inj (hd.symm.trans he)
  obtain ⟨-, k2, k3, k4⟩ := start_ok _ _ hd
  obtain ⟨j1, j2, j3, j4⟩ := together_inv ops ho d d d' e' ⟨k2, h3, k3⟩ ⟨k2, h3, k3⟩ rfl (Or.inl k4) hr
  rcases j2 with h | h
  · obtain ⟨data, hf, hs⟩ := (current_iff _).mp h
    exact ⟨data, hf, j1 ▸ hf, Or.inl hs, j3, j4⟩
  · obtain ⟨data, hf, hs⟩ := (current_iff _).mp h
    exact ⟨data, j1 ▸ hf, hf, Or.inr hs, j3, j4⟩

/-- A network in which a device answers as a switch, used in examples. -/
def aSwitch : MsgIO Wire := wireIO fun m => if m.command = 0x000d00 then .ret (some ⟨m.dst, 0, 0x2f, 0x000d02, []⟩) none else acks m

/-- C185 in full is false of the code: what the first program learnt is lost when the second one saves what it learnt. -/
theorem together_refuted :
    ¬ ∀ (file : Option (List (BitVec 8))) (d e d' e' : FileDb) (ops : List (Bool × FileOp Wire)), startProgram file = some d →
      startProgram file = some e → (∀ x ∈ ops, Opens x.2) → together (d, e) ops = some (d', e') →
      ∀ data c, d'.file = some data → DatabaseText data c → Remembers d'.mem.get c ∧ Remembers e'.mem.get c := by
  intro h
  have h1 := (h (some (ascii "{}")) ⟨MemDb.new, some (ascii "{}")⟩ ⟨MemDb.new, some (ascii "{}")⟩
    ⟨⟨[(7, ⟨7, (1, 0x2a), 0x43, 2⟩)], false, false⟩,
      some (ascii "{\"00.00.09\":{\"address\":\"00.00.09\",\"devCat\":\"02.09\",\"firmwareVersion\":65,\"engineVersion\":2}}")⟩
    ⟨⟨[(9, ⟨9, (2, 9), 0x41, 2⟩)], false, false⟩,
      some (ascii "{\"00.00.09\":{\"address\":\"00.00.09\",\"devCat\":\"02.09\",\"firmwareVersion\":65,\"engineVersion\":2}}")⟩
    [(true, .openDevice FileFault.none aSwitch 5 ⟨[⟨7, 0x012a43, 0x8b, 0x080100, []⟩], []⟩ 7 []),
     (false, .openDevice FileFault.none aSwitch 5 ⟨[⟨9, 0x020941, 0x8b, 0x080100, []⟩], []⟩ 9 [])]
    (by decide +kernel) (by decide +kernel) (by
      intro x hx
      simp only [List.mem_cons, List.not_mem_nil, or_false] at hx
      rcases hx with rfl | rfl
      · exact ⟨_, _, _, _, _, rfl, by decide, by decide⟩
      · exact ⟨_, _, _, _, _, rfl, by decide, by decide⟩)
    (by decide +kernel) _ (DbMap.get [(9, ⟨9, (2, 9), 0x41, 2⟩)]) rfl
    ((database_text MemDb.new _ _).mp ⟨⟨[(9, ⟨9, (2, 9), 0x41, 2⟩)], false, false⟩, by decide +kernel, rfl⟩)).1
  have h2 := h1 7 ⟨7, (1, 0x2a), 0x43, 2⟩ (by decide)
  exact absurd h2 (by decide)

end Insteon
