import Verif.Props.Programs

/-
Property C186: programs that may be killed at any moment.
-/

namespace Insteon
open Spec

/-- What a kill leaves: the file as it was, the new file, or one that is not a database. -/
theorem killed_file {σ : Type} (db : FileDb) (op : FileOp σ) (ho : Opens op) (left : Option Bytes) (before after : Contents)
    (hok : db.mem.Ok) (h3 : ThreeBytes db.mem.get) (hc : db.mem.dirty = false) (hf : FileCurrent db)
    (hk : KilledIn db op left before after) :
    before = db.mem.get ∧ Remembers before after ∧ ThreeBytes after ∧
      (left = db.file ∨ (∃ data, left = some data ∧ DatabaseText data after) ∨ ∃ data, left = some data ∧ ∀ c, ¬ DatabaseText data c) := by
  cases hk with
  | talking => exact ⟨rfl, fun _ _ h => h, h3, Or.inl rfl⟩
  | saving io fuel s s' addr filters mem dev _ h hl =>
    refine ⟨rfl, ?_⟩
    obtain ⟨io', fuel', s1, addr', filters', heq, ha, hlt⟩ := ho
    simp only [FileOp.openDevice.injEq] at heq
    obtain ⟨-, rfl, rfl, rfl, rfl, rfl⟩ := heq
    have hrun : (FileOp.openDevice FileFault.none io fuel s addr filters : FileOp σ).run db =
        some (FileDb.save FileFault.none { db with mem := mem } none) := by
      unfold FileOp.run FileDb.openDevice
      dsimp only
      rw [h]
    obtain ⟨k1, k2, k3, k4, k5⟩ := opens_step _ ⟨_, _, _, _, _, rfl, ha, hlt⟩ db
      (FileDb.save FileFault.none { db with mem := mem } none).1 (FileDb.save FileFault.none { db with mem := mem } none).2 hok h3 hc hrun
    have hmem : (FileDb.save FileFault.none { db with mem := mem } none).1.mem.get = mem.get := by
      unfold FileDb.save saveDB MemDb.save FileFault.write FileFault.none
      dsimp only
      split_ifs <;> rfl
    rw [hmem] at k2 k4
    refine ⟨k4, k2, ?_⟩
    rcases hs : loadDB left MemDb.new with ⟨m, _ | e⟩
    · rcases crash_save_partial mem MemDb.new db.file left hl (by rw [hs]) with h' | h'
      · exact Or.inl h'
      · by_cases hd : mem.dirty = true
        · right; left
          have hcur : FileCurrent (FileDb.save FileFault.none { db with mem := mem } none).1 := by
            rcases k5 with h5 | h5
            · rw [h5]; exact hf
            · exact h5
          obtain ⟨data, hd1, hd2⟩ := (current_iff _).mp hcur
          rw [hmem] at hd2
          have hfile : (FileDb.save FileFault.none { db with mem := mem } none).1.file = some mem.marshalJSON := by
            unfold FileDb.save saveDB MemDb.save FileFault.write FileFault.none
            dsimp only
            rw [if_pos ⟨rfl, hd⟩, if_pos hd]
            rfl
          exact ⟨data, by rw [h', ← hfile, hd1], hd2⟩
        · left
          unfold saveStates at hl
          rw [if_neg hd] at hl
          simpa using hl
    · cases left with
      | none =>
        left
        unfold saveStates at hl
        rcases List.mem_cons.mp hl with h | h
        · exact h
        · split_ifs at h
          · simp at h
          · simp at h
      | some data =>
        right; right
        refine ⟨data, rfl, ?_⟩
        intro c hdt
        obtain ⟨m', h1, -⟩ := (database_text MemDb.new data c).mpr hdt
        unfold loadDB at hs
        dsimp only at hs
        rw [hs] at h1
        cases h1

theorem kill_damaged {σ : Type} (data : Bytes) (h : ∀ c, ¬ DatabaseText data c) (runs : List (List (FileOp σ) × Option (FileOp σ)))
    (os : List KillOutcome) (file : Option Bytes) (hr : KillRuns (some data) runs os file) : ∀ o ∈ os, o = .refused := by
  have no : ∀ db, startProgram (some data) ≠ some db := by
    intro db h1
    obtain ⟨e, -, -, hcur⟩ := start_ok _ _ h1
    obtain ⟨d, hd, hs⟩ := (current_iff _).mp hcur
    rw [e, Option.some.injEq] at hd
    subst hd
    exact h _ hs
  generalize hf : some data = file0 at hr
  induction hr with
  | done file => simp
  | refused _ _ ih => exact fun o ho => (List.mem_cons.mp ho).elim id (ih hf o)
  | ended h1 _ _ _ => exact absurd (hf ▸ h1) (no _)
  | killed h1 _ _ _ _ => exact absurd (hf ▸ h1) (no _)

/-! ### C186 -/

/-- C186, what is proved: however programs are killed, each one knows at its beginning exactly what the one before it knew at its end, or before or
after the call it was killed in, and nothing is forgotten or changed; unless a program is killed while it writes the file, and then no program
starts any more, so that none is ever told anything else. -/
theorem kills_partial {σ : Type} (data : List (BitVec 8)) (c : Contents) (hdata : DatabaseText data c) (h3 : ThreeBytes c)
    (runs : List (List (FileOp σ) × Option (FileOp σ))) (hops : ∀ r ∈ runs, (∀ op ∈ r.1, Opens op) ∧ ∀ op ∈ r.2, Opens op)
    (os : List KillOutcome) (file : Option (List (BitVec 8))) (hr : KillRuns (some data) runs os file) : SurvivesKills c os := by
  generalize hf : some data = file0 at hr
  induction hr generalizing data c with
  | done file => trivial
  | refused h _ _ =>
    subst hf
    obtain ⟨db, h1, -⟩ := start_says data c hdata
    rw [h1] at h
    cases h
  | @ended file0 ops rest os file' db db' err h hrun _ ih =>
    subst hf
    obtain ⟨db1, h1, hget⟩ := start_says data c hdata
    rw [h1, Option.some.injEq] at h
    subst h
    obtain ⟨-, k2, k3, k4⟩ := start_ok _ _ h1
    obtain ⟨j1, j2, j3, j4⟩ := opens_all ops (hops _ List.mem_cons_self).1 db1 db' none err k2 (by rw [hget]; exact h3) k3 k4 hrun
    obtain ⟨data1, hd1, hs1⟩ := (current_iff db').mp j3
    exact ⟨hget, j4, ih data1 db'.mem.get hs1 j2 (fun r hr => hops r (List.mem_cons_of_mem _ hr)) hd1.symm⟩
  | @killed file0 ops op rest os file' db db' err left before after h hrun hk hrest ih =>
    subst hf
    obtain ⟨db1, h1, hget⟩ := start_says data c hdata
    rw [h1, Option.some.injEq] at h
    subst h
    obtain ⟨-, k2, k3, k4⟩ := start_ok _ _ h1
    obtain ⟨j1, j2, j3, j4⟩ := opens_all ops (hops _ List.mem_cons_self).1 db1 db' none err k2 (by rw [hget]; exact h3) k3 k4 hrun
    have hclean : db'.mem.dirty = false := opens_clean ops (hops _ List.mem_cons_self).1 db1 db' none err k2 (by rw [hget]; exact h3) k3 hrun
    obtain ⟨g1, g2, g3, g4⟩ := killed_file db' op ((hops _ List.mem_cons_self).2 op rfl) left before after j1 j2 hclean j3 hk
    refine ⟨hget, by rw [g1]; exact j4, g2, ?_⟩
    have hrest' : ∀ r ∈ rest, (∀ op ∈ r.1, Opens op) ∧ ∀ op ∈ r.2, Opens op := fun r hr => hops r (List.mem_cons_of_mem _ hr)
    rcases g4 with hl | ⟨data1, hl, hs⟩ | ⟨data1, hl, hs⟩
    · obtain ⟨data1, hd1, hs1⟩ := (current_iff db').mp j3
      left
      exact ih data1 before (g1 ▸ hs1) (g1 ▸ j2) hrest' (by rw [hl, hd1])
    · exact Or.inr (Or.inl (ih data1 after hs g3 hrest' hl.symm))
    · subst hl
      exact Or.inr (Or.inr (kill_damaged data1 hs rest os file' hrest))

/-- A program is killed after it has written the file; the next one knows the device. -/
example : ∃ os file, KillRuns (σ := Wire) (some (ascii "{}"))
      [([], some (.openDevice FileFault.none aSwitch 5 ⟨[⟨7, 0x012a43, 0x8b, 0x080100, []⟩], []⟩ 7 [])), ([], none)] os file ∧
    os = [.killed (MemDb.get MemDb.new) (MemDb.get MemDb.new) (DbMap.get [(7, ⟨7, (1, 0x2a), 0x43, 2⟩)]),
      .ended (DbMap.get [(7, ⟨7, (1, 0x2a), 0x43, 2⟩)]) (DbMap.get [(7, ⟨7, (1, 0x2a), 0x43, 2⟩)])] :=
  ⟨_, _, .killed (db := ⟨MemDb.new, some (ascii "{}")⟩) (db' := ⟨MemDb.new, some (ascii "{}")⟩) (err := none)
    (left := some (ascii "{\"00.00.07\":{\"address\":\"00.00.07\",\"devCat\":\"01.2a\",\"firmwareVersion\":67,\"engineVersion\":2}}"))
    (by decide +kernel) rfl
    (.saving ⟨MemDb.new, some (ascii "{}")⟩ aSwitch 5 ⟨[⟨7, 0x012a43, 0x8b, 0x080100, []⟩], []⟩ _ 7 []
      ⟨[(7, ⟨7, (1, 0x2a), 0x43, 2⟩)], true, false⟩ _ _ rfl (by decide +kernel))
    (.ended (db := ⟨⟨[(7, ⟨7, (1, 0x2a), 0x43, 2⟩)], false, false⟩,
        some (ascii "{\"00.00.07\":{\"address\":\"00.00.07\",\"devCat\":\"01.2a\",\"firmwareVersion\":67,\"engineVersion\":2}}")⟩)
      (db' := ⟨⟨[(7, ⟨7, (1, 0x2a), 0x43, 2⟩)], false, false⟩, _⟩) (err := none)
      (by decide +kernel) rfl (.done _)), rfl⟩

/-- C186 in full is false of the code: a program killed while it writes the file can leave an empty one, and then no program starts any more and
all that was known is lost. -/
theorem kills_refuted :
    ¬ ∀ (data : List (BitVec 8)) (c : Contents) (runs : List (List (FileOp Wire) × Option (FileOp Wire))) (os : List KillOutcome)
      (file : Option (List (BitVec 8))), DatabaseText data c → ThreeBytes c →
      (∀ r ∈ runs, (∀ op ∈ r.1, Opens op) ∧ ∀ op ∈ r.2, Opens op) → KillRuns (some data) runs os file → .refused ∉ os := by
  intro h
  refine h (ascii "{}") Contents.empty
    [([], some (.openDevice FileFault.none aSwitch 5 ⟨[⟨7, 0x012a43, 0x8b, 0x080100, []⟩], []⟩ 7 [])), ([], none)]
    [.killed (MemDb.get MemDb.new) (MemDb.get MemDb.new) (DbMap.get [(7, ⟨7, (1, 0x2a), 0x43, 2⟩)]), .refused] (some [])
    ((database_text MemDb.new _ _).mp ⟨MemDb.new, by decide +kernel, rfl⟩) (fun a i h => by cases h) ?_ ?_ (by simp)
  · intro r hr
    simp only [List.mem_cons, List.not_mem_nil, or_false] at hr
    rcases hr with rfl | rfl
    · refine ⟨by simp, ?_⟩
      rintro op h
      simp only [Option.mem_def, Option.some.injEq] at h
      subst h
      exact ⟨_, _, _, _, _, rfl, by decide, by decide⟩
    · exact ⟨by simp, by simp⟩
  · exact .killed (db := ⟨MemDb.new, some (ascii "{}")⟩) (db' := ⟨MemDb.new, some (ascii "{}")⟩) (err := none) (left := some [])
      (by decide +kernel) rfl
      (.saving ⟨MemDb.new, some (ascii "{}")⟩ aSwitch 5 ⟨[⟨7, 0x012a43, 0x8b, 0x080100, []⟩], []⟩ _ 7 []
        ⟨[(7, ⟨7, (1, 0x2a), 0x43, 2⟩)], true, false⟩ _ _ rfl (by decide +kernel))
      (.refused (by decide +kernel) (.done _))

end Insteon
