import Verif.Props.IcDevice

/-
C144: what a walk notes about the devices.
-/

namespace Insteon
open Spec

/-- A walk, visit by visit: every device is opened through the database; if that fails the error is noted, otherwise its links are read, and they, or the error, are noted. Nothing happens
between the visits. -/
inductive Spec.Visited {σ : Type} (f : FileFault) (io : MsgIO σ) (fuel : Nat) (clock : Address → Int × Int) (filters : List (MsgIO σ → MsgIO σ)) :
    σ → FileDb → List (Address × Iwalk.Entry) → σ → FileDb → Prop
  | done {s db} : Visited f io fuel clock filters s db [] s db
  | failed {s db s1 db1 s' db' a dev e log} (ho : db.openDevice f io fuel s a filters = some (s1, db1, .ok (dev, some e)))
      (hr : Visited f io fuel clock filters s1 db1 log s' db') : Visited f io fuel clock filters s db ((a, .failed e) :: log) s' db'
  | unread {s db s1 db1 s2 ldb ls s' db' a d e log} (ho : db.openDevice f io fuel s a filters = some (s1, db1, .ok (some d, none)))
      (hl : Ldb.getLinks (Device.io d.1 d.2) fuel (clock a).1 (clock a).2 s1 ⟨0, [], []⟩ = some (s2, ldb, .ok (ls, some e)))
      (hr : Visited f io fuel clock filters s2 db1 log s' db') : Visited f io fuel clock filters s db ((a, .opened d.1 (.error e)) :: log) s' db'
  | read {s db s1 db1 s2 ldb ls s' db' a d log} (ho : db.openDevice f io fuel s a filters = some (s1, db1, .ok (some d, none)))
      (hl : Ldb.getLinks (Device.io d.1 d.2) fuel (clock a).1 (clock a).2 s1 ⟨0, [], []⟩ = some (s2, ldb, .ok (ls, none)))
      (hr : Visited f io fuel clock filters s2 db1 log s' db') : Visited f io fuel clock filters s db ((a, .opened d.1 (.ok ls)) :: log) s' db'

theorem visitAll_visited {σ : Type} (f : FileFault) (io : MsgIO σ) (fuel : Nat) (clock : Address → Int × Int) (filters : List (MsgIO σ → MsgIO σ)) (addrs : List Address) :
    ∀ (s s' : σ) (db db' : FileDb) (log : List (Address × Iwalk.Entry)), Iwalk.visitAll f io fuel clock filters addrs s db = some (s', db', .ok log) →
      Visited f io fuel clock filters s db log s' db' ∧ log.map Prod.fst = addrs := by
  induction addrs with
  | nil =>
    intro s s' db db' log h
    simp only [Iwalk.visitAll, Option.some.injEq, Prod.mk.injEq, Out.ok.injEq] at h
    obtain ⟨rfl, rfl, rfl⟩ := h
    exact ⟨.done, rfl⟩
  | cons a rest ih =>
    intro s s' db db' log h
    unfold Iwalk.visitAll Iwalk.visit at h
    rcases ho : db.openDevice f io fuel s a filters with _ | ⟨s1, db1, ⟨d, e⟩ | e | _⟩ <;> rw [ho] at h <;> try dsimp only at h
    · cases h
    · rcases e with _ | e
      · rcases d with _ | d
        · dsimp only at h; cases h
        · dsimp only at h
          rcases hl : Ldb.getLinks (Device.io d.1 d.2) fuel (clock a).1 (clock a).2 s1 ⟨0, [], []⟩ with _ | ⟨s2, ldb, ⟨ls, e⟩ | e | _⟩ <;> rw [hl] at h <;> try dsimp only at h
          · cases h
          · rcases e with _ | e <;> dsimp only at h
            all_goals
              rcases hv : Iwalk.visitAll f io fuel clock filters rest s2 db1 with _ | ⟨s3, db3, log3 | e3 | _⟩ <;> rw [hv] at h <;>
                simp only [reduceCtorEq, Option.some.injEq, Prod.mk.injEq, Out.ok.injEq, and_false] at h
              obtain ⟨rfl, rfl, rfl⟩ := h
              obtain ⟨i1, i2⟩ := ih _ _ _ _ _ hv
            · exact ⟨.read ho hl i1, by rw [List.map_cons, i2]⟩
            · exact ⟨.unread ho hl i1, by rw [List.map_cons, i2]⟩
          · cases h
          · cases h
      · dsimp only at h
        rcases hv : Iwalk.visitAll f io fuel clock filters rest s1 db1 with _ | ⟨s3, db3, log3 | e3 | _⟩ <;> rw [hv] at h <;>
          simp only [reduceCtorEq, Option.some.injEq, Prod.mk.injEq, Out.ok.injEq, and_false] at h
        obtain ⟨rfl, rfl, rfl⟩ := h
        obtain ⟨i1, i2⟩ := ih _ _ _ _ _ hv
        exact ⟨.failed ho i1, by rw [List.map_cons, i2]⟩
    · cases h
    · cases h

/-- C144: what a walk notes about a device is what opening it and reading its links gave, at its turn. -/
theorem walk_notes {σ : Type} (w : PacketWriter σ) (retries : Int) (f : FileFault) (io : MsgIO σ) (fuel : Nat) (clock : Address → Int × Int)
    (filters : List (MsgIO σ → MsgIO σ)) (s s1 s' : σ) (db db' : FileDb) (ls : List LinkRecord) (err err' : Option Err) (log : List (Address × Iwalk.Entry))
    (hls : PlmLinks.links w retries fuel s [] = some (s1, .ok (ls, err))) (h : Iwalk.walk w retries f io fuel clock filters s db = some (s', db', .ok (log, err'))) :
    err' = err ∧ Visited f io fuel clock filters s1 db log s' db' := by
  obtain ⟨calls, hc, -, -⟩ := iterate_devices w retries fuel s s1 [] ls err hls
  unfold Iwalk.walk at h
  rw [hc] at h
  dsimp only at h
  rcases hv : Iwalk.visitAll f io fuel clock filters calls s1 db with _ | ⟨s2, db2, log2 | e | _⟩ <;> rw [hv] at h <;>
    simp only [reduceCtorEq, Option.some.injEq, Prod.mk.injEq, Out.ok.injEq, and_false] at h
  obtain ⟨rfl, rfl, rfl, rfl⟩ := h
  exact ⟨rfl, (visitAll_visited f io fuel clock filters calls _ _ _ _ _ hv).1⟩

/-- The walk of the example beside `walk_visits`, with a device that fails, one that was known and one that was not. -/
example : ∃ s1 ls s' db' log,
    PlmLinks.links (Plm.asWriter chattyModem.io) 3 20 ⟨[[0xe2, 1, 0, 0, 7, 1, 2, 3], [0xa2, 5, 0, 0, 9, 0, 0, 0]], 0, [], 0⟩ [] = some (s1, .ok (ls, none)) ∧
    Iwalk.walk (Plm.asWriter chattyModem.io) 3 FileFault.none walkedIO 20 (fun _ => (10 ^ 20, 10 ^ 20)) []
      ⟨[[0xe2, 1, 0, 0, 7, 1, 2, 3], [0xa2, 5, 0, 0, 9, 0, 0, 0]], 0, [], 0⟩ ⟨⟨[(9, ⟨9, (2, 9), 1, 1⟩)], false, false⟩, some []⟩ = some (s', db', .ok (log, none)) ∧
    log = [(7, .failed .eof), (9, .opened ⟨9, (2, 9), 1, 1⟩ (.ok [⟨0xa2, 1, 9, 0, 0, 0⟩]))] := by
  refine ⟨_, _, _, _, _, rfl, rfl, by decide +kernel⟩

end Insteon
