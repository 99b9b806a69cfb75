import Verif.Model.IcDevice
import Verif.Spec.Book
import Verif.Props.DeviceUpdate
import Verif.Props.EditFaults

/-
C172: editing a device's links as text (`ic device <id> edit`).
-/

namespace Insteon

open Spec IcDev

/-! ### Reading -/

theorem devRead_sim {σ τ : Type} (A : MsgIO σ) (B : MsgIO τ) (f : σ → τ)
    (h : ∀ s s' m, A.read s = (s', .ret (some m) none) → B.read (f s) = (f s', .ret (some m) none)) (mt : Matcher) (n : Nat) (s s' : σ)
    (m : Message) (hr : Dev.read A mt n s = some (s', .ret (some m) none)) :
    Dev.read B mt n (f s) = some (f s', .ret (some m) none) := by
  induction n generalizing s with
  | zero => simp [Dev.read] at hr
  | succ n ih =>
    rw [Dev.read] at hr ⊢
    rcases ha : A.read s with ⟨s1, ⟨_ | x, _ | e⟩ | _⟩
    all_goals try (rw [ha] at hr; simp at hr; done)
    rw [ha] at hr
    rw [h s s1 x ha]
    dsimp only at hr ⊢
    by_cases hm : mt x = true
    · rw [if_pos hm] at hr ⊢
      simp only [Option.some.injEq, Prod.mk.injEq, MRes.ret.injEq, and_true] at hr
      rw [hr.1, hr.2]
    · rw [if_neg hm] at hr ⊢
      exact ih s1 hr

theorem refreshLoop_sim {σ τ : Type} (A : MsgIO σ) (B : MsgIO τ) (f : σ → τ)
    (h : ∀ s s' m, A.read s = (s', .ret (some m) none) → B.read (f s) = (f s', .ret (some m) none)) (fr fuel : Nat) (s s' : σ)
    (ldb ldb' : Ldb) (last : MemAddress) (hr : Ldb.refreshLoop A fr fuel s ldb last = some (s', ldb', .ok none)) :
    Ldb.refreshLoop B fr fuel (f s) ldb last = some (f s', ldb', .ok none) := by
  induction fuel generalizing s ldb last with
  | zero => simp [Ldb.refreshLoop] at hr
  | succ fuel ih =>
    rw [Ldb.refreshLoop] at hr ⊢
    rcases ha : Dev.read A (Matcher.cmd Cmd.readWriteALDB) fr s with _ | ⟨s1, ⟨_ | m, _ | e⟩ | _⟩
    all_goals try (rw [ha] at hr; simp at hr; done)
    rw [ha] at hr
    rw [devRead_sim A B f h _ _ _ _ _ ha]
    dsimp only at hr ⊢
    rcases hu : LinkRequest.zero.unmarshalBinary m.payload with ⟨lr, _ | e⟩
    all_goals try (rw [hu] at hr; simp at hr; done)
    rw [hu] at hr
    dsimp only at hr ⊢
    by_cases hne : lr.memAddress ≠ last
    · rw [if_pos hne] at hr ⊢
      rcases hl : lr.link with _ | l
      · rw [hl] at hr; simp at hr
      · rw [hl] at hr
        dsimp only at hr ⊢
        by_cases hlast : l.flags.lastRecord = true
        · rw [if_pos hlast] at hr ⊢
          simp only [Option.some.injEq, Prod.mk.injEq, and_true] at hr
          rw [hr.1, hr.2]
        · rw [if_neg hlast] at hr ⊢
          exact ih _ _ _ hr
    · rw [if_neg hne] at hr ⊢
      exact ih _ _ _ hr

/-- The request for the database as it reaches the device. -/
theorem read_request_prepared (info : DeviceInfo) :
    ∃ z, Device.prepare info Ldb.readRequest = ⟨0, info.address, 0x1a, Cmd.readWriteALDB, List.replicate 13 0#8 ++ [z]⟩ := by
  by_cases hv : info.engineVersion = 2#64
  · rw [prepare_i2cs info _ (by simp [Ldb.readRequest]) hv]
    exact ⟨_, rfl⟩
  · rw [prepare_extended info _ (by simp [Ldb.readRequest]) hv]
    exact ⟨0, rfl⟩

/-- What reading the links of such a device returns. -/
theorem book_links (info : DeviceInfo) (src : Address) (d : AldbDev) (old : List LinkRecord)
    (hdb : database d.mem = old.map raw) (hlen : old.length < 512) (h24 : ∀ l ∈ old, l.address.toNat < 2 ^ 24)
    (hin : ∀ m ∈ d.inbox, cmd1 m ≠ 0x2f) (now done : Int) (hnow : 3600 < now) :
    ∃ (d' : AldbDev) (ldb : Ldb) (ls : List LinkRecord) (e : Option Err),
      (∀ fuel > d.inbox.length + old.length + 1,
        Ldb.getLinks (Device.io info (bookIO src)) fuel now done d ⟨0, [], []⟩ = some (d', ldb, .ok (ls, e))) ∧
      d'.mem = d.mem ∧ ((e ≠ none ∧ ls = []) ∨ (e = none ∧ ls = old ∧ ldb.links = old)) := by
  obtain ⟨mem, fates, inbox⟩ := d
  dsimp only at hdb hin ⊢
  obtain ⟨z, hz⟩ := read_request_prepared info
  have ho : (⟨0, [], []⟩ : Ldb).old now = true := by simpa [Ldb.old] using hnow
  have hob : ∀ mem, obey mem (Device.prepare info Ldb.readRequest) = mem := by
    intro mem
    rw [hz]
    simp [obey, List.replicate]
  have hask : asksAll (Device.prepare info Ldb.readRequest) = true := by
    rw [hz]
    simp [asksAll, cmd1, List.replicate]
  have hgood : ∀ fs a, (bookIO src).write ⟨mem, fates, inbox⟩ (Device.prepare info Ldb.readRequest) =
        (⟨mem, fs, inbox ++ pages src mem⟩, .ret a none) →
      ∃ ldb : Ldb, (∀ fuel > inbox.length + old.length + 1,
        Ldb.getLinks (Device.io info (bookIO src)) fuel now done ⟨mem, fates, inbox⟩ ⟨0, [], []⟩ =
          some (⟨mem, fs, []⟩, ldb, .ok (old, none))) ∧ ldb.links = old := by
    intro fs a hw
    have hpages : pages src mem = dump src mem old.length := by
      unfold pages dump
      rw [hdb, List.length_map]
      rfl
    have htr : Transmits 0 old (inbox ++ pages src mem) := by
      have := fresh_read src mem old hdb hlen h24
      rw [← hpages] at this
      clear hw
      induction inbox with
      | nil => exact this
      | cons m ms ih =>
        exact .other 0 old m _ (hin m (by simp)) (ih (fun x hx => hin x (by simp [hx])))
    have hplen : (pages src mem).length = old.length + 1 := by rw [hpages]; simp [dump]
    refine ⟨⟨done, old, indexFrom 0 old []⟩, fun fuel hf => ?_, rfl⟩
    have hl := refresh_transmits info acks 0 old _ htr [] [] fuel fuel ⟨0, [], []⟩ 0#64 (fun _ => rfl) (by simp)
      (by simp [hplen]; omega) (by simp [hplen]; omega)
    simp only [List.append_nil] at hl
    have hs := refreshLoop_sim (Device.io info (wireIO acks)) (Device.io info (bookIO src)) (fun w => ⟨mem, fs, w.inbox⟩) (by
      intro s s' m hr
      obtain ⟨ib, sent⟩ := s
      rcases ib with _ | ⟨x, ib⟩
      · simp [Device.io, wireIO] at hr
      · simp only [Device.io, wireIO, Prod.mk.injEq, MRes.ret.injEq, Option.some.injEq, and_true] at hr
        obtain ⟨rfl, rfl⟩ := hr
        rfl) _ _ _ _ _ _ _ hl
    unfold Ldb.getLinks Ldb.refresh
    rw [ho]
    simp only [Bool.not_true, Bool.false_eq_true, if_false]
    rw [show (Device.io info (bookIO src)).write ⟨mem, fates, inbox⟩ Ldb.readRequest = _ from hw]
    dsimp only at hs ⊢
    rw [hs]
    simp
  have hbad : ∀ fs a e ib, (bookIO src).write ⟨mem, fates, inbox⟩ (Device.prepare info Ldb.readRequest) =
        (⟨mem, fs, ib⟩, .ret a (some e)) →
      ∀ fuel, Ldb.getLinks (Device.io info (bookIO src)) fuel now done ⟨mem, fates, inbox⟩ ⟨0, [], []⟩ =
          some (⟨mem, fs, ib⟩, ⟨0, [], []⟩, .ok ([], some e)) := by
    intro fs a e ib hw fuel
    unfold Ldb.getLinks Ldb.refresh
    rw [ho]
    simp only [Bool.not_true, Bool.false_eq_true, if_false]
    rw [show (Device.io info (bookIO src)).write ⟨mem, fates, inbox⟩ Ldb.readRequest = _ from hw]
  rcases fates with _ | ⟨_ | e | e, fs⟩
  · obtain ⟨ldb, h1, h2⟩ := hgood [] _ (by simp only [bookIO, aldbIO, hask, hob, reaches, acks]; rfl)
    exact ⟨_, ldb, old, none, h1, rfl, .inr ⟨rfl, rfl, h2⟩⟩
  · obtain ⟨ldb, h1, h2⟩ := hgood fs _ (by simp only [bookIO, aldbIO, hask, hob, reaches, acks]; rfl)
    exact ⟨_, ldb, old, none, h1, rfl, .inr ⟨rfl, rfl, h2⟩⟩
  · exact ⟨_, _, [], some e, fun fuel _ => hbad fs _ e _ (by simp only [bookIO, aldbIO, hask, reaches]; rfl) fuel, rfl, .inl ⟨by simp, rfl⟩⟩
  · exact ⟨_, _, [], some e, fun fuel _ => hbad fs _ e _ (by simp only [bookIO, aldbIO, hask, hob, reaches]; rfl) fuel, rfl, .inl ⟨by simp, rfl⟩⟩

/-! ### Writing -/

/-- A write request is no request for the database. -/
theorem book_writeLink (info : DeviceInfo) (src : Address) (d : AldbDev) (ldb : Ldb) (i : Int) (l : LinkRecord) :
    Ldb.writeLink (Device.io info (bookIO src)) d ldb i l = Ldb.writeLink (Device.io info aldbIO) d ldb i l := by
  have hw : (Device.io info (bookIO src)).write d ⟨0, 0, 0, Cmd.readWriteALDB, writePayload i l⟩ =
      (Device.io info aldbIO).write d ⟨0, 0, 0, Cmd.readWriteALDB, writePayload i l⟩ := by
    have hp : ∃ z, Device.prepare info ⟨0, 0, 0, Cmd.readWriteALDB, writePayload i l⟩ =
        ⟨0, info.address, 0x1a, Cmd.readWriteALDB,
          [0#8, 2#8, ((Ldb.memAddressOf i) >>> 8).setWidth 8, ((Ldb.memAddressOf i) &&& 0xff#64).setWidth 8, 8] ++ raw l ++ [z]⟩ := by
      by_cases hv : info.engineVersion = 2#64
      · rw [prepare_i2cs info _ (by simp [writePayload]) hv]
        exact ⟨_, rfl⟩
      · rw [prepare_extended info _ (by simp [writePayload]) hv]
        exact ⟨0, rfl⟩
    obtain ⟨z, hp⟩ := hp
    show (bookIO src).write d (Device.prepare info _) = aldbIO.write d (Device.prepare info _)
    rw [hp]
    simp [bookIO, asksAll]
  unfold Ldb.writeLink
  rw [write_request]
  dsimp only
  rw [hw]

theorem book_writeLinksLoop (info : DeviceInfo) (src : Address) (i : Nat) (ls : List LinkRecord) (d : AldbDev) (ldb : Ldb) :
    Ldb.writeLinksLoop (Device.io info (bookIO src)) i ls d ldb = Ldb.writeLinksLoop (Device.io info aldbIO) i ls d ldb := by
  induction ls generalizing i d ldb with
  | nil => rfl
  | cons l ls ih =>
    rw [Ldb.writeLinksLoop, Ldb.writeLinksLoop, book_writeLink]
    rcases Ldb.writeLink (Device.io info aldbIO) d ldb i (Ldb.notLast l) with ⟨d1, l1, (_ | e) | e | _⟩
    · exact ih _ _ _
    all_goals rfl

theorem book_writeLinks (info : DeviceInfo) (src : Address) (done : Int) (d : AldbDev) (ldb : Ldb) (ls : List LinkRecord) :
    Ldb.writeLinks (Device.io info (bookIO src)) done d ldb ls = Ldb.writeLinks (Device.io info aldbIO) done d ldb ls := by
  rw [Ldb.writeLinks, Ldb.writeLinks, book_writeLinksLoop]
  rcases Ldb.writeLinksLoop (Device.io info aldbIO) 0 ls d ldb with ⟨d1, l1, (_ | e) | e | _⟩
  · dsimp only
    rw [book_writeLink]
  all_goals rfl

/-- Links read from text are no end records. -/
theorem textToLinks_records (t : Bytes) (ls : List LinkRecord) (h : textToLinks t = (ls, none)) : ∀ l ∈ ls, ¬ isEnd (raw l) := by
  suffices hs : ∀ (lines : List Bytes) (acc : List LinkRecord), (∀ l ∈ acc, ¬ isEnd (raw l)) →
      textToLinksLoop lines acc = (ls, none) → ∀ l ∈ ls, ¬ isEnd (raw l) from hs _ _ (by simp) h
  have hflag : ∀ f : RecordControlFlags, f.clearLastRecord.toNat / 2 % 2 ≠ 0 := by decide +kernel
  intro lines
  induction lines with
  | nil =>
    intro acc ha he
    simp only [textToLinksLoop, Prod.mk.injEq, and_true] at he
    exact he ▸ ha
  | cons line lines ih =>
    intro acc ha he
    rw [textToLinksLoop] at he
    dsimp only at he
    split_ifs at he with h0
    · exact ih acc ha he
    · rcases hr : LinkRecord.unmarshalText LinkRecord.zero (trimSpace line) with ⟨l, _ | e⟩
      · rw [hr] at he
        refine ih _ (fun x hx => ?_) he
        rcases List.mem_append.mp hx with hx | hx
        · exact ha x hx
        · rw [List.mem_singleton] at hx
          subst hx
          unfold LinkRecord.unmarshalText at hr
          split at hr
          · rename_i f0 f1 f2 f3 f4 f5 _
            unfold LinkRecord.unmarshalFields at hr
            dsimp only at hr
            split_ifs at hr
            all_goals
              simp only [Prod.mk.injEq] at hr
              rw [← hr.1]
              exact hflag _
          · simp at hr
      · rw [hr] at he
        simp at he

/-! ### The edit -/

/-- C172, what is proved: a device's links are edited as text, while commands may be lost or unconfirmed. When nothing is changed,
the editor fails, the text has a mistake or the links cannot be read, the device's memory stays as it is. Otherwise the new
links replace as many of the old ones from the front on; old ones behind them stay. If a command fails, the first
few slots have new links, and the others are as before. -/
theorem device_edit_partial (info : DeviceInfo) (src : Address) (d : AldbDev) (old : List LinkRecord) (edit : Bytes → Except Err Bytes)
    (hdb : database d.mem = old.map raw) (hlen : old.length < 512) (h24 : ∀ l ∈ old, l.address.toNat < 2 ^ 24)
    (hin : ∀ m ∈ d.inbox, cmd1 m ≠ 0x2f) (now done written : Int) (hnow : 3600 < now)
    (hnew : ∀ t, edit (linksToText old true) = .ok t → (textToLinks t).1.length < 512) :
    ∃ (fuel₀ : Nat) (d' : AldbDev) (ldb' : Ldb) (e : Option Err),
      (∀ fuel ≥ fuel₀, deviceEdit fuel now done written edit (info, bookIO src) (d, ⟨0, [], []⟩) = some ((d', ldb'), .ok e)) ∧
      ((d'.mem = d.mem ∧ (e = none → edit (linksToText old true) = .ok (linksToText old true))) ∨
       ∃ t new, edit (linksToText old true) = .ok t ∧ textToLinks t = (new, none) ∧
        ((e = none ∧ database d'.mem = (new ++ old.drop new.length).map raw) ∨
         (e ≠ none ∧ ∃ k ≤ new.length, (∀ j, (h : j < k) → ∀ h' : j < new.length, slot d'.mem j = raw new[j]) ∧
           ∀ j, k ≤ j → j < 512 → slot d'.mem j = slot d.mem j ∨ (j = max new.length old.length ∧ isEnd (slot d'.mem j))))) := by
  obtain ⟨d1, ldb1, ls, e1, hl, hmem, hr⟩ := book_links info src d old hdb hlen h24 hin now done hnow
  have hstart : ∀ fuel ≥ d.inbox.length + old.length + 2, deviceEdit fuel now done written edit (info, bookIO src) (d, ⟨0, [], []⟩) =
      if ls.length = 0 then some ((d1, ldb1), .ok (some (.other 55)))
      else match edit (linksToText ls true) with
        | .error e => some ((d1, ldb1), .ok (some e))
        | .ok output =>
          if linksToText ls true = output then some ((d1, ldb1), .ok none)
          else match textToLinks output with
            | (_, some e) => some ((d1, ldb1), .ok (some e))
            | (new, none) =>
              some (((Ldb.writeLinks (Device.io info aldbIO) written d1 ldb1 new).1, (Ldb.writeLinks (Device.io info aldbIO) written d1 ldb1 new).2.1),
                (Ldb.writeLinks (Device.io info aldbIO) written d1 ldb1 new).2.2) := by
    intro fuel hf
    unfold deviceEdit Ic.editLinks
    dsimp only
    rw [hl fuel (by omega)]
    dsimp only
    simp only [book_writeLinks]
    by_cases hz : ls.length = 0
    · rw [if_pos hz, if_pos hz]
    · rw [if_neg hz, if_neg hz]
      rcases edit (linksToText ls true) with x | t
      · rfl
      · dsimp only
        by_cases ht : linksToText ls true = t
        · rw [if_pos ht, if_pos ht]
        · rw [if_neg ht, if_neg ht]
          rcases textToLinks t with ⟨new, _ | x⟩ <;> rfl
  rcases hr with ⟨hne, rfl⟩ | ⟨rfl, rfl, hcache⟩
  · exact ⟨d.inbox.length + old.length + 2, d1, ldb1, some (.other 55), fun fuel hf => by rw [hstart fuel hf]; rfl, .inl ⟨hmem, by simp⟩⟩
  · by_cases hz : ls.length = 0
    · exact ⟨d.inbox.length + ls.length + 2, d1, ldb1, some (.other 55), fun fuel hf => by rw [hstart fuel hf, if_pos hz], .inl ⟨hmem, by simp⟩⟩
    · rcases he : edit (linksToText ls true) with x | t
      · exact ⟨d.inbox.length + ls.length + 2, d1, ldb1, some x, fun fuel hf => by rw [hstart fuel hf, if_neg hz, he], .inl ⟨hmem, by simp⟩⟩
      · by_cases ht : linksToText ls true = t
        · refine ⟨d.inbox.length + ls.length + 2, d1, ldb1, none, fun fuel hf => by rw [hstart fuel hf, if_neg hz, he]; dsimp only; rw [if_pos ht], .inl ⟨hmem, fun _ => ?_⟩⟩
          rw [ht]
        · rcases hp : textToLinks t with ⟨new, _ | x⟩
          · have hnl := hnew t he
            rw [hp] at hnl
            dsimp only at hnl
            have hrec := textToLinks_records t new hp
            obtain ⟨mem, fates, inbox⟩ := d1
            dsimp only at hmem
            rw [← hmem] at hdb
            have hrun : ∀ d2 l2 e, Ldb.writeLinks (Device.io info aldbIO) written ⟨mem, fates, inbox⟩ ldb1 new = (d2, l2, .ok e) →
                ∀ fuel ≥ d.inbox.length + ls.length + 2, deviceEdit fuel now done written edit (info, bookIO src) (d, ⟨0, [], []⟩) =
                  some ((d2, l2), .ok e) := by
              intro d2 l2 e hw fuel hf
              rw [hstart fuel hf, if_neg hz, he]
              dsimp only
              rw [if_neg ht, hp]
              dsimp only
              rw [hw]
            have hmax : max new.length ldb1.links.length < 512 := by rw [hcache]; omega
            rcases hw : Ldb.writeLinks (Device.io info aldbIO) written ⟨mem, fates, inbox⟩ ldb1 new with ⟨d2, l2, (_ | e) | e | _⟩
            · refine ⟨d.inbox.length + ls.length + 2, d2, l2, none, hrun _ _ _ hw, .inr ⟨t, new, rfl, hp, .inl ⟨rfl, ?_⟩⟩⟩
              obtain ⟨w1, w2, w3, -, -⟩ := write_links_partial info mem fates inbox ldb1 l2 written new d2 hmax hrec hw
              rw [hcache] at w2 w3
              rw [database_iff] at hdb ⊢
              simp only [List.length_map, List.getElem_map] at hdb ⊢
              obtain ⟨-, h2, -⟩ := hdb
              have hlen2 : (new ++ ls.drop new.length).length = max new.length ls.length := by simp; omega
              refine ⟨by omega, fun j hj => ?_, fun _ => by rw [hlen2]; exact w3⟩
              by_cases hjn : j < new.length
              · rw [List.getElem_append_left hjn]
                exact ⟨w1 j hjn, hrec _ (List.getElem_mem _)⟩
              · rw [List.getElem_append_right (by omega)]
                simp only [List.getElem_drop, show new.length + (j - new.length) = j by omega]
                have hjl : j < ls.length := by omega
                rw [w2 j (by omega) (by omega) (by omega)]
                exact h2 j hjl
            · refine ⟨d.inbox.length + ls.length + 2, d2, l2, some e, hrun _ _ _ hw, .inr ⟨t, new, rfl, hp, .inr ⟨by simp, ?_⟩⟩⟩
              obtain ⟨k, hk, -, -, i3, i4, -⟩ := interrupted_rewrite info mem fates inbox ldb1 l2 written new d2 e hmax hrec hw
              rw [hcache] at i4
              rw [← hmem]
              by_cases hx : ∃ h : k < new.length, slot d2.mem k = raw new[k]
              · obtain ⟨hkn, hx⟩ := hx
                refine ⟨k + 1, by omega, fun j hj hj' => ?_, fun j hj hj2 => ?_⟩
                · rcases Nat.lt_succ_iff_lt_or_eq.mp hj with h | rfl
                  · exact i3 j hj' h
                  · exact hx
                · rcases i4 j (by omega) hj2 with h | ⟨-, ⟨h, -⟩ | ⟨h, -⟩⟩
                  · exact .inl h
                  · omega
                  · omega
              · refine ⟨k, hk, fun j hj hj' => i3 j hj' hj, fun j hj hj2 => ?_⟩
                rcases i4 j hj hj2 with h | ⟨-, ⟨rfl, hjn, h⟩ | ⟨-, h1, h2⟩⟩
                · exact .inl h
                · exact absurd ⟨hjn, h⟩ hx
                · refine .inr ⟨h1, ?_⟩
                  rw [h2]
                  decide
            · exfalso
              obtain ⟨k, -, -, ⟨-, h2⟩ | ⟨-, e', m, h2, -⟩⟩ := writeLinks_dev info mem fates inbox ldb1 written new <;> rw [h2] at hw <;> simp at hw
            · exfalso
              obtain ⟨k, -, -, ⟨-, h2⟩ | ⟨-, e', m, h2, -⟩⟩ := writeLinks_dev info mem fates inbox ldb1 written new <;> rw [h2] at hw <;> simp at hw
          · refine ⟨d.inbox.length + ls.length + 2, d1, ldb1, some x, fun fuel hf => ?_, .inl ⟨hmem, by simp⟩⟩
            rw [hstart fuel hf, if_neg hz, he]
            dsimp only
            rw [if_neg ht, hp]

/-- An editor that leaves only one record. -/
def keepOne : Bytes → Except Err Bytes := fun _ => .ok (linksToText [⟨0xc2, 2, 6, 0, 0, 0⟩] true)

/-- The hypotheses are met by a device with two records; the second one is kept, and stays where it was, too. -/
example : database twoRecords = [⟨0xa2, 1, 5, 0, 0, 0⟩, ⟨0xe2, 2, 6, 0, 0, 0⟩].map raw ∧
    textToLinks (linksToText [⟨0xc2, 2, 6, 0, 0, 0⟩] true) = ([⟨0xc2, 2, 6, 0, 0, 0⟩], none) ∧
    (deviceEdit 10 4000 4000 4000 keepOne (dev5, bookIO 5) (⟨twoRecords, [], []⟩, ⟨0, [], []⟩)).map (fun r => (database r.1.1.mem, r.2)) =
      some ([⟨0xc2, 2, 6, 0, 0, 0⟩, ⟨0xe2, 2, 6, 0, 0, 0⟩].map raw, .ok none) := by
  decide +kernel

/-- C172 is false of the code: a record whose line is removed stays in the device. -/
theorem device_edit_refuted :
    ¬ ∀ (info : DeviceInfo) (src : Address) (d d' : AldbDev) (ldb' : Ldb) (old new : List LinkRecord) (edit : Bytes → Except Err Bytes)
      (t : Bytes) (fuel : Nat), database d.mem = old.map raw → edit (linksToText old true) = .ok t → textToLinks t = (new, none) →
      deviceEdit fuel 4000 4000 4000 edit (info, bookIO src) (d, ⟨0, [], []⟩) = some ((d', ldb'), .ok none) →
      database d'.mem = new.map raw := by
  intro h
  have hres : (deviceEdit 10 4000 4000 4000 keepOne (dev5, bookIO 5) (⟨twoRecords, [], []⟩, ⟨0, [], []⟩)).map (fun r => (database r.1.1.mem, r.2)) =
      some ([⟨0xc2, 2, 6, 0, 0, 0⟩, ⟨0xe2, 2, 6, 0, 0, 0⟩].map raw, .ok none) := by decide +kernel
  rcases hp : deviceEdit 10 4000 4000 4000 keepOne (dev5, bookIO 5) (⟨twoRecords, [], []⟩, ⟨0, [], []⟩) with _ | ⟨⟨d', ldb'⟩, o⟩
  · rw [hp] at hres; simp at hres
  · rw [hp] at hres
    simp only [Option.map_some, Option.some.injEq, Prod.mk.injEq] at hres
    obtain ⟨h1, rfl⟩ := hres
    have := h dev5 5 ⟨twoRecords, [], []⟩ d' ldb' [⟨0xa2, 1, 5, 0, 0, 0⟩, ⟨0xe2, 2, 6, 0, 0, 0⟩] [⟨0xc2, 2, 6, 0, 0, 0⟩] keepOne _ 10
      (by decide +kernel) rfl (by decide +kernel) hp
    rw [h1] at this
    simp at this

/-- A device with three records. -/
def threeRecords : Nat → Byte := store twoRecords (slotTop 2) (raw ⟨0xa2, 3, 7, 0, 0, 0⟩)

/-- An editor that changes the group of the last record shown. -/
def regroup : Bytes → Except Err Bytes := fun _ => .ok (linksToText [⟨0x82, 1, 5, 0, 0, 0⟩, ⟨0x82, 4, 7, 0, 0, 0⟩] true)

/-- C172 is false of the code in another way: if one record is not heard, the editor does not show it, no error is reported, and it is lost. -/
theorem device_edit_unheard_refuted :
    ¬ ∀ (info : DeviceInfo) (d d' : AldbDev) (ldb' : Ldb) (records : List LinkRecord) (slots : List (Option Nat)) (edit : Bytes → Except Err Bytes)
      (fuel : Nat), database d.mem = records.map raw → Heard (records ++ [LinkRecord.zero]) slots d.inbox →
      deviceEdit fuel 4000 4000 4000 edit (info, aldbIO) (d, ⟨0, [], []⟩) = some ((d', ldb'), .ok none) →
      ∀ j l, records[j]? = some l → some j ∉ slots → raw l ∈ database d'.mem := by
  intro h
  have hres : (deviceEdit 10 4000 4000 4000 regroup (dev5, aldbIO) (⟨threeRecords, [], [page 5 threeRecords 0, page 5 threeRecords 2, page 5 threeRecords 3]⟩,
      ⟨0, [], []⟩)).map (fun r => (database r.1.1.mem, r.2)) =
      some ([⟨0x82, 1, 5, 0, 0, 0⟩, ⟨0x82, 4, 7, 0, 0, 0⟩].map raw, .ok none) := by decide +kernel
  rcases hp : deviceEdit 10 4000 4000 4000 regroup (dev5, aldbIO) (⟨threeRecords, [], [page 5 threeRecords 0, page 5 threeRecords 2, page 5 threeRecords 3]⟩,
      ⟨0, [], []⟩) with _ | ⟨⟨d', ldb'⟩, o⟩
  · rw [hp] at hres; simp at hres
  · rw [hp] at hres
    simp only [Option.map_some, Option.some.injEq, Prod.mk.injEq] at hres
    obtain ⟨h1, rfl⟩ := hres
    have hcar : ∀ i l, slot threeRecords i = raw l → Carries (page 5 threeRecords i) i (raw l) := by
      intro i l hl
      exact ⟨by simp [cmd1, page], raw_length l, 0, 0, [0], by rw [page, hl]⟩
    have := h dev5 ⟨threeRecords, [], [page 5 threeRecords 0, page 5 threeRecords 2, page 5 threeRecords 3]⟩ d' ldb'
      [⟨0xa2, 1, 5, 0, 0, 0⟩, ⟨0xe2, 2, 6, 0, 0, 0⟩, ⟨0xa2, 3, 7, 0, 0, 0⟩] [some 0, some 2, some 3] regroup 10
      (by decide +kernel)
      ⟨.cons ⟨_, rfl, hcar 0 _ (by decide +kernel)⟩ (.cons ⟨_, rfl, hcar 2 _ (by decide +kernel)⟩
        (.cons ⟨_, rfl, hcar 3 _ (by decide +kernel)⟩ .nil)), by decide⟩ hp 1 ⟨0xe2, 2, 6, 0, 0, 0⟩ rfl (by decide)
    rw [h1] at this
    revert this
    decide

end Insteon
