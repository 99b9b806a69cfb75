import Verif.Props.Ic
import Verif.Props.ModemFaults

/-
C171: editing the modem's links as text (`ic plm edit`) on an unreliable serial line.
-/

namespace Insteon

open Spec Ic

variable (k : ModemKind)

theorem recordOf_small (r : Bytes) : (recordOf r).address.toNat < 2 ^ 24 := by
  simp only [recordOf, BitVec.toNat_ofNat]
  have h1 := (r.getD 2 0#8).isLt
  have h2 := (r.getD 3 0#8).isLt
  have h3 := (r.getD 4 0#8).isLt
  omega

/-- Rewriting when only the first `n` records are known. -/
theorem interrupted_partial_rewrite (hk : k.lawful) (m : ModemSt) (n : Nat) (new : List LinkRecord) (fs : List LineFate)
    (h8 : ∀ r ∈ m.db, r.length = 8) (hin : m.inbox = [])
    (hdist : new.Pairwise (fun a b => ¬ SameLink a b)) (h24 : ∀ l ∈ new, l.address.toNat < 2 ^ 24)
    (hrest : ∀ r ∈ m.db.drop n, ∀ l ∈ new, ¬ SameLink (recordOf r) l) :
    ∃ db fs' cached e,
      PlmLinks.writeLinks (Plm.asWriter k.faultyIO) (m, fs) ((m.db.take n).map recordOf) new =
        (({ m with db := db }, fs'), .ok (cached, e)) ∧
      ((e ≠ none ∧ ∃ i ≤ n, db = m.db.drop i) ∨
       (e ≠ none ∧ ∃ i ≤ new.length, db = m.db.drop n ++ (new.take i).map rawOf) ∨
       (e = none ∧ db = m.db.drop n ++ new.map rawOf)) := by
  obtain ⟨db, next, inbox, tick⟩ := m
  dsimp only at hin h8 hrest ⊢
  subst hin
  unfold PlmLinks.writeLinks
  obtain ⟨i, fs', e, h1, h2, h3, h4, -⟩ := fault_deleteAll k hk (db.take n) (db.drop n)
    (fun r hr => h8 r (List.mem_of_mem_take hr)) next tick fs
  rw [List.take_append_drop] at h1
  rw [h1]
  rcases e with _ | e
  · dsimp only
    have hi := h4 rfl
    subst hi
    rw [List.drop_length, List.nil_append]
    have hraw : ((db.drop n).map recordOf).map rawOf = db.drop n := by
      rw [List.map_map]
      conv_rhs => rw [← List.map_id (db.drop n)]
      exact List.map_congr_left fun r hr => raw_record r (h8 r (List.mem_of_mem_drop hr))
    obtain ⟨i, j, fs2, e, g1, g2, g3, -⟩ := fault_writeAll k ((db.drop n).map recordOf) [] new next tick hdist
      (fun d hd l hl => by
        obtain ⟨r, hr, rfl⟩ := List.mem_map.mp hd
        exact hrest r hr l hl)
      (fun l hl => by
        rcases List.mem_append.mp hl with hl | hl
        · obtain ⟨r, -, rfl⟩ := List.mem_map.mp hl
          exact recordOf_small r
        · exact h24 l hl) fs'
    rw [List.map_append, hraw] at g1
    rw [g1]
    refine ⟨_, fs2, _, e, rfl, .inr ?_⟩
    rcases g3 with ⟨rfl, rfl, rfl⟩ | ⟨x, rfl, hi, hj⟩
    · exact .inr ⟨rfl, by simp⟩
    · exact .inl ⟨by simp, j, by omega, rfl⟩
  · refine ⟨_, fs', _, some e, rfl, .inl ⟨by simp, i, ?_, ?_⟩⟩
    · exact le_trans h3 (by simp)
    · have h5 : i ≤ (db.take n).length := h3
      rw [← List.drop_append_of_le_length h5, List.take_append_drop]

/-- Links read from text have 24-bit addresses. -/
theorem textToLinks_small (t : Bytes) (ls : List LinkRecord) (h : textToLinks t = (ls, none)) : ∀ l ∈ ls, l.address.toNat < 2 ^ 24 := by
  suffices hs : ∀ (lines : List Bytes) (acc : List LinkRecord), (∀ l ∈ acc, l.address.toNat < 2 ^ 24) →
      textToLinksLoop lines acc = (ls, none) → ∀ l ∈ ls, l.address.toNat < 2 ^ 24 from hs _ _ (by simp) h
  intro lines
  induction lines with
  | nil =>
    intro acc ha he
    simp only [textToLinksLoop, Prod.mk.injEq, and_true] at he
    exact he ▸ ha
  | cons line lines ih =>
    intro acc ha he
    rw [textToLinksLoop] at he
    dsimp only at he
    split_ifs at he with h0
    · exact ih acc ha he
    · rcases hr : LinkRecord.unmarshalText LinkRecord.zero (trimSpace line) with ⟨l, _ | e⟩
      · rw [hr] at he
        refine ih _ (fun x hx => ?_) he
        rcases List.mem_append.mp hx with hx | hx
        · exact ha x hx
        · rw [List.mem_singleton] at hx
          subst hx
          unfold LinkRecord.unmarshalText at hr
          split at hr
          · rename_i f0 f1 f2 f3 f4 f5 _
            unfold LinkRecord.unmarshalFields at hr
            dsimp only at hr
            split_ifs at hr with h1 h2 h3 h4 h5
            all_goals simp only [Prod.mk.injEq] at hr
            · rw [hr.2] at h1; simp at h1
            · rw [hr.2] at h2; simp at h2
            · rw [hr.2] at h3; simp at h3
            · rw [hr.2] at h4; simp at h4
            · rw [hr.2] at h5; simp at h5
            · rw [← hr.1]
              exact (address_parse_bounded _ _).1 (by simpa using h3)
          · simp at hr
      · rw [hr] at he
        simp at he

/-- C171: the modem's links are edited as text on a line where commands may be refused or lost and answers cut. The editor is shown
the first records, all of them if the modem refuses nothing and no error is reported. The records not shown stay. Those shown
stay too when nothing is changed, when the editor fails or when the text has a mistake. Otherwise the first few
of them are gone, or all of them and the first few edited ones are stored, both with an error, or all edited ones are. -/
theorem edit_on_faulty_line (hk : k.lawful) (retries : Nat) (m : ModemSt) (edit : Bytes → Except Err Bytes) (fs : List LineFate)
    (h8 : ∀ r ∈ m.db, r.length = 8) (hin : m.inbox = [])
    (hedit : ∀ i t new, edit (linksToText ((m.db.take i).map recordOf) true) = .ok t → textToLinks t = (new, none) →
      new.Pairwise (fun a b => ¬ SameLink a b) ∧ ∀ r ∈ m.db.drop i, ∀ l ∈ new, ¬ SameLink (recordOf r) l) :
    ∃ (fuel₀ shown : Nat) (m' : ModemSt) (fs' : List LineFate) (c : List LinkRecord) (e : Option Err),
      (∀ fuel ≥ fuel₀, plmEdit (Plm.asWriter k.faultyIO) retries fuel edit ((m, fs), []) = some (((m', fs'), c), .ok e)) ∧
      shown ≤ m.db.length ∧ (.refused ∉ fs → e = none → shown = m.db.length) ∧
      ((m'.db = m.db ∧ (e = none → edit (linksToText ((m.db.take shown).map recordOf) true) =
          .ok (linksToText ((m.db.take shown).map recordOf) true))) ∨
       ∃ t new, edit (linksToText ((m.db.take shown).map recordOf) true) = .ok t ∧ textToLinks t = (new, none) ∧
        ((e ≠ none ∧ ∃ i ≤ shown, m'.db = m.db.drop i) ∨
         (e ≠ none ∧ ∃ i ≤ new.length, m'.db = m.db.drop shown ++ (new.take i).map rawOf) ∨
         (e = none ∧ m'.db = m.db.drop shown ++ new.map rawOf))) := by
  obtain ⟨f0, m1, fs1, ls, e1, hl, hdb, hin1, hr⟩ := read_on_faulty_line_partial k hk retries m [] fs h8 hin
  rcases hr with ⟨hne, rfl⟩ | ⟨rfl, i, hi, rfl, hall⟩
  · refine ⟨f0, 0, m1, fs1, [], some (.other 55), fun fuel hf => ?_, Nat.zero_le _, by simp, .inl ⟨hdb, by simp⟩⟩
    unfold plmEdit editLinks
    dsimp only
    rw [hl fuel hf]
    rfl
  · by_cases hz : i = 0 ∨ m.db = []
    · refine ⟨f0, i, m1, fs1, [], some (.other 55), fun fuel hf => ?_, hi, by simp, .inl ⟨hdb, by simp⟩⟩
      have hnil : (m.db.take i).map recordOf = [] := by rcases hz with rfl | hz <;> simp [*]
      unfold plmEdit editLinks
      dsimp only
      rw [hl fuel hf, hnil]
      rfl
    · have hlen : ((m.db.take i).map recordOf).length ≠ 0 := by
        rw [List.length_map, List.length_take]
        have : m.db.length ≠ 0 := fun h => hz (.inr (List.length_eq_zero_iff.mp h))
        have : i ≠ 0 := fun h => hz (.inl h)
        omega
      have hstep : ∀ fuel ≥ f0, plmEdit (Plm.asWriter k.faultyIO) retries fuel edit ((m, fs), []) =
          match edit (linksToText ((m.db.take i).map recordOf) true) with
          | .error e => some (((m1, fs1), (m.db.take i).map recordOf), .ok (some e))
          | .ok output =>
            if linksToText ((m.db.take i).map recordOf) true = output then some (((m1, fs1), (m.db.take i).map recordOf), .ok none)
            else match textToLinks output with
              | (_, some e) => some (((m1, fs1), (m.db.take i).map recordOf), .ok (some e))
              | (new, none) => match PlmLinks.writeLinks (Plm.asWriter k.faultyIO) (m1, fs1) ((m.db.take i).map recordOf) new with
                | (t, .ok (cached, e)) => some ((t, cached), .ok e)
                | (t, .err e) => some ((t, (m.db.take i).map recordOf), .err e)
                | (t, .panic) => some ((t, (m.db.take i).map recordOf), .panic) := by
        intro fuel hf
        unfold plmEdit editLinks
        dsimp only
        rw [hl fuel hf]
        dsimp only
        rw [if_neg hlen]
        rcases edit (linksToText ((m.db.take i).map recordOf) true) with x | t
        · rfl
        · dsimp only
          by_cases ht : linksToText ((m.db.take i).map recordOf) true = t
          · rw [if_pos ht, if_pos ht]
          · rw [if_neg ht, if_neg ht]
            rcases textToLinks t with ⟨new, _ | x⟩
            · dsimp only
              rcases PlmLinks.writeLinks (Plm.asWriter k.faultyIO) (m1, fs1) ((m.db.take i).map recordOf) new with ⟨s, ⟨c, e⟩ | e | _⟩ <;> rfl
            · rfl
      rcases he : edit (linksToText ((m.db.take i).map recordOf) true) with x | t
      · exact ⟨f0, i, m1, fs1, (m.db.take i).map recordOf, some x, fun fuel hf => by rw [hstep fuel hf, he], hi, by simp, .inl ⟨hdb, by simp⟩⟩
      · by_cases ht : linksToText ((m.db.take i).map recordOf) true = t
        · refine ⟨f0, i, m1, fs1, (m.db.take i).map recordOf, none, fun fuel hf => by rw [hstep fuel hf, he]; dsimp only; rw [if_pos ht], hi, fun h _ => hall h, .inl ⟨hdb, fun _ => ?_⟩⟩
          rw [he, ht]
        · rcases hp : textToLinks t with ⟨new, _ | x⟩
          · obtain ⟨hd, hrest⟩ := hedit i t new he hp
            obtain ⟨db, fs2, c, e, w1, w2⟩ := interrupted_partial_rewrite k hk m1 i new fs1 (hdb ▸ h8) hin1 hd
              (textToLinks_small t new hp) (hdb ▸ hrest)
            rw [hdb] at w1 w2
            refine ⟨f0, i, { m1 with db := db }, fs2, c, e, fun fuel hf => ?_, hi, fun h _ => hall h, .inr ⟨t, new, he, hp, w2⟩⟩
            rw [hstep fuel hf, he]
            dsimp only
            rw [if_neg ht, hp]
            dsimp only
            rw [w1]
          · refine ⟨f0, i, m1, fs1, (m.db.take i).map recordOf, some x, fun fuel hf => ?_, hi, by simp, .inl ⟨hdb, by simp⟩⟩
            rw [hstep fuel hf, he]
            dsimp only
            rw [if_neg ht, hp]

/-- An editor that changes everything. -/
def otherText : Bytes → Except Err Bytes := fun _ => .ok (linksToText [⟨0xc2, 7, 0x010209, 0, 0, 0⟩] true)

/-- One record is not read because the modem refuses a command; it stays. -/
example : (plmEdit (Plm.asWriter plainModem.faultyIO) 3 20 otherText
      ((⟨[[0xe2, 1, 1, 2, 3, 0, 0, 0], [0xa2, 1, 1, 2, 4, 0, 0, 0]], 0, [], 0⟩, [.done, .refused]), [])).map (fun r => (r.1.1.1.db, r.2)) =
    some ([[0xa2, 1, 1, 2, 4, 0, 0, 0], [0xc2, 7, 1, 2, 9, 0, 0, 0]], .ok none) := by decide +kernel

/-- The answer to the first deletion is lost: an error, and one record less. -/
example : (plmEdit (Plm.asWriter plainModem.faultyIO) 3 20 otherText
      ((⟨[[0xe2, 1, 1, 2, 3, 0, 0, 0], [0xa2, 1, 1, 2, 4, 0, 0, 0]], 0, [], 0⟩, [.done, .done, .done, .cut 0]), [])).map (fun r => (r.1.1.1.db, r.2)) =
    some ([[0xa2, 1, 1, 2, 4, 0, 0, 0]], .ok (some (.wrapped .plmReadTimeout))) := by decide +kernel

/-- The hypothesis on the editor is met. -/
example : ∀ i t new, otherText (linksToText (([[0xe2, 1, 1, 2, 3, 0, 0, 0], [0xa2, 1, 1, 2, 4, 0, 0, 0]] : List Bytes).take i |>.map recordOf) true) = .ok t →
    textToLinks t = (new, none) → new.Pairwise (fun a b => ¬ SameLink a b) ∧
      ∀ r ∈ ([[0xe2, 1, 1, 2, 3, 0, 0, 0], [0xa2, 1, 1, 2, 4, 0, 0, 0]] : List Bytes).drop i, ∀ l ∈ new, ¬ SameLink (recordOf r) l := by
  intro i t new ht hn
  simp only [otherText, Except.ok.injEq] at ht
  subst ht
  have : textToLinks (linksToText [⟨0xc2, 7, 0x010209, 0, 0, 0⟩] true) = ([⟨0xc2, 7, 0x010209, 0, 0, 0⟩], none) := by decide +kernel
  rw [this] at hn
  simp only [Prod.mk.injEq, and_true] at hn
  subst hn
  refine ⟨by simp, fun r hr l hl => ?_⟩
  rw [List.mem_singleton] at hl
  subst hl
  have hr' := List.mem_of_mem_drop hr
  simp only [List.mem_cons, List.not_mem_nil, or_false] at hr'
  rcases hr' with rfl | rfl <;> simp [SameLink, recordOf]

end Insteon
