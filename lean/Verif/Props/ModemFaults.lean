import Verif.Spec.ModemFaults
import Verif.Props.PlmLinks

/-
C167, C168: what is left in the modem's database when `WriteLinks` is interrupted, and what a later attempt does.
-/

namespace Insteon
open Spec

variable (k : ModemKind)

/-- One manage-record command, attempted up to `n + 1` times. -/
theorem fault_loop (m : ModemSt) (op : Byte) (r : Bytes) (hin : m.inbox = []) (db' : List Bytes)
    (hok : k.manage m op r = { m with db := db', inbox := [⟨0x6f#8, op :: r, 0x06#8⟩] }) (n : Nat) (fs : List LineFate)
    (cur : PRes) :
    ∃ d fs' a e, retryLoop (Plm.writePacket k.faultyIO) true ⟨0x6f#8, op :: r, 0#8⟩ (n + 1) (m, fs) cur =
        (({ m with db := d }, fs'), .ret a e) ∧ fs' <:+ fs ∧
      ((e = none ∧ d = db') ∨ ∃ x, e = some x ∧ x ≠ .wrongPayload ∧
        (d = m.db ∨ (d = db' ∧ x = .wrapped .plmReadTimeout))) ∧
      ((∀ f ∈ fs, f = .done ∨ f = .refused) → ¬ List.replicate (n + 1) .refused <+: fs → e = none) := by
  obtain ⟨db, next, inbox, tick⟩ := m
  dsimp only at hin
  subst hin
  have hstep : ∀ fs, Plm.writePacket k.faultyIO ((⟨db, next, [], tick⟩ : ModemSt), fs) ⟨0x6f#8, op :: r, 0#8⟩ =
      match fs with
      | [] => ((⟨db', next, [], tick⟩, []), .ret (some ⟨0x6f#8, op :: r, 0x06#8⟩) none)
      | .done :: fs => ((⟨db', next, [], tick⟩, fs), .ret (some ⟨0x6f#8, op :: r, 0x06#8⟩) none)
      | .refused :: fs => ((⟨db, next, [], tick⟩, fs), .ret (some ⟨0x6f#8, op :: r, 0x15#8⟩) (some .plmNak))
      | .lost :: fs => ((⟨db, next, [], tick⟩, fs), .ret none (some (.wrapped .plmReadTimeout)))
      | .cut 0 :: fs => ((⟨db', next, [], tick⟩, fs), .ret none (some (.wrapped .plmReadTimeout)))
      | .cut (_ + 1) :: fs => ((⟨db', next, [], tick⟩, fs), .ret (some ⟨0x6f#8, op :: r, 0x06#8⟩) none)
      | .unsent why :: fs => ((⟨db, next, [], tick⟩, fs), .ret none (some (.other why))) := by
    intro fs
    rcases fs with _ | ⟨f, fs⟩
    · simp [Plm.writePacket, ModemKind.faultyIO, ModemKind.receive, Packet.marshalBinary, hok,
        Plm.checkAck, Packet.isACK, Packet.isNAK, PCmd.getInfo, PCmd.getConfig, PCmd.sendInsteonMsg]
    · rcases f with _ | _ | _ | (_ | _) | _ <;> simp [Plm.writePacket, ModemKind.faultyIO, ModemKind.receive, Packet.marshalBinary, hok, refusal,
        Plm.checkAck, Packet.isACK, Packet.isNAK, PCmd.getInfo, PCmd.getConfig, PCmd.sendInsteonMsg]
  induction n generalizing fs cur with
  | zero =>
    rw [retryLoop, hstep]
    rcases fs with _ | ⟨f, fs⟩
    · exact ⟨db', [], _, none, rfl, List.suffix_refl _, .inl ⟨rfl, rfl⟩, fun _ _ => rfl⟩
    · rcases f with _ | _ | _ | (_ | _) | why
      · exact ⟨db', fs, _, none, rfl, List.suffix_cons _ _, .inl ⟨rfl, rfl⟩, fun _ _ => rfl⟩
      · refine ⟨db, fs, _, some .plmNak, rfl, List.suffix_cons _ _, .inr ⟨_, rfl, by decide, .inl rfl⟩, fun _ h => ?_⟩
        exact absurd ⟨fs, rfl⟩ h
      · refine ⟨db, fs, _, some (.wrapped .plmReadTimeout), rfl, List.suffix_cons _ _, .inr ⟨_, rfl, by decide, .inl rfl⟩, fun h _ => ?_⟩
        simpa using h _ List.mem_cons_self
      · refine ⟨db', fs, _, some (.wrapped .plmReadTimeout), rfl, List.suffix_cons _ _, .inr ⟨_, rfl, by decide, .inr ⟨rfl, rfl⟩⟩, fun h _ => ?_⟩
        simpa using h _ List.mem_cons_self
      · exact ⟨db', fs, _, none, rfl, List.suffix_cons _ _, .inl ⟨rfl, rfl⟩, fun _ _ => rfl⟩
      · refine ⟨db, fs, _, some (.other _), rfl, List.suffix_cons _ _, .inr ⟨_, rfl, by simp, .inl rfl⟩, fun h _ => ?_⟩
        simpa using h _ List.mem_cons_self
  | succ n ih =>
    rw [retryLoop, hstep]
    rcases fs with _ | ⟨f, fs⟩
    · exact ⟨db', [], _, none, rfl, List.suffix_refl _, .inl ⟨rfl, rfl⟩, fun _ _ => rfl⟩
    · rcases f with _ | _ | _ | (_ | _) | why
      · exact ⟨db', fs, _, none, rfl, List.suffix_cons _ _, .inl ⟨rfl, rfl⟩, fun _ _ => rfl⟩
      · obtain ⟨d, fs', a, e, h1, h2, h3, h4⟩ := ih fs (.ret (some ⟨0x6f#8, op :: r, 0x15#8⟩) (some .plmNak))
        refine ⟨d, fs', a, e, h1, h2.trans (List.suffix_cons _ _), h3, fun h hn => h4 (fun f hf => h f (by simp [hf])) ?_⟩
        intro hp
        apply hn
        rw [List.replicate_succ]
        exact List.cons_prefix_cons.mpr ⟨rfl, hp⟩
      · refine ⟨db, fs, _, some (.wrapped .plmReadTimeout), rfl, List.suffix_cons _ _, .inr ⟨_, rfl, by decide, .inl rfl⟩, fun h _ => ?_⟩
        simpa using h _ List.mem_cons_self
      · refine ⟨db', fs, _, some (.wrapped .plmReadTimeout), rfl, List.suffix_cons _ _, .inr ⟨_, rfl, by decide, .inr ⟨rfl, rfl⟩⟩, fun h _ => ?_⟩
        simpa using h _ List.mem_cons_self
      · exact ⟨db', fs, _, none, rfl, List.suffix_cons _ _, .inl ⟨rfl, rfl⟩, fun _ _ => rfl⟩
      · refine ⟨db, fs, none, some (.other why), ?_, List.suffix_cons _ _, .inr ⟨_, rfl, by simp, .inl rfl⟩, fun h _ => ?_⟩
        · simp [retryable]
        · simpa using h _ List.mem_cons_self

theorem bearable_suffix {fs fs' : List LineFate} (h : fs' <:+ fs) (hb : Bearable fs) : Bearable fs' :=
  ⟨fun f hf => hb.1 f (h.subset hf), fun hi => hb.2 (hi.trans h.isInfix)⟩

/-- One manage-record command with the retries `WriteLinks` uses. -/
theorem fault_command (m : ModemSt) (op : Byte) (r : Bytes) (hin : m.inbox = []) (db' : List Bytes)
    (hok : k.manage m op r = { m with db := db', inbox := [⟨0x6f#8, op :: r, 0x06#8⟩] }) (fs : List LineFate) :
    ∃ d fs' a e, retryWrite (Plm.asWriter k.faultyIO).write 3 true (m, fs) ⟨0x6f#8, op :: r, 0#8⟩ =
        (({ m with db := d }, fs'), .ret a e) ∧ fs' <:+ fs ∧
      ((e = none ∧ d = db') ∨ ∃ x, e = some x ∧ x ≠ .wrongPayload ∧
        (d = m.db ∨ (d = db' ∧ x = .wrapped .plmReadTimeout))) ∧
      (Bearable fs → e = none) := by
  obtain ⟨d, fs', a, e, h1, h2, h3, h4⟩ := fault_loop k m op r hin db' hok 3 fs (.ret none none)
  exact ⟨d, fs', a, e, h1, h2, h3, fun hb => h4 hb.1 fun hp => hb.2 hp.isInfix⟩

/-- Deleting the first records. -/
theorem fault_deleteAll (hk : k.lawful) (db rest : List Bytes) (h8 : ∀ r ∈ db, r.length = 8) (next tick : Nat)
    (fs : List LineFate) :
    ∃ i fs' e, PlmLinks.deleteAll (Plm.asWriter k.faultyIO) (⟨db ++ rest, next, [], tick⟩, fs) (db.map recordOf) =
        ((⟨db.drop i ++ rest, next, [], tick⟩, fs'), .ok e) ∧ fs' <:+ fs ∧ i ≤ db.length ∧
      (e = none → i = db.length) ∧ (Bearable fs → e = none) := by
  induction db generalizing fs with
  | nil => exact ⟨0, fs, none, rfl, List.suffix_refl _, by simp, fun _ => rfl, fun _ => rfl⟩
  | cons r rs ih =>
    obtain ⟨d, fs', a, e, h1, h2, h3, h4⟩ := fault_command k ⟨r :: rs ++ rest, next, [], tick⟩ 0x80#8 r rfl (rs ++ rest) (by
      simp [ModemKind.manage, hk.2 r, removeFirst]) fs
    simp only [List.map_cons, PlmLinks.deleteAll, PlmLinks.deleteLink, ManageRecord.marshalBinary, marshal_raw,
      raw_record r (h8 r (by simp)), PCmd.manageAllLinkRecord]
    rw [h1]
    rcases h3 with ⟨rfl, rfl⟩ | ⟨x, rfl, -, hd⟩
    · dsimp only
      obtain ⟨i, fs2, e, g1, g2, g3, g4, g5⟩ := ih (fun x hx => h8 x (by simp [hx])) fs'
      rw [g1]
      exact ⟨i + 1, fs2, e, rfl, g2.trans h2, by simpa using g3, fun h => by simpa using g4 h,
        fun hb => g5 (bearable_suffix h2 hb)⟩
    · dsimp only
      rcases hd with rfl | ⟨rfl, -⟩
      · exact ⟨0, fs', some x, rfl, h2, by simp, by simp, fun hb => h4 hb⟩
      · exact ⟨1, fs', some x, rfl, h2, by simp, by simp, fun hb => h4 hb⟩

/-- What the modem does with a record it can tell from all it has. -/
theorem fresh_record (done : List LinkRecord) (l : LinkRecord) (next tick : Nat)
    (hd : ∀ d ∈ done, ¬ SameLink d l) (h24 : ∀ x ∈ l :: done, x.address.toNat < 2 ^ 24) :
    k.manage ⟨done.map rawOf, next, [], tick⟩ (if l.flags.controller then 0x40#8 else 0x41#8) (rawOf l) =
      ⟨done.map rawOf ++ [rawOf l], next,
        [⟨0x6f#8, (if l.flags.controller then 0x40#8 else 0x41#8) :: rawOf l, 0x06#8⟩], tick⟩ := by
  have hnew : ∀ y ∈ done.map rawOf, (fun x => (rawController x == l.flags.controller) && sameGroupAddress x (rawOf l)) y = false := by
    intro y hy
    simp only [List.mem_map] at hy
    obtain ⟨d, hd', rfl⟩ := hy
    by_contra hc
    simp only [Bool.not_eq_false, Bool.and_eq_true, beq_iff_eq] at hc
    have hsg := sameGroupAddress_raw d l (h24 d (by simp [hd'])) (h24 l (by simp)) hc.2
    refine hd d hd' ⟨?_, hsg⟩
    have h1 := hc.1
    rw [controller_bit] at h1
    exact h1
  cases hc : l.flags.controller with
  | true =>
    rw [hc] at hnew
    simp only [ModemKind.manage, if_true]
    rw [upsert_append _ _ _ (by simpa using hnew)]
    simp
  | false =>
    rw [hc] at hnew
    have := upsert_append (fun x => !rawController x && sameGroupAddress x (rawOf l)) (rawOf l) (done.map rawOf)
      (by simpa using hnew)
    simp [ModemKind.manage, this]

/-- Writing links the modem can tell apart, when it has `done`. -/
theorem fault_writeAll (done cached new : List LinkRecord) (next tick : Nat)
    (hdist : new.Pairwise (fun a b => ¬ SameLink a b)) (hdone : ∀ d ∈ done, ∀ l ∈ new, ¬ SameLink d l)
    (h24 : ∀ l ∈ done ++ new, l.address.toNat < 2 ^ 24) (fs : List LineFate) :
    ∃ i j fs' e, PlmLinks.writeAll (Plm.asWriter k.faultyIO) (⟨done.map rawOf, next, [], tick⟩, fs) cached new =
        ((⟨(done ++ new.take j).map rawOf, next, [], tick⟩, fs'), .ok (cached ++ new.take i, e)) ∧ fs' <:+ fs ∧
      ((e = none ∧ i = new.length ∧ j = new.length) ∨
        ∃ x, e = some x ∧ i < new.length ∧ (j = i ∨ (j = i + 1 ∧ x = .wrapped .plmReadTimeout))) ∧
      (Bearable fs → e = none) := by
  induction new generalizing done cached fs with
  | nil => exact ⟨0, 0, fs, none, by simp [PlmLinks.writeAll], List.suffix_refl _, .inl ⟨rfl, rfl, rfl⟩, fun _ => rfl⟩
  | cons l ls ih =>
    obtain ⟨d, fs', a, e, h1, h2, h3, h4⟩ := fault_command k ⟨done.map rawOf, next, [], tick⟩
      (if l.flags.controller then 0x40#8 else 0x41#8) (rawOf l) rfl (done.map rawOf ++ [rawOf l])
      (fresh_record k done l next tick (fun d hd => hdone d hd l (by simp))
        (fun x hx => h24 x (by simp at hx ⊢; rcases hx with rfl | hx <;> simp [*]))) fs
    simp only [PlmLinks.writeAll, PlmLinks.writeOne, PlmLinks.writeLink, ManageRecord.marshalBinary, marshal_raw,
      PCmd.manageAllLinkRecord]
    rw [h1]
    rcases h3 with ⟨rfl, rfl⟩ | ⟨x, rfl, hx, hd⟩
    · dsimp only
      obtain ⟨i, j, fs2, e, g1, g2, g3, g4⟩ := ih (done ++ [l]) (cached ++ [l]) (List.pairwise_cons.mp hdist).2 (fun d hd x hx => by
        rcases List.mem_append.mp hd with hd | hd
        · exact hdone d hd x (by simp [hx])
        · rw [List.mem_singleton] at hd
          exact hd ▸ (List.pairwise_cons.mp hdist).1 x hx) (by simpa using h24) fs'
      simp only [List.map_append, List.map_cons, List.map_nil, List.append_assoc, List.cons_append, List.nil_append] at g1
      rw [g1]
      refine ⟨i + 1, j + 1, fs2, e, by simp, g2.trans h2, ?_, fun hb => g4 (bearable_suffix h2 hb)⟩
      rcases g3 with ⟨rfl, hi, hj⟩ | ⟨x, rfl, hi, hj⟩
      · exact .inl ⟨rfl, by simp [hi], by simp [hj]⟩
      · exact .inr ⟨x, rfl, by simpa using hi, by rcases hj with rfl | ⟨rfl, h⟩ <;> simp [*]⟩
    · dsimp only
      rw [if_neg hx]
      rcases hd with rfl | ⟨rfl, rfl⟩
      · exact ⟨0, 0, fs', some x, by simp, h2, .inr ⟨x, rfl, by simp, .inl rfl⟩, fun hb => h4 hb⟩
      · exact ⟨0, 1, fs', some _, by simp, h2, .inr ⟨_, rfl, by simp, .inr ⟨rfl, rfl⟩⟩, fun hb => h4 hb⟩

/-- C167: whatever happens to the commands on the line, rewriting the database of a modem whose records were read
before leaves, with an error, the old records without the first few of them, or, with an error, the first few
of the new links, or, without an error, all of the new links. Records are never mixed, duplicated or
reordered, and nothing panics. -/
theorem interrupted_modem_rewrite (hk : k.lawful) (m : ModemSt) (new : List LinkRecord) (fs : List LineFate)
    (h8 : ∀ r ∈ m.db, r.length = 8) (hin : m.inbox = [])
    (hdist : new.Pairwise (fun a b => ¬ SameLink a b)) (h24 : ∀ l ∈ new, l.address.toNat < 2 ^ 24) :
    ∃ db fs' cached e,
      PlmLinks.writeLinks (Plm.asWriter k.faultyIO) (m, fs) (m.db.map recordOf) new =
        (({ m with db := db }, fs'), .ok (cached, e)) ∧
      ((e ≠ none ∧ cached = m.db.map recordOf ∧ ∃ i ≤ m.db.length, db = m.db.drop i) ∨
       (e ≠ none ∧ ∃ i < new.length, cached = new.take i ∧
         (db = (new.take i).map rawOf ∨ (db = (new.take (i + 1)).map rawOf ∧ e = some (.wrapped .plmReadTimeout)))) ∨
       (e = none ∧ cached = new ∧ db = new.map rawOf)) := by
  obtain ⟨db, next, inbox, tick⟩ := m
  dsimp only at hin h8 ⊢
  subst hin
  unfold PlmLinks.writeLinks
  obtain ⟨i, fs', e, h1, h2, h3, h4, -⟩ := fault_deleteAll k hk db [] h8 next tick fs
  simp only [List.append_nil] at h1
  rw [h1]
  rcases e with _ | e
  · dsimp only
    have hi := h4 rfl
    subst hi
    obtain ⟨i, j, fs2, e, g1, g2, g3, -⟩ := fault_writeAll k [] [] new next tick hdist (by simp) (by simpa using h24) fs'
    simp only [List.map_nil, List.nil_append] at g1
    rw [List.drop_length, g1]
    refine ⟨_, fs2, _, e, rfl, .inr ?_⟩
    rcases g3 with ⟨rfl, rfl, rfl⟩ | ⟨x, rfl, hi, hj⟩
    · exact .inr ⟨rfl, by simp, by simp⟩
    · exact .inl ⟨by simp, i, hi, rfl, by rcases hj with rfl | ⟨rfl, rfl⟩ <;> simp⟩
  · exact ⟨_, fs', _, some e, rfl, .inl ⟨by simp, rfl, i, h3, rfl⟩⟩

/-- C167, the other half: as long as nothing is lost on the line and no command is refused more than three times in a
row, the rewrite succeeds. -/
theorem bearable_rewrite (hk : k.lawful) (m : ModemSt) (new : List LinkRecord) (fs : List LineFate)
    (h8 : ∀ r ∈ m.db, r.length = 8) (hin : m.inbox = [])
    (hdist : new.Pairwise (fun a b => ¬ SameLink a b)) (h24 : ∀ l ∈ new, l.address.toNat < 2 ^ 24)
    (hb : Bearable fs) :
    ∃ fs', PlmLinks.writeLinks (Plm.asWriter k.faultyIO) (m, fs) (m.db.map recordOf) new =
        (({ m with db := new.map rawOf }, fs'), .ok (new, none)) := by
  obtain ⟨db, next, inbox, tick⟩ := m
  dsimp only at hin h8 ⊢
  subst hin
  unfold PlmLinks.writeLinks
  obtain ⟨i, fs', e, h1, h2, h3, h4, h5⟩ := fault_deleteAll k hk db [] h8 next tick fs
  simp only [List.append_nil] at h1
  rw [h1]
  have he := h5 hb
  subst he
  dsimp only
  have hi := h4 rfl
  subst hi
  obtain ⟨i, j, fs2, e, g1, g2, g3, g4⟩ := fault_writeAll k [] [] new next tick hdist (by simp) (by simpa using h24) fs'
  simp only [List.map_nil, List.nil_append] at g1
  have he := g4 (bearable_suffix h2 hb)
  subst he
  rw [List.drop_length, g1]
  rcases g3 with ⟨-, rfl, rfl⟩ | ⟨x, hx, -⟩
  · exact ⟨fs2, by simp⟩
  · simp at hx

/-! ### Trying again -/

/-- C168: how a repeated attempt gets stuck. When the first record the program knows of is gone, every further
`WriteLinks` is refused, changes nothing and leaves the program as it was. -/
theorem rewrite_stuck_partial (m : ModemSt) (c : LinkRecord) (cs new : List LinkRecord) (hin : m.inbox = [])
    (hgone : ∀ r ∈ m.db, k.deletes (rawOf c) r = false) :
    PlmLinks.writeLinks (Plm.asWriter k.io) m (c :: cs) new = (m, .ok (c :: cs, some .plmNak)) := by
  obtain ⟨db, next, inbox, tick⟩ := m
  dsimp only at hin hgone
  subst hin
  have hstep : Plm.writePacket k.io (⟨db, next, [], tick⟩ : ModemSt) ⟨0x6f#8, 0x80#8 :: rawOf c, 0#8⟩ =
      (⟨db, next, [], tick⟩, .ret (some ⟨0x6f#8, 0x80#8 :: rawOf c, 0x15#8⟩) (some .plmNak)) := by
    have hany : ¬ ∃ x ∈ db, k.deletes (rawOf c) x = true := by
      rintro ⟨x, hx, h⟩
      rw [hgone x hx] at h
      exact absurd h (by decide)
    simp [Plm.writePacket, ModemKind.io, ModemKind.receive, ModemKind.manage, Packet.marshalBinary, hany,
        Plm.checkAck, Packet.isACK, Packet.isNAK, PCmd.getInfo, PCmd.getConfig, PCmd.sendInsteonMsg]
  have hr : retryWrite (Plm.asWriter k.io).write 3 true (⟨db, next, [], tick⟩ : ModemSt) ⟨0x6f#8, 0x80#8 :: rawOf c, 0#8⟩ =
      (⟨db, next, [], tick⟩, .ret (some ⟨0x6f#8, 0x80#8 :: rawOf c, 0x15#8⟩) (some .plmNak)) := by
    show retryLoop (Plm.writePacket k.io) true _ 4 _ _ = _
    simp only [retryLoop, hstep]
    rfl
  simp only [PlmLinks.writeLinks, PlmLinks.deleteAll, PlmLinks.deleteLink, ManageRecord.marshalBinary, marshal_raw,
      PCmd.manageAllLinkRecord]
  rw [hr]

/-- C168, the way out: after any interrupted rewrite, once the line works, reading the database and then rewriting it
leaves exactly the given links. -/
theorem rewrite_after_reading_partial (hk : k.lawful) (retries : Nat) (m : ModemSt) (new new' : List LinkRecord)
    (fs : List LineFate) (h8 : ∀ r ∈ m.db, r.length = 8) (hin : m.inbox = [])
    (hdist : new.Pairwise (fun a b => ¬ SameLink a b)) (h24 : ∀ l ∈ new, l.address.toNat < 2 ^ 24)
    (hdist' : new'.Pairwise (fun a b => ¬ SameLink a b)) (h24' : ∀ l ∈ new', l.address.toNat < 2 ^ 24) :
    ∃ (m1 m2 m3 : ModemSt) (fs' : List LineFate) (c1 c2 : List LinkRecord) (e : Option Err) (fuel₀ : Nat),
      PlmLinks.writeLinks (Plm.asWriter k.faultyIO) (m, fs) (m.db.map recordOf) new = ((m1, fs'), .ok (c1, e)) ∧
      (∀ fuel ≥ fuel₀, PlmLinks.links (Plm.asWriter k.io) retries fuel m1 c1 = some (m2, .ok (c2, none))) ∧
      PlmLinks.writeLinks (Plm.asWriter k.io) m2 c2 new' = (m3, .ok (new', none)) ∧ m3.db = new'.map rawOf := by
  obtain ⟨db, fs', c, e, h1, h2⟩ := interrupted_modem_rewrite k hk m new fs h8 hin hdist h24
  have h8' : ∀ r ∈ db, r.length = 8 := by
    rcases h2 with ⟨-, -, i, -, rfl⟩ | ⟨-, i, -, -, rfl | ⟨rfl, -⟩⟩ | ⟨-, -, rfl⟩
    · exact fun r hr => h8 r (List.mem_of_mem_drop hr)
    all_goals
      intro r hr
      obtain ⟨l, -, rfl⟩ := List.mem_map.mp hr
      rfl
  obtain ⟨f0, m1, m2, m3, c1, g1, g2, g3, -⟩ :=
    modem_read_rewrite_read_partial k hk retries { m with db := db } c new' h8' hin hdist' h24'
  exact ⟨_, m1, m2, fs', c, c1, e, f0, h1, g1, g2, g3⟩

/-- Trying `WriteLinks` again, as often as `n` says, with what the program knows after each attempt. -/
def Spec.tryAgain (new : List LinkRecord) : Nat → ModemSt × List LinkRecord × Option Err → ModemSt × List LinkRecord × Option Err
  | 0, x => x
  | n + 1, (m, c, e) =>
    match PlmLinks.writeLinks (Plm.asWriter k.io) m c new with
    | (m, .ok (c, e)) => Spec.tryAgain new n (m, c, e)
    | (m, _) => Spec.tryAgain new n (m, c, e)

/-- A modem that deletes the record it is given. -/
def plainModem : ModemKind := ⟨fun _ => [], fun a b => a == b⟩

theorem plainModem_lawful : plainModem.lawful := ⟨by simp [plainModem], by simp [plainModem]⟩

/-- C168 is false of the code: one lost answer while the old records are deleted, and no number of attempts on a line
that works again succeeds. -/
theorem rewrite_again_refuted :
    ¬ ∀ (k : ModemKind) (m m1 : ModemSt) (new c1 : List LinkRecord) (fs : List LineFate) (e : Option Err), k.lawful →
      (∀ r ∈ m.db, r.length = 8) → m.inbox = [] → new.Pairwise (fun a b => ¬ SameLink a b) →
      (∀ l ∈ new, l.address.toNat < 2 ^ 24) →
      PlmLinks.writeLinks (Plm.asWriter k.faultyIO) (m, fs) (m.db.map recordOf) new = ((m1, []), .ok (c1, e)) →
      ∃ n, (tryAgain k new n (m1, c1, e)).2.2 = none := by
  intro h
  obtain ⟨n, hn⟩ := h plainModem ⟨[[0xe2, 1, 1, 2, 3, 0, 0, 0]], 0, [], 0⟩ ⟨[], 0, [], 0⟩ []
    [recordOf [0xe2, 1, 1, 2, 3, 0, 0, 0]] [.cut 0] (some (.wrapped .plmReadTimeout)) plainModem_lawful (by simp) rfl (by simp) (by simp)
    (by decide +kernel)
  have hs := rewrite_stuck_partial plainModem ⟨[], 0, [], 0⟩ (recordOf [0xe2, 1, 1, 2, 3, 0, 0, 0]) [] [] rfl (by simp)
  have : ∀ n e, e ≠ none → (tryAgain plainModem [] n (⟨[], 0, [], 0⟩, [recordOf [0xe2, 1, 1, 2, 3, 0, 0, 0]], e)).2.2 ≠ none := by
    intro n
    induction n with
    | zero => exact fun e he => he
    | succ n ih =>
      intro e _
      rw [tryAgain, hs]
      exact ih _ (by simp)
  exact this n _ (by simp) hn

/-- The cache `WriteLinks` builds does not influence what it sends. -/
theorem writeAll_cached {σ : Type} (w : PacketWriter σ) (s : σ) (c new : List LinkRecord) :
    PlmLinks.writeAll w s c new = match PlmLinks.writeAll w s [] new with
      | (s, .ok (c', e)) => (s, .ok (c ++ c', e))
      | (s, .err e) => (s, .err e)
      | (s, .panic) => (s, .panic) := by
  induction new generalizing s c with
  | nil => simp [PlmLinks.writeAll]
  | cons l ls ih =>
    rw [PlmLinks.writeAll, PlmLinks.writeAll]
    rcases PlmLinks.writeOne w s l with ⟨s, (_ | _) | _ | _⟩
    · dsimp only
      rw [ih, ih s ([] ++ [l])]
      rcases PlmLinks.writeAll w s [] ls with ⟨s, ⟨c', e⟩ | _ | _⟩ <;> simp
    all_goals simp

/-- C168 when a write stayed unanswered: the link in doubt is not known to the program, and stays in the modem when
other links are written, which succeeds. -/
theorem doubtful_link_partial (hk : k.lawful) (m : ModemSt) (known : List LinkRecord) (doubt : LinkRecord) (new : List LinkRecord)
    (hin : m.inbox = []) (hdb : m.db = known.map rawOf ++ [rawOf doubt])
    (hk24 : ∀ l ∈ known, l.address.toNat < 2 ^ 24)
    (hdist : (doubt :: new).Pairwise (fun a b => ¬ SameLink a b)) (h24 : ∀ l ∈ doubt :: new, l.address.toNat < 2 ^ 24) :
    PlmLinks.writeLinks (Plm.asWriter k.io) m known new =
      ({ m with db := rawOf doubt :: new.map rawOf }, .ok (new, none)) := by
  obtain ⟨db, next, inbox, tick⟩ := m
  dsimp only at hin hdb ⊢
  subst hin hdb
  have hdel : ∀ (known : List LinkRecord), (∀ l ∈ known, l.address.toNat < 2 ^ 24) →
      PlmLinks.deleteAll (Plm.asWriter k.io) (⟨known.map rawOf ++ [rawOf doubt], next, [], tick⟩ : ModemSt) known =
        (⟨[rawOf doubt], next, [], tick⟩, .ok none) := by
    intro known
    induction known with
    | nil => intro _; rfl
    | cons c cs ih =>
      intro hc
      have hm := modem_manage k ⟨rawOf c :: (cs.map rawOf ++ [rawOf doubt]), next, [], tick⟩ 0x80#8 (rawOf c) rfl
        (cs.map rawOf ++ [rawOf doubt]) (by simp [ModemKind.manage, hk.2 (rawOf c), removeFirst])
      simp only [List.map_cons, List.cons_append, PlmLinks.deleteAll, PlmLinks.deleteLink, ManageRecord.marshalBinary, marshal_raw,
        Plm.asWriter, PCmd.manageAllLinkRecord]
      rw [hm]
      have := ih (fun l hl => hc l (by simp [hl]))
      simp only [Plm.asWriter] at this
      exact this
  unfold PlmLinks.writeLinks
  rw [hdel known hk24]
  dsimp only
  have hw := modem_writeAll k [doubt] new next tick (by simpa using hdist) (by simpa using h24)
  rw [writeAll_cached] at hw
  simp only [List.map_cons, List.map_nil] at hw
  rcases hx : PlmLinks.writeAll (Plm.asWriter k.io) (⟨[rawOf doubt], next, [], tick⟩ : ModemSt) [] new with ⟨s, ⟨c', e⟩ | _ | _⟩
  · rw [hx] at hw
    simp only [Prod.mk.injEq, Out.ok.injEq, List.cons_append, List.nil_append, List.cons.injEq, true_and] at hw
    obtain ⟨rfl, rfl, rfl⟩ := hw
    simp
  · rw [hx] at hw; simp at hw
  · rw [hx] at hw; simp at hw

/-- C168 is false of the code here too: an answer to a write is lost, then another list is written without an error, and
a link of the first list is still there. -/
theorem rewrite_other_refuted :
    ¬ ∀ (k : ModemKind) (m m1 m2 : ModemSt) (new new' c1 c2 : List LinkRecord) (fs : List LineFate) (e : Option Err), k.lawful →
      (∀ r ∈ m.db, r.length = 8) → m.inbox = [] → new.Pairwise (fun a b => ¬ SameLink a b) →
      (∀ l ∈ new, l.address.toNat < 2 ^ 24) → new'.Pairwise (fun a b => ¬ SameLink a b) →
      (∀ l ∈ new', l.address.toNat < 2 ^ 24) →
      PlmLinks.writeLinks (Plm.asWriter k.faultyIO) (m, fs) (m.db.map recordOf) new = ((m1, []), .ok (c1, e)) →
      PlmLinks.writeLinks (Plm.asWriter k.io) m1 c1 new' = (m2, .ok (c2, none)) →
      m2.db = new'.map rawOf := by
  intro h
  have := h plainModem ⟨[], 0, [], 0⟩ ⟨[[0xe2, 1, 1, 2, 3, 0, 0, 0]], 0, [], 0⟩ ⟨[[0xe2, 1, 1, 2, 3, 0, 0, 0]], 0, [], 0⟩
    [recordOf [0xe2, 1, 1, 2, 3, 0, 0, 0]] [] [] [] [.cut 0] (some (.wrapped .plmReadTimeout))
    plainModem_lawful (by simp) rfl (by simp) (by decide) (by simp) (by simp) (by decide +kernel) (by decide +kernel)
  simp at this

/-! ### Reading -/

/-- One get command that finds record `r`. -/
theorem fault_get_some (hk : k.lawful) (m : ModemSt) (cmd : Byte) (hc : cmd = 0x69#8 ∨ cmd = 0x6a#8) (r : Bytes)
    (hin : m.inbox = []) (i : Nat) (hi : i = if cmd = 0x69#8 then 0 else m.next) (hr : m.db[i]? = some r) (fs : List LineFate) :
    ∃ m' fs' a e, Plm.writePacket k.faultyIO (m, fs) ⟨cmd, [], 0#8⟩ = ((m', fs'), .ret a e) ∧ m'.db = m.db ∧ fs' <:+ fs ∧
      ((e = none ∧ ∃ ch : List Packet, (∀ p ∈ ch, p.command ≠ 0x57#8) ∧
          ((m'.next = i + 1 ∧ m'.inbox = ch ++ [⟨0x57#8, r, 0#8⟩]) ∨ m'.inbox = ch)) ∨
       (∃ x, e = some x ∧ x ≠ .plmNak ∧ x ≠ .plmReadTimeout ∧ m'.inbox = []) ∨
       (e = some .plmNak ∧ m' = m ∧ .refused ∈ fs)) := by
  obtain ⟨db, next, inbox, tick⟩ := m
  dsimp only at hin hr hi
  subst hin
  have hrec : k.receive (⟨db, next, [], tick⟩ : ModemSt) (Packet.marshalBinary ⟨cmd, [], 0#8⟩) =
      ⟨db, i + 1, ⟨cmd, [], 0x06#8⟩ :: (k.chatter tick ++ [⟨0x57#8, r, 0#8⟩]), tick + 1⟩ := by
    rcases hc with rfl | rfl
    · rw [if_pos rfl] at hi
      subst hi
      simp [ModemKind.receive, ModemKind.get, Packet.marshalBinary, hr]
    · have h6 : ¬ (0x6a#8 = 0x69#8) := by decide
      rw [if_neg h6] at hi
      subst hi
      simp [ModemKind.receive, ModemKind.get, Packet.marshalBinary, hr]
  have hack : Plm.checkAck ⟨cmd, [], 0#8⟩ ⟨cmd, [], 0x06#8⟩ = .ok none := by
    rcases hc with rfl | rfl <;> decide
  have hnak : Plm.checkAck ⟨cmd, [], 0#8⟩ (refusal (Packet.marshalBinary ⟨cmd, [], 0#8⟩)) = .ok (some .plmNak) := by
    rcases hc with rfl | rfl <;> decide
  rcases fs with _ | ⟨f, fs⟩
  · refine ⟨⟨db, i + 1, k.chatter tick ++ [⟨0x57#8, r, 0#8⟩], tick + 1⟩, [], some ⟨cmd, [], 0x06#8⟩, none, ?_, rfl, List.suffix_refl _, .inl ⟨rfl, k.chatter tick, hk.1 tick, .inl ⟨rfl, rfl⟩⟩⟩
    simp [Plm.writePacket, ModemKind.faultyIO, hrec, hack]
  · rcases f with _ | _ | _ | (_ | n) | why
    · refine ⟨⟨db, i + 1, k.chatter tick ++ [⟨0x57#8, r, 0#8⟩], tick + 1⟩, fs, some ⟨cmd, [], 0x06#8⟩, none, ?_, rfl, List.suffix_cons _ _, .inl ⟨rfl, k.chatter tick, hk.1 tick, .inl ⟨rfl, rfl⟩⟩⟩
      simp [Plm.writePacket, ModemKind.faultyIO, hrec, hack]
    · refine ⟨⟨db, next, [], tick⟩, fs, some (refusal (Packet.marshalBinary ⟨cmd, [], 0#8⟩)), some .plmNak, ?_, rfl,
        List.suffix_cons _ _, .inr (.inr ⟨rfl, rfl, by simp⟩)⟩
      simp [Plm.writePacket, ModemKind.faultyIO, hnak]
    · refine ⟨⟨db, next, [], tick⟩, fs, none, some (.wrapped .plmReadTimeout), ?_, rfl, List.suffix_cons _ _,
        .inr (.inl ⟨_, rfl, by decide, by decide, rfl⟩)⟩
      simp [Plm.writePacket, ModemKind.faultyIO]
    · refine ⟨⟨db, i + 1, [], tick + 1⟩, fs, none, some (.wrapped .plmReadTimeout), ?_, rfl, List.suffix_cons _ _,
        .inr (.inl ⟨_, rfl, by decide, by decide, rfl⟩)⟩
      simp [Plm.writePacket, ModemKind.faultyIO, hrec]
    · refine ⟨⟨db, i + 1, (k.chatter tick ++ [(⟨0x57#8, r, 0#8⟩ : Packet)]).take n, tick + 1⟩, fs, some ⟨cmd, [], 0x06#8⟩, none, ?_, rfl,
        List.suffix_cons _ _, .inl ⟨rfl, ?_⟩⟩
      · simp [Plm.writePacket, ModemKind.faultyIO, hrec, hack]
      · by_cases hn : n ≤ (k.chatter tick).length
        · refine ⟨(k.chatter tick).take n, fun p hp => hk.1 tick p (List.mem_of_mem_take hp), .inr ?_⟩
          dsimp only
          rw [List.take_append_of_le_length hn]
        · refine ⟨k.chatter tick, hk.1 tick, .inl ⟨rfl, ?_⟩⟩
          dsimp only
          rw [List.take_of_length_le (by simp; omega)]
    · refine ⟨⟨db, next, [], tick⟩, fs, none, some (.other why), ?_, rfl, List.suffix_cons _ _,
        .inr (.inl ⟨_, rfl, by simp, by simp, rfl⟩)⟩
      simp [Plm.writePacket, ModemKind.faultyIO]

/-- One get command that finds nothing. -/
theorem fault_get_none (m : ModemSt) (cmd : Byte) (hc : cmd = 0x69#8 ∨ cmd = 0x6a#8) (hin : m.inbox = [])
    (hr : m.db[if cmd = 0x69#8 then 0 else m.next]? = none) (fs : List LineFate) :
    ∃ fs' a x, Plm.writePacket k.faultyIO (m, fs) ⟨cmd, [], 0#8⟩ = ((m, fs'), .ret a (some x)) ∧ fs' <:+ fs ∧
      x ≠ .plmReadTimeout := by
  obtain ⟨db, next, inbox, tick⟩ := m
  dsimp only at hin hr
  subst hin
  have hrec : k.receive (⟨db, next, [], tick⟩ : ModemSt) (Packet.marshalBinary ⟨cmd, [], 0#8⟩) =
      ⟨db, next, [⟨cmd, [], 0x15#8⟩], tick⟩ := by
    rcases hc with rfl | rfl
    · rw [if_pos rfl] at hr
      simp [ModemKind.receive, ModemKind.get, Packet.marshalBinary, hr]
    · have h6 : ¬ (0x6a#8 = 0x69#8) := by decide
      rw [if_neg h6] at hr
      simp [ModemKind.receive, ModemKind.get, Packet.marshalBinary, hr]
  have hnak : Plm.checkAck ⟨cmd, [], 0#8⟩ ⟨cmd, [], 0x15#8⟩ = .ok (some .plmNak) := by
    rcases hc with rfl | rfl <;> decide
  have href : refusal (Packet.marshalBinary ⟨cmd, [], 0#8⟩) = ⟨cmd, [], 0x15#8⟩ := by
    rcases hc with rfl | rfl <;> decide
  rcases fs with _ | ⟨f, fs⟩
  · refine ⟨[], some ⟨cmd, [], 0x15#8⟩, .plmNak, ?_, List.suffix_refl _, by decide⟩
    simp [Plm.writePacket, ModemKind.faultyIO, hrec, hnak]
  · rcases f with _ | _ | _ | (_ | n) | why
    · refine ⟨fs, some ⟨cmd, [], 0x15#8⟩, .plmNak, ?_, List.suffix_cons _ _, by decide⟩
      simp [Plm.writePacket, ModemKind.faultyIO, hrec, hnak]
    · refine ⟨fs, some ⟨cmd, [], 0x15#8⟩, .plmNak, ?_, List.suffix_cons _ _, by decide⟩
      simp [Plm.writePacket, ModemKind.faultyIO, href, hnak]
    · refine ⟨fs, none, .wrapped .plmReadTimeout, ?_, List.suffix_cons _ _, by decide⟩
      simp [Plm.writePacket, ModemKind.faultyIO]
    · refine ⟨fs, none, .wrapped .plmReadTimeout, ?_, List.suffix_cons _ _, by decide⟩
      simp [Plm.writePacket, ModemKind.faultyIO, hrec]
    · refine ⟨fs, some ⟨cmd, [], 0x15#8⟩, .plmNak, ?_, List.suffix_cons _ _, by decide⟩
      simp [Plm.writePacket, ModemKind.faultyIO, hrec, hnak]
    · refine ⟨fs, none, .other why, ?_, List.suffix_cons _ _, by simp⟩
      simp [Plm.writePacket, ModemKind.faultyIO]

theorem fault_skip (retries : Int) (fuel : Nat) (db : List Bytes) (next tick : Nat) (ch rest : List Packet)
    (acc : List LinkRecord) (fs : List LineFate) (hch : ∀ p ∈ ch, p.command ≠ 0x57#8) :
    PlmLinks.refreshLoop (Plm.asWriter k.faultyIO) retries (ch.length + fuel) (⟨db, next, ch ++ rest, tick⟩, fs) acc =
      PlmLinks.refreshLoop (Plm.asWriter k.faultyIO) retries fuel (⟨db, next, rest, tick⟩, fs) acc := by
  induction ch with
  | nil => simp
  | cons p ch ih =>
    have hp : p.command ≠ PCmd.allLinkRecordResp := hch p (by simp)
    have hl : (p :: ch).length + fuel = (ch.length + fuel) + 1 := by simp; omega
    rw [hl, PlmLinks.refreshLoop]
    simp only [Plm.asWriter, Plm.readPacket, ModemKind.faultyIO, List.cons_append]
    rw [if_neg hp]
    exact ih (fun q hq => hch q (by simp [hq]))

/-- Only chatter on its way: the loop ends with a timeout. -/
theorem fault_chatter (retries : Int) (db : List Bytes) (next tick : Nat) (ch : List Packet)
    (acc : List LinkRecord) (fs : List LineFate) (hch : ∀ p ∈ ch, p.command ≠ 0x57#8) (fuel : Nat) (hf : ch.length + 1 ≤ fuel) :
    PlmLinks.refreshLoop (Plm.asWriter k.faultyIO) retries fuel (⟨db, next, ch, tick⟩, fs) acc =
      some ((⟨db, next, [], tick⟩, fs), .ok (acc, .wrapped .plmReadTimeout)) := by
  obtain ⟨f, rfl⟩ : ∃ f, fuel = ch.length + (f + 1) := ⟨fuel - ch.length - 1, by omega⟩
  have := fault_skip k retries (f + 1) db next tick ch [] acc fs hch
  rw [List.append_nil] at this
  rw [this, PlmLinks.refreshLoop]
  simp [Plm.asWriter, Plm.readPacket, ModemKind.faultyIO]

/-- Reading on, when record `r` is on its way. -/
theorem fault_read_loop (hk : k.lawful) (retries : Nat) (rs done : List Bytes) (r : Bytes) (tick : Nat)
    (ch : List Packet) (acc : List LinkRecord) (fs : List LineFate) (hch : ∀ p ∈ ch, p.command ≠ 0x57#8)
    (h8 : ∀ x ∈ r :: rs, x.length = 8) :
    ∃ (fuel₀ : Nat) (m' : ModemSt) (fs' : List LineFate) (e : Err) (ls : List LinkRecord),
      m'.db = done ++ r :: rs ∧ m'.inbox = [] ∧
      (e = .plmNak → ∃ i ≤ (r :: rs).length, ls = ((r :: rs).take i).map recordOf ∧ (.refused ∉ fs → i = (r :: rs).length)) ∧
      ∀ fuel ≥ fuel₀, PlmLinks.refreshLoop (Plm.asWriter k.faultyIO) retries fuel
        (⟨done ++ r :: rs, done.length + 1, ch ++ [⟨0x57#8, r, 0#8⟩], tick⟩, fs) acc = some ((m', fs'), .ok (acc ++ ls, e)) := by
  induction rs generalizing done r tick ch acc fs with
  | nil =>
    obtain ⟨fs', a, x, h1, h2, h3⟩ := fault_get_none k ⟨done ++ [r], done.length + 1, [], tick⟩ 0x6a#8 (Or.inr rfl) rfl (by
      simp) fs
    refine ⟨ch.length + 1, ⟨done ++ [r], done.length + 1, [], tick⟩, fs', x, [recordOf r], rfl, rfl,
      fun _ => ⟨1, by simp, by simp, by simp⟩, fun fuel hf => ?_⟩
    obtain ⟨f, rfl⟩ : ∃ f, fuel = ch.length + (f + 1) := ⟨fuel - ch.length - 1, by omega⟩
    rw [fault_skip k _ _ _ _ _ _ _ _ _ hch, PlmLinks.refreshLoop]
    have hw := retryWrite_once (Plm.writePacket k.faultyIO) retries false _ _ ⟨0x6a#8, [], 0#8⟩ _ _ h1 (by
      simp [retryable, h3])
    simp only [Plm.asWriter, Plm.readPacket, PCmd.getNextAllLink, PCmd.allLinkRecordResp] at hw ⊢
    simp only [ModemKind.faultyIO] at hw ⊢
    simp only [if_true, unmarshal_raw r (h8 r (by simp))]
    rw [hw]
  | cons r' rs ih =>
    obtain ⟨m1, fs1, a, e, h1, hdb, hfs, h3⟩ := fault_get_some k hk ⟨done ++ r :: r' :: rs, done.length + 1, [], tick⟩ 0x6a#8 (Or.inr rfl) r' rfl
      (done.length + 1) (by rw [if_neg (by decide)]) (by simp) fs
    have hstep : ∀ f, retryable false e = false →
        PlmLinks.refreshLoop (Plm.asWriter k.faultyIO) retries (ch.length + (f + 1))
          (⟨done ++ r :: r' :: rs, done.length + 1, ch ++ [⟨0x57#8, r, 0#8⟩], tick⟩, fs) acc =
        match e with
        | some e => some ((m1, fs1), .ok (acc ++ [recordOf r], e))
        | none => PlmLinks.refreshLoop (Plm.asWriter k.faultyIO) retries f (m1, fs1) (acc ++ [recordOf r]) := by
      intro f hr
      rw [fault_skip k _ _ _ _ _ _ _ _ _ hch, PlmLinks.refreshLoop]
      have hw := retryWrite_once (Plm.writePacket k.faultyIO) retries false _ _ ⟨0x6a#8, [], 0#8⟩ _ _ h1 hr
      simp only [Plm.asWriter, Plm.readPacket, PCmd.getNextAllLink, PCmd.allLinkRecordResp] at hw ⊢
      simp only [ModemKind.faultyIO] at hw ⊢
      simp only [if_true, unmarshal_raw r (h8 r (by simp))]
      rw [hw]
      rcases e with _ | e <;> rfl
    obtain ⟨db1, next1, inbox1, tick1⟩ := m1
    dsimp only at hdb h3
    subst hdb
    rcases h3 with ⟨rfl, ch', hch', ⟨hn, hi⟩ | hi⟩ | ⟨x, rfl, hx1, hx2, hx3⟩ | ⟨rfl, hm, href⟩
    · subst hn hi
      obtain ⟨fuel₀, m', fs', e, ls, g1, g2, g3, g4⟩ := ih (done ++ [r]) r' tick1 ch' (acc ++ [recordOf r]) fs1 hch'
        (fun x hx => h8 x (by simp at hx ⊢; tauto))
      refine ⟨ch.length + 1 + fuel₀, m', fs', e, recordOf r :: ls, by rw [g1]; simp, g2, fun he => ?_, fun fuel hf => ?_⟩
      · obtain ⟨i, i1, i2, i3⟩ := g3 he
        exact ⟨i + 1, by simpa using i1, by simp [i2], fun hr => by
          simpa using i3 (fun hr' => hr (hfs.subset hr'))⟩
      · obtain ⟨f, rfl⟩ : ∃ f, fuel = ch.length + (f + 1) := ⟨fuel - ch.length - 1, by omega⟩
        rw [hstep f rfl]
        have := g4 f (by omega)
        simp only [List.append_assoc, List.cons_append, List.nil_append, List.length_append, List.length_cons,
          List.length_nil, Nat.zero_add] at this
        dsimp only
        rw [this]
    · subst hi
      refine ⟨ch.length + 1 + (inbox1.length + 1), ⟨done ++ r :: r' :: rs, next1, [], tick1⟩, fs1, .wrapped .plmReadTimeout, [recordOf r], rfl, rfl,
        by simp, fun fuel hf => ?_⟩
      obtain ⟨f, rfl⟩ : ∃ f, fuel = ch.length + (f + 1) := ⟨fuel - ch.length - 1, by omega⟩
      rw [hstep f rfl]
      exact fault_chatter k _ _ _ _ _ _ _ hch' f (by omega)
    · subst hx3
      refine ⟨ch.length + 1, ⟨done ++ r :: r' :: rs, next1, [], tick1⟩, fs1, x, [recordOf r], rfl, rfl, fun h => absurd h hx1, fun fuel hf => ?_⟩
      obtain ⟨f, rfl⟩ : ∃ f, fuel = ch.length + (f + 1) := ⟨fuel - ch.length - 1, by omega⟩
      rw [hstep f (by simp [retryable, hx2])]
    · have hin : inbox1 = [] := by injection hm
      subst hin
      refine ⟨ch.length + 1, ⟨done ++ r :: r' :: rs, next1, [], tick1⟩, fs1, .plmNak, [recordOf r], rfl, rfl, fun _ => ⟨1, by simp, by simp, fun h => absurd href h⟩, fun fuel hf => ?_⟩
      obtain ⟨f, rfl⟩ : ∃ f, fuel = ch.length + (f + 1) := ⟨fuel - ch.length - 1, by omega⟩
      rw [hstep f (by decide)]

/-- The first get command, with its retries, on a database that is not empty. -/
theorem fault_get_first (hk : k.lawful) (m : ModemSt) (r : Bytes) (hin : m.inbox = []) (hr : m.db[0]? = some r) (n : Nat)
    (fs : List LineFate) (cur : PRes) :
    ∃ m' fs' a e, retryLoop (Plm.writePacket k.faultyIO) true ⟨0x69#8, [], 0#8⟩ (n + 1) (m, fs) cur = ((m', fs'), .ret a e) ∧
      m'.db = m.db ∧ fs' <:+ fs ∧
      ((e = none ∧ ∃ ch : List Packet, (∀ p ∈ ch, p.command ≠ 0x57#8) ∧
          ((m'.next = 1 ∧ m'.inbox = ch ++ [⟨0x57#8, r, 0#8⟩]) ∨ m'.inbox = ch)) ∨
       (∃ x, e = some x ∧ x ≠ .plmNak ∧ m'.inbox = []) ∨
       (e = some .plmNak ∧ m'.inbox = [] ∧ .refused ∈ fs)) := by
  induction n generalizing fs cur with
  | zero =>
    obtain ⟨m1, fs1, a, e, h1, hdb, hfs, h3⟩ := fault_get_some k hk m 0x69#8 (Or.inl rfl) r hin 0 (by simp) hr fs
    rw [retryLoop, h1]
    dsimp only
    rw [retryLoop, ite_self]
    refine ⟨m1, fs1, a, e, rfl, hdb, hfs, ?_⟩
    rcases h3 with ⟨rfl, h⟩ | ⟨x, rfl, hx1, hx2, hx3⟩ | ⟨rfl, rfl, href⟩
    · exact .inl ⟨rfl, h⟩
    · exact .inr (.inl ⟨x, rfl, hx1, hx3⟩)
    · exact .inr (.inr ⟨rfl, hin, href⟩)
  | succ n ih =>
    obtain ⟨m1, fs1, a, e, h1, hdb, hfs, h3⟩ := fault_get_some k hk m 0x69#8 (Or.inl rfl) r hin 0 (by simp) hr fs
    rw [retryLoop, h1]
    dsimp only
    rcases h3 with ⟨rfl, h⟩ | ⟨x, rfl, hx1, hx2, hx3⟩ | ⟨rfl, rfl, href⟩
    · exact ⟨m1, fs1, a, none, rfl, hdb, hfs, .inl ⟨rfl, h⟩⟩
    · rw [if_neg (by simp [retryable, hx1, hx2])]
      exact ⟨m1, fs1, a, some x, rfl, hdb, hfs, .inr (.inl ⟨x, rfl, hx1, hx3⟩)⟩
    · rw [if_pos (by decide)]
      obtain ⟨m2, fs2, a2, e2, g1, g2, g3, g4⟩ := ih fs1 (.ret a (some .plmNak))
      refine ⟨m2, fs2, a2, e2, g1, g2, g3.trans hfs, ?_⟩
      rcases g4 with g | g | ⟨g, g', -⟩
      · exact .inl g
      · exact .inr (.inl g)
      · exact .inr (.inr ⟨g, g', href⟩)

/-- On an empty database the first get command fails. -/
theorem fault_get_first_none (m : ModemSt) (hin : m.inbox = []) (hr : m.db[0]? = none) (n : Nat) (fs : List LineFate) (cur : PRes) :
    ∃ fs' a x, retryLoop (Plm.writePacket k.faultyIO) true ⟨0x69#8, [], 0#8⟩ (n + 1) (m, fs) cur = ((m, fs'), .ret a (some x)) := by
  induction n generalizing fs cur with
  | zero =>
    obtain ⟨fs1, a, x, h1, -⟩ := fault_get_none k m 0x69#8 (Or.inl rfl) hin (by simpa using hr) fs
    rw [retryLoop, h1]
    dsimp only
    rw [retryLoop, ite_self]
    exact ⟨fs1, a, x, rfl⟩
  | succ n ih =>
    obtain ⟨fs1, a, x, h1, -⟩ := fault_get_none k m 0x69#8 (Or.inl rfl) hin (by simpa using hr) fs
    rw [retryLoop, h1]
    dsimp only
    by_cases hx : retryable true (some x) = true
    · rw [if_pos hx]
      exact ih fs1 _
    · rw [if_neg hx]
      exact ⟨fs1, a, x, rfl⟩

/-- C169: on an unreliable line `Links` ends with an error and the links known before, or without an error with the first
few of the modem's records, in order; if the modem refuses nothing these are all of them. The modem's
database is not changed and nothing is left unread. -/
theorem read_on_faulty_line_partial (hk : k.lawful) (retries : Nat) (m : ModemSt) (cached : List LinkRecord) (fs : List LineFate)
    (h8 : ∀ r ∈ m.db, r.length = 8) (hin : m.inbox = []) :
    ∃ (fuel₀ : Nat) (m' : ModemSt) (fs' : List LineFate) (ls : List LinkRecord) (e : Option Err),
      (∀ fuel ≥ fuel₀, PlmLinks.links (Plm.asWriter k.faultyIO) retries fuel (m, fs) cached = some ((m', fs'), .ok (ls, e))) ∧
      m'.db = m.db ∧ m'.inbox = [] ∧
      ((e ≠ none ∧ ls = cached) ∨
       (e = none ∧ ∃ i ≤ m.db.length, ls = (m.db.take i).map recordOf ∧ (.refused ∉ fs → i = m.db.length))) := by
  have hn : ((retries : Int) + 1).toNat = retries + 1 := by omega
  rcases hd : m.db with _ | ⟨r, rs⟩
  · obtain ⟨fs', a, x, h1⟩ := fault_get_first_none k m hin (by simp [hd]) retries fs (.ret none none)
    refine ⟨0, m, fs', if x = .plmNak then [] else cached, if x = .plmNak then none else some x, fun fuel _ => ?_, hd, hin, ?_⟩
    · simp only [PlmLinks.links, PlmLinks.refresh, Plm.asWriter, PCmd.getFirstAllLink, retryWrite, hn, h1]
      split_ifs <;> rfl
    · by_cases hx : x = .plmNak
      · exact .inr ⟨by simp [hx], 0, by simp, by simp [hx], by simp⟩
      · exact .inl ⟨by simp [hx], by simp [hx]⟩
  · obtain ⟨m1, fs1, a, e, h1, hdb, hfs, h3⟩ := fault_get_first k hk m r hin (by simp [hd]) retries fs (.ret none none)
    obtain ⟨db1, next1, inbox1, tick1⟩ := m1
    dsimp only at hdb h3
    rw [hd] at hdb
    subst hdb
    have hbad : ∀ fuel x, e = some x → PlmLinks.links (Plm.asWriter k.faultyIO) retries fuel (m, fs) cached =
        some ((⟨r :: rs, next1, inbox1, tick1⟩, fs1), .ok (if x = .plmNak then ([], none) else (cached, some x))) := by
      rintro fuel x rfl
      simp only [PlmLinks.links, PlmLinks.refresh, Plm.asWriter, PCmd.getFirstAllLink, retryWrite, hn, h1]
    have hgood : ∀ fuel s2 ls x, e = none →
        PlmLinks.refreshLoop (Plm.asWriter k.faultyIO) retries fuel (⟨r :: rs, next1, inbox1, tick1⟩, fs1) [] = some (s2, .ok (ls, x)) →
        PlmLinks.links (Plm.asWriter k.faultyIO) retries fuel (m, fs) cached =
          some (s2, .ok (if x = .plmNak then (ls, none) else (cached, some x))) := by
      rintro fuel s2 ls x rfl hl
      simp only [Plm.asWriter] at hl
      simp only [PlmLinks.links, PlmLinks.refresh, Plm.asWriter, PCmd.getFirstAllLink, retryWrite, hn, h1, hl]
    rcases h3 with ⟨rfl, ch', hch', ⟨hn, hi⟩ | hi⟩ | ⟨x, rfl, hx1, hx3⟩ | ⟨rfl, hi, href⟩
    · subst hn hi
      obtain ⟨fuel₀, m', fs', e, ls, g1, g2, g3, g4⟩ := fault_read_loop k hk retries rs [] r tick1 ch' [] fs1 hch'
        (fun x hx => h8 x (by rw [hd]; exact hx))
      refine ⟨fuel₀, m', fs', if e = .plmNak then ls else cached, if e = .plmNak then none else some e, fun fuel hf => ?_, g1, g2, ?_⟩
      · have := g4 fuel hf
        simp only [List.nil_append, List.length_nil, Nat.zero_add] at this
        rw [hgood fuel _ _ _ rfl this]
        split_ifs <;> rfl
      · by_cases hx : e = .plmNak
        · obtain ⟨i, i1, i2, i3⟩ := g3 hx
          exact .inr ⟨by simp [hx], i, i1, by simp [hx, i2], fun hr => i3 (fun hr' => hr (hfs.subset hr'))⟩
        · exact .inl ⟨by simp [hx], by simp [hx]⟩
    · subst hi
      refine ⟨inbox1.length + 1, ⟨r :: rs, next1, [], tick1⟩, fs1, cached, some (.wrapped .plmReadTimeout), fun fuel hf => ?_, rfl, rfl,
        .inl ⟨by simp, rfl⟩⟩
      rw [hgood fuel _ _ _ rfl (fault_chatter k _ _ _ _ _ _ _ hch' fuel hf)]
      simp
    · subst hx3
      refine ⟨0, ⟨r :: rs, next1, [], tick1⟩, fs1, cached, some x, fun fuel hf => ?_, rfl, rfl, .inl ⟨by simp, rfl⟩⟩
      rw [hbad fuel x rfl, if_neg hx1]
    · subst hi
      refine ⟨0, ⟨r :: rs, next1, [], tick1⟩, fs1, [], none, fun fuel hf => ?_, rfl, rfl,
        .inr ⟨rfl, 0, by simp, by simp, fun hr => absurd href hr⟩⟩
      rw [hbad fuel _ rfl]
      simp

/-- C169 is false of the code: one refused get-next command, and `Links` returns only part of the records without an
error. -/
theorem read_on_faulty_line_refuted :
    ¬ ∀ (k : ModemKind) (m m' : ModemSt) (fs fs' : List LineFate) (fuel : Nat) (cached ls : List LinkRecord), k.lawful →
      (∀ r ∈ m.db, r.length = 8) → m.inbox = [] →
      PlmLinks.links (Plm.asWriter k.faultyIO) 3 fuel (m, fs) cached = some ((m', fs'), .ok (ls, none)) →
      ls = m.db.map recordOf := by
  intro h
  have := h plainModem ⟨[[0xe2, 1, 1, 2, 3, 0, 0, 0], [0xa2, 1, 1, 2, 3, 0, 0, 0]], 0, [], 0⟩
    ⟨[[0xe2, 1, 1, 2, 3, 0, 0, 0], [0xa2, 1, 1, 2, 3, 0, 0, 0]], 1, [], 1⟩ [.done, .refused] [] 5 []
    [recordOf [0xe2, 1, 1, 2, 3, 0, 0, 0]] plainModem_lawful (by decide) rfl (by decide +kernel)
  simp at this

/-! ### Examples -/

/-- Three records, the first deletion refused once, the answer to the second one lost: two records are gone. -/
example : (PlmLinks.writeLinks (Plm.asWriter plainModem.faultyIO)
    (⟨[[0xe2, 1, 1, 2, 3, 0, 0, 0], [0xa2, 1, 1, 2, 4, 0, 0, 0], [0xa2, 1, 1, 2, 5, 0, 0, 0]], 0, [], 0⟩, [.refused, .done, .cut 0])
    ([[0xe2, 1, 1, 2, 3, 0, 0, 0], [0xa2, 1, 1, 2, 4, 0, 0, 0], [0xa2, 1, 1, 2, 5, 0, 0, 0]].map recordOf)
    [⟨0xe2, 2, 0x010203, 0, 0, 0⟩]).1.1.db = [[0xa2, 1, 1, 2, 5, 0, 0, 0]] := by decide +kernel

/-- Refused three times, then done, again and again: bearable. -/
example : Bearable [.refused, .refused, .refused, .done, .refused, .refused, .refused, .done] := by
  constructor
  · decide
  · decide

example : (PlmLinks.writeLinks (Plm.asWriter plainModem.faultyIO)
    (⟨[[0xe2, 1, 1, 2, 3, 0, 0, 0]], 0, [], 0⟩, [.refused, .refused, .refused, .done, .refused, .refused, .refused, .done])
    ([[0xe2, 1, 1, 2, 3, 0, 0, 0]].map recordOf) [⟨0xe2, 2, 0x010203, 0, 0, 0⟩]).1.1.db = [[0xe2, 2, 1, 2, 3, 0, 0, 0]] := by
  decide +kernel

/-- The record is lost on the way after its acknowledgement: an error, and the links known before. -/
example : (PlmLinks.links (Plm.asWriter chattyModem.faultyIO) 3 20
    (⟨[[0xe2, 1, 1, 2, 3, 0, 0, 0], [0xa2, 1, 1, 2, 3, 0, 0, 0]], 0, [], 0⟩, [.refused, .done, .cut 1]) []).map (·.2) =
      some (.ok ([], some (.wrapped .plmReadTimeout))) := by decide +kernel

/-- Two refusals of the first command do no harm. -/
example : (PlmLinks.links (Plm.asWriter chattyModem.faultyIO) 3 20
    (⟨[[0xe2, 1, 1, 2, 3, 0, 0, 0], [0xa2, 1, 1, 2, 3, 0, 0, 0]], 0, [], 0⟩, [.refused, .refused]) []).map (·.2) =
      some (.ok ([[0xe2, 1, 1, 2, 3, 0, 0, 0], [0xa2, 1, 1, 2, 3, 0, 0, 0]].map recordOf, none)) := by decide +kernel

end Insteon
