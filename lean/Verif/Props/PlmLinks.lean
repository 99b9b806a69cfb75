import Verif.Model.PlmLinks
import Verif.Spec.ModemDb
import Verif.Props.Plm
import Verif.Props.Link

/-
Properties C35 - C38: the modem's link database.
-/

namespace Insteon
open Spec

/-! ### Raw records -/

theorem unmarshal_raw (r : Bytes) (h : r.length = 8) :
    LinkRecord.unmarshalBinary LinkRecord.zero r = (recordOf r, none) := by
  match r, h with
  | [b0, b1, b2, b3, b4, b5, b6, b7], _ =>
    have : Address.put [b2, b3, b4] = BitVec.ofNat 32 (b2.toNat * 65536 + b3.toNat * 256 + b4.toNat) := by
      apply BitVec.eq_of_toNat_eq
      rw [(address_put_bytes b2 b3 b4 []).2]
      have h2 := b2.isLt
      have h3 := b3.isLt
      have h4 := b4.isLt
      rw [BitVec.toNat_ofNat, Nat.mod_eq_of_lt (by omega)]
    simp only [LinkRecord.unmarshalBinary, this]
    rfl

theorem marshal_raw (l : LinkRecord) : l.marshalBinary = rawOf l := by
  have h := address_bytes_big_endian l.address
  simp only [Address.bytes, List.map_cons, List.map_nil, List.cons.injEq, and_true] at h
  simp only [LinkRecord.marshalBinary, rawOf, Address.bytes, List.cons_append, List.nil_append, List.cons.injEq,
    and_true, true_and]
  refine ⟨?_, ?_, ?_⟩ <;> apply BitVec.eq_of_toNat_eq <;> rw [BitVec.toNat_ofNat]
  · exact h.1
  · exact h.2.1
  · exact h.2.2

theorem raw_record (r : Bytes) (h : r.length = 8) : rawOf (recordOf r) = r := by
  have := (wire_link_roundtrip LinkRecord.zero r).2 (by omega)
  rw [unmarshal_raw r h] at this
  rw [← marshal_raw, this.2, List.take_of_length_le (by omega)]

theorem record_raw (l : LinkRecord) (h : l.address.toNat < 2 ^ 24) : recordOf (rawOf l) = l := by
  have := (link_wire_roundtrip l LinkRecord.zero).2
  rw [marshal_raw, unmarshal_raw _ (by simp [rawOf])] at this
  simp only [Prod.mk.injEq, and_true] at this
  rw [this, Nat.mod_eq_of_lt h]
  simp

theorem rawOf_length (l : LinkRecord) : (rawOf l).length = 8 := rfl

/-! ### Retries -/

theorem retryWrite_once {σ : Type} (w : σ → Packet → σ × PRes) (n : Nat) (ig : Bool) (s s' : σ) (pkt : Packet)
    (a : Option Packet) (e : Option Err) (h : w s pkt = (s', .ret a e)) (hr : retryable ig e = false) :
    retryWrite w n ig s pkt = (s', .ret a e) := by
  have : ((n : Int) + 1).toNat = n + 1 := by omega
  rw [retryWrite, this, retryLoop, h]
  simp [hr]

theorem retryWrite_same {σ : Type} (w : σ → Packet → σ × PRes) (n : Nat) (ig : Bool) (s : σ) (pkt : Packet)
    (a : Option Packet) (e : Option Err) (h : w s pkt = (s, .ret a e)) :
    retryWrite w n ig s pkt = (s, .ret a e) := by
  have hn : ((n : Int) + 1).toNat = n + 1 := by omega
  rw [retryWrite, hn]
  generalize PRes.ret none none = cur
  induction n generalizing cur with
  | zero => rw [retryLoop, h]; simp [retryLoop]
  | succ n ih =>
    rw [retryLoop, h]
    dsimp only
    split_ifs
    · exact ih (by omega) _
    · rfl

/-! ### C35 -/

section
variable (k : ModemKind)

theorem modem_get_ack (m : ModemSt) (cmd : Byte) (hc : cmd = 0x69#8 ∨ cmd = 0x6a#8) (r : Bytes)
    (hin : m.inbox = []) (hr : m.db[if cmd = 0x69#8 then 0 else m.next]? = some r) :
    Plm.writePacket k.io m ⟨cmd, [], 0#8⟩ =
      (⟨m.db, (if cmd = 0x69#8 then 0 else m.next) + 1, k.chatter m.tick ++ [⟨0x57#8, r, 0#8⟩], m.tick + 1⟩,
        .ret (some ⟨cmd, [], 0x06#8⟩) none) := by
  obtain ⟨db, next, inbox, tick⟩ := m
  dsimp only at hin hr
  subst hin
  rcases hc with rfl | rfl
  · simp only [if_true] at hr
    simp [Plm.writePacket, ModemKind.io, ModemKind.receive, ModemKind.get, Packet.marshalBinary, hr,
      Plm.checkAck, Packet.isACK, Packet.isNAK, PCmd.getInfo, PCmd.getConfig, PCmd.sendInsteonMsg]
  · have h6 : ¬ (0x6a#8 = 0x69#8) := by decide
    rw [if_neg h6] at hr
    simp [Plm.writePacket, ModemKind.io, ModemKind.receive, ModemKind.get, Packet.marshalBinary, hr,
      Plm.checkAck, Packet.isACK, Packet.isNAK, PCmd.getInfo, PCmd.getConfig, PCmd.sendInsteonMsg]

theorem modem_get_nak (m : ModemSt) (cmd : Byte) (hc : cmd = 0x69#8 ∨ cmd = 0x6a#8)
    (hin : m.inbox = []) (hr : m.db[if cmd = 0x69#8 then 0 else m.next]? = none) :
    Plm.writePacket k.io m ⟨cmd, [], 0#8⟩ = (m, .ret (some ⟨cmd, [], 0x15#8⟩) (some .plmNak)) := by
  obtain ⟨db, next, inbox, tick⟩ := m
  dsimp only at hin hr
  subst hin
  rcases hc with rfl | rfl
  · simp only [if_true] at hr
    simp [Plm.writePacket, ModemKind.io, ModemKind.receive, ModemKind.get, Packet.marshalBinary, hr,
      Plm.checkAck, Packet.isACK, Packet.isNAK, PCmd.getInfo, PCmd.getConfig, PCmd.sendInsteonMsg]
  · have h6 : ¬ (0x6a#8 = 0x69#8) := by decide
    rw [if_neg h6] at hr
    simp [Plm.writePacket, ModemKind.io, ModemKind.receive, ModemKind.get, Packet.marshalBinary, hr,
      Plm.checkAck, Packet.isACK, Packet.isNAK, PCmd.getInfo, PCmd.getConfig, PCmd.sendInsteonMsg]

theorem modem_skip (retries : Int) (fuel : Nat) (db : List Bytes) (next tick : Nat) (ch rest : List Packet)
    (acc : List LinkRecord) (hch : ∀ p ∈ ch, p.command ≠ 0x57#8) :
    PlmLinks.refreshLoop (Plm.asWriter k.io) retries (ch.length + fuel) ⟨db, next, ch ++ rest, tick⟩ acc =
      PlmLinks.refreshLoop (Plm.asWriter k.io) retries fuel ⟨db, next, rest, tick⟩ acc := by
  induction ch with
  | nil => simp
  | cons p ch ih =>
    have hp : p.command ≠ PCmd.allLinkRecordResp := hch p (by simp)
    have hl : (p :: ch).length + fuel = (ch.length + fuel) + 1 := by simp; omega
    rw [hl, PlmLinks.refreshLoop]
    simp only [Plm.asWriter, Plm.readPacket, ModemKind.io, List.cons_append]
    rw [if_neg hp]
    exact ih (fun q hq => hch q (by simp [hq]))

theorem modem_loop (hk : k.lawful) (retries : Nat) (rs done : List Bytes) (r : Bytes) (tick : Nat)
    (ch : List Packet) (acc : List LinkRecord) (hch : ∀ p ∈ ch, p.command ≠ 0x57#8)
    (h8 : ∀ x ∈ r :: rs, x.length = 8) :
    ∃ (fuel₀ : Nat) (m' : ModemSt), m'.db = done ++ r :: rs ∧ m'.inbox = [] ∧ ∀ fuel ≥ fuel₀,
      PlmLinks.refreshLoop (Plm.asWriter k.io) retries fuel
        ⟨done ++ r :: rs, done.length + 1, ch ++ [⟨0x57#8, r, 0#8⟩], tick⟩ acc =
        some (m', .ok (acc ++ (r :: rs).map recordOf, .plmNak)) := by
  induction rs generalizing done r tick ch acc with
  | nil =>
    refine ⟨ch.length + 1, ⟨done ++ [r], done.length + 1, [], tick⟩, rfl, rfl, fun fuel hf => ?_⟩
    obtain ⟨f, rfl⟩ : ∃ f, fuel = ch.length + (f + 1) := ⟨fuel - ch.length - 1, by omega⟩
    rw [modem_skip k _ _ _ _ _ _ _ _ hch, PlmLinks.refreshLoop]
    have hn := modem_get_nak k ⟨done ++ [r], done.length + 1, [], tick⟩ 0x6a#8 (Or.inr rfl) rfl (by
      simp)
    have hw := retryWrite_once (Plm.writePacket k.io) retries false _ _ ⟨0x6a#8, [], 0#8⟩ _ _ hn (by decide)
    simp only [Plm.asWriter, Plm.readPacket, PCmd.getNextAllLink, PCmd.allLinkRecordResp] at hw ⊢
    simp only [ModemKind.io] at hw ⊢
    simp only [if_true, unmarshal_raw r (h8 r (by simp))]
    rw [hw]
    simp
  | cons r' rs ih =>
    obtain ⟨fuel₀, m', h1, h2, h3⟩ := ih (done ++ [r]) r' (tick + 1) (k.chatter tick) (acc ++ [recordOf r])
      (hk.1 tick) (fun x hx => h8 x (by simp at hx ⊢; tauto))
    refine ⟨ch.length + 1 + fuel₀, m', by rw [h1]; simp, h2, fun fuel hf => ?_⟩
    obtain ⟨f, rfl⟩ : ∃ f, fuel = ch.length + (f + 1) := ⟨fuel - ch.length - 1, by omega⟩
    rw [modem_skip k _ _ _ _ _ _ _ _ hch, PlmLinks.refreshLoop]
    have hn := modem_get_ack k ⟨done ++ r :: r' :: rs, done.length + 1, [], tick⟩ 0x6a#8 (Or.inr rfl) r' rfl (by
      have h6 : ¬ (0x6a#8 = 0x69#8) := by decide
      rw [if_neg h6]
      simp)
    have hw := retryWrite_once (Plm.writePacket k.io) retries false _ _ ⟨0x6a#8, [], 0#8⟩ _ _ hn (by decide)
    have h3 := h3 f (by omega)
    have h6 : ¬ (0x6a#8 = 0x69#8) := by decide
    rw [if_neg h6] at hw
    simp only [List.append_assoc, List.cons_append, List.nil_append, List.length_append, List.length_cons,
      List.length_nil] at h3
    simp only [Plm.asWriter, Plm.readPacket, PCmd.getNextAllLink, PCmd.allLinkRecordResp] at hw h3 ⊢
    simp only [ModemKind.io] at hw h3 ⊢
    simp only [if_true, unmarshal_raw r (h8 r (by simp))]
    rw [hw]
    dsimp only
    rw [h3]
    simp

/-- C35: against a modem that keeps to the protocol, whatever unrelated packets it sends between
acknowledgement and record, `Links` returns exactly the modem's records, in order, without error,
for a database of any size; the modem's database is not changed. -/
theorem modem_links_complete (hk : k.lawful) (retries : Nat) (m : ModemSt) (cached : List LinkRecord)
    (h8 : ∀ r ∈ m.db, r.length = 8) (hin : m.inbox = []) :
    ∃ (fuel₀ : Nat) (m' : ModemSt), m'.db = m.db ∧ m'.inbox = [] ∧ ∀ fuel ≥ fuel₀,
      PlmLinks.links (Plm.asWriter k.io) retries fuel m cached =
        some (m', .ok (m.db.map recordOf, none)) := by
  obtain ⟨db, next, inbox, tick⟩ := m
  dsimp only at hin h8 ⊢
  subst hin
  cases db with
  | nil =>
    refine ⟨0, ⟨[], next, [], tick⟩, rfl, rfl, fun fuel _ => ?_⟩
    have hn := modem_get_nak k ⟨[], next, [], tick⟩ 0x69#8 (Or.inl rfl) rfl (by simp)
    have hw := retryWrite_same (Plm.writePacket k.io) retries true _ ⟨0x69#8, [], 0#8⟩ _ _ hn
    simp only [PlmLinks.links, PlmLinks.refresh, Plm.asWriter, PCmd.getFirstAllLink, hw]
    simp
  | cons r rs =>
    obtain ⟨fuel₀, m', h1, h2, h3⟩ := modem_loop k hk retries rs [] r (tick + 1) (k.chatter tick) []
      (hk.1 tick) h8
    refine ⟨fuel₀, m', h1, h2, fun fuel hf => ?_⟩
    have hn := modem_get_ack k ⟨r :: rs, next, [], tick⟩ 0x69#8 (Or.inl rfl) r rfl (by simp)
    have hw := retryWrite_once (Plm.writePacket k.io) retries true _ _ ⟨0x69#8, [], 0#8⟩ _ _ hn (by decide)
    have h3 := h3 fuel hf
    simp only [List.nil_append, List.length_nil, Nat.zero_add] at h3
    rw [if_pos rfl, Nat.zero_add] at hw
    simp only [PlmLinks.links, PlmLinks.refresh, Plm.asWriter, PCmd.getFirstAllLink]
    simp only [Plm.asWriter] at h3
    rw [hw]
    dsimp only
    rw [h3]
    simp

end

/-- The loop ends without panic only by an error, and the error is a NAK only if the modem NAKed a
get-next (or reading itself reported one). -/
theorem refreshLoop_end {σ : Type} (w : PacketWriter σ) (retries : Int) (fuel : Nat) (s s' : σ)
    (acc ls : List LinkRecord) (e : Err)
    (h : PlmLinks.refreshLoop w retries fuel s acc = some (s', .ok (ls, e))) :
    (∃ s0 a, w.read s0 = (s', .ret a (some e))) ∨
    (∃ s0 a, retryWrite w.write retries false s0 ⟨0x6a#8, [], 0#8⟩ = (s', .ret a (some e))) ∨
    e = .wrapped .bufferTooShort := by
  induction fuel generalizing s acc with
  | zero => simp [PlmLinks.refreshLoop] at h
  | succ fuel ih =>
    rw [PlmLinks.refreshLoop] at h
    rcases hr : w.read s with ⟨s1, ⟨_ | pkt, _ | e1⟩ | _⟩
    · rw [hr] at h; simp at h
    · rw [hr] at h
      simp only [Option.some.injEq, Prod.mk.injEq, Out.ok.injEq] at h
      obtain ⟨rfl, -, rfl⟩ := h
      exact Or.inl ⟨s, _, hr⟩
    · rw [hr] at h
      dsimp only at h
      split_ifs at h with hc
      · rcases hu : LinkRecord.unmarshalBinary LinkRecord.zero pkt.payload with ⟨l, _ | e1⟩
        · rw [hu] at h
          dsimp only at h
          rcases hw : retryWrite w.write retries false s1 ⟨PCmd.getNextAllLink, [], 0#8⟩ with ⟨s2, ⟨a, _ | e2⟩ | _⟩
          · rw [hw] at h; exact ih _ _ h
          · rw [hw] at h
            simp only [Option.some.injEq, Prod.mk.injEq, Out.ok.injEq] at h
            obtain ⟨rfl, -, rfl⟩ := h
            exact Or.inr (Or.inl ⟨s1, a, hw⟩)
          · rw [hw] at h; simp at h
        · rw [hu] at h
          simp only [Option.some.injEq, Prod.mk.injEq, Out.ok.injEq] at h
          obtain ⟨rfl, -, rfl⟩ := h
          right; right
          have := congrArg Prod.snd hu
          unfold LinkRecord.unmarshalBinary at this
          split at this <;> simp at this
          exact this.symm
      · exact ih _ _ h
    · rw [hr] at h
      simp only [Option.some.injEq, Prod.mk.injEq, Out.ok.injEq] at h
      obtain ⟨rfl, -, rfl⟩ := h
      exact Or.inl ⟨s, _, hr⟩
    · rw [hr] at h; simp at h

/-- C35, the other half: with any modem, `Links` reports success only if the modem ended the
enumeration by NAKing a get-first or get-next; on any error the previously known links are
returned with it. -/
theorem modem_links_errors {σ : Type} (io : PlmIO σ) (retries : Int) (fuel : Nat) (s s' : σ)
    (cached ls : List LinkRecord) (e : Option Err)
    (h : PlmLinks.links (Plm.asWriter io) retries fuel s cached = some (s', .ok (ls, e))) :
    (e = none → ∃ s0 a cmd ig, (cmd = 0x69#8 ∨ cmd = 0x6a#8) ∧
        retryWrite (Plm.writePacket io) retries ig s0 ⟨cmd, [], 0#8⟩ = (s', .ret a (some .plmNak))) ∧
    (∀ x, e = some x → ls = cached ∧ x ≠ .plmNak) := by
  unfold PlmLinks.links PlmLinks.refresh at h
  rcases hw : retryWrite (Plm.writePacket io) retries true s ⟨0x69#8, [], 0#8⟩ with ⟨s1, ⟨a, _ | e1⟩ | _⟩
  · have hw' : retryWrite (Plm.asWriter io).write retries true s ⟨PCmd.getFirstAllLink, [], 0#8⟩ = _ := hw
    rw [hw'] at h
    dsimp only at h
    split at h
    · simp at h
    · rename_i s2 links e2 hl
      simp only [Option.some.injEq, Prod.mk.injEq, Out.ok.injEq] at h
      obtain ⟨rfl, h⟩ := h
      split_ifs at h with hn
      · simp only [Prod.mk.injEq] at h
        obtain ⟨rfl, rfl⟩ := h
        refine ⟨fun _ => ?_, by simp⟩
        subst hn
        rcases refreshLoop_end _ _ _ _ _ _ _ _ hl with ⟨s0, a, h0⟩ | ⟨s0, a, h0⟩ | h0
        · exfalso
          simp only [Plm.asWriter, Plm.readPacket] at h0
          split at h0 <;> simp at h0
        · exact ⟨s0, a, 0x6a#8, false, Or.inr rfl, h0⟩
        · simp at h0
      · simp only [Prod.mk.injEq] at h
        obtain ⟨rfl, rfl⟩ := h
        refine ⟨by simp, ?_⟩
        rintro x hx
        simp only [Option.some.injEq] at hx
        subst hx
        exact ⟨rfl, hn⟩
    · simp at h
  · have hw' : retryWrite (Plm.asWriter io).write retries true s ⟨PCmd.getFirstAllLink, [], 0#8⟩ = _ := hw
    rw [hw'] at h
    simp only [Option.some.injEq, Prod.mk.injEq, Out.ok.injEq] at h
    obtain ⟨rfl, h⟩ := h
    split_ifs at h with hn
    · simp only [Prod.mk.injEq] at h
      obtain ⟨rfl, rfl⟩ := h
      subst hn
      exact ⟨fun _ => ⟨s, a, 0x69#8, true, Or.inl rfl, hw⟩, by simp⟩
    · simp only [Prod.mk.injEq] at h
      obtain ⟨rfl, rfl⟩ := h
      refine ⟨by simp, ?_⟩
      rintro x hx
      simp only [Option.some.injEq] at hx
      subst hx
      exact ⟨rfl, hn⟩
  · have hw' : retryWrite (Plm.asWriter io).write retries true s ⟨PCmd.getFirstAllLink, [], 0#8⟩ = _ := hw
    rw [hw'] at h
    simp at h

/-- A lawful modem with chatter, and its two records read back. -/
def chattyModem : ModemKind where
  chatter := fun n => if n = 1 then [⟨0x54#8, [2], 0⟩, ⟨0x62#8, [], 6⟩] else []
  deletes := sameGroupAddress

theorem chattyModem_lawful : chattyModem.lawful := by
  refine ⟨?_, by simp [chattyModem, sameGroupAddress]⟩
  intro n p hp
  simp only [chattyModem] at hp
  split_ifs at hp
  · simp at hp
    rcases hp with rfl | rfl <;> decide
  · simp at hp

example : ((PlmLinks.links (Plm.asWriter chattyModem.io) 3 20
    ⟨[[0xe2, 1, 0xaa, 0xbb, 0xcc, 1, 2, 3], [0xa2, 5, 0, 0, 9, 0, 0, 0]], 0, [], 0⟩ []).map (·.2)) =
    some (.ok ([⟨0xe2#8, 1#8, 0xaabbcc#32, 1, 2, 3⟩, ⟨0xa2#8, 5#8, 9#32, 0, 0, 0⟩], none)) := by decide

/-! ### C36 -/

/-- Two links the modem cannot tell apart: same role, group and address. -/
def Spec.SameLink (a b : LinkRecord) : Prop :=
  a.flags.getLsbD 6 = b.flags.getLsbD 6 ∧ a.group = b.group ∧ a.address = b.address

section
variable (k : ModemKind)

theorem modem_manage (m : ModemSt) (op : Byte) (r : Bytes) (hin : m.inbox = [])
    (db' : List Bytes) (hok : k.manage m op r = { m with db := db', inbox := [⟨0x6f#8, op :: r, 0x06#8⟩] }) :
    retryWrite (Plm.writePacket k.io) 3 true m ⟨0x6f#8, op :: r, 0#8⟩ =
      ({ m with db := db' }, .ret (some ⟨0x6f#8, op :: r, 0x06#8⟩) none) := by
  refine retryWrite_once (Plm.writePacket k.io) 3 true _ _ _ _ _ ?_ (by decide)
  simp [Plm.writePacket, ModemKind.io, ModemKind.receive, Packet.marshalBinary, hok, hin,
      Plm.checkAck, Packet.isACK, Packet.isNAK, PCmd.getInfo, PCmd.getConfig, PCmd.sendInsteonMsg]

theorem modem_deleteAll (hk : k.lawful) (db : List Bytes) (h8 : ∀ r ∈ db, r.length = 8) (next tick : Nat) :
    PlmLinks.deleteAll (Plm.asWriter k.io) ⟨db, next, [], tick⟩ (db.map recordOf) =
      (⟨[], next, [], tick⟩, .ok none) := by
  induction db with
  | nil => simp [PlmLinks.deleteAll]
  | cons r rs ih =>
    have hm := modem_manage k ⟨r :: rs, next, [], tick⟩ 0x80#8 r rfl rs (by
      simp [ModemKind.manage, hk.2 r, removeFirst])
    simp only [List.map_cons, PlmLinks.deleteAll, PlmLinks.deleteLink, ManageRecord.marshalBinary, marshal_raw,
      raw_record r (h8 r (by simp)), Plm.asWriter, PCmd.manageAllLinkRecord]
    rw [hm]
    dsimp only
    have := ih (fun x hx => h8 x (by simp [hx]))
    simp only [Plm.asWriter] at this
    exact this

theorem upsert_append (p : Bytes → Bool) (x : Bytes) (db : List Bytes) (h : ∀ y ∈ db, p y = false) :
    upsert p x db = db ++ [x] := by
  induction db with
  | nil => rfl
  | cons y ys ih =>
    simp only [upsert, h y (by simp), Bool.false_eq_true, if_false, List.cons_append]
    rw [ih (fun z hz => h z (by simp [hz]))]

theorem controller_bit (f : RecordControlFlags) : f.controller = f.getLsbD 6 := by
  revert f; decide +kernel

theorem sameGroupAddress_raw (a b : LinkRecord) (ha : a.address.toNat < 2 ^ 24) (hb : b.address.toNat < 2 ^ 24)
    (h : sameGroupAddress (rawOf a) (rawOf b) = true) : a.group = b.group ∧ a.address = b.address := by
  simp only [sameGroupAddress, rawOf, List.drop_succ_cons, List.drop_zero, List.take_succ_cons, List.take_zero,
    beq_iff_eq, List.cons.injEq, and_true] at h
  obtain ⟨hg, h1, h2, h3⟩ := h
  refine ⟨hg, BitVec.eq_of_toNat_eq ?_⟩
  have e1 := congrArg BitVec.toNat h1
  have e2 := congrArg BitVec.toNat h2
  have e3 := congrArg BitVec.toNat h3
  simp only [BitVec.toNat_ofNat] at e1 e2 e3
  omega

theorem modem_writeAll (done new : List LinkRecord) (next tick : Nat)
    (hdist : (done ++ new).Pairwise (fun a b => ¬ SameLink a b))
    (h24 : ∀ l ∈ done ++ new, l.address.toNat < 2 ^ 24) :
    PlmLinks.writeAll (Plm.asWriter k.io) ⟨done.map rawOf, next, [], tick⟩ done new =
      (⟨(done ++ new).map rawOf, next, [], tick⟩, .ok (done ++ new, none)) := by
  induction new generalizing done with
  | nil => simp [PlmLinks.writeAll]
  | cons l ls ih =>
    have hnew : ∀ y ∈ done.map rawOf, (fun x => (rawController x == l.flags.controller) && sameGroupAddress x (rawOf l)) y = false := by
      intro y hy
      simp only [List.mem_map] at hy
      obtain ⟨d, hd, rfl⟩ := hy
      by_contra hc
      simp only [Bool.not_eq_false, Bool.and_eq_true, beq_iff_eq] at hc
      have hsg := sameGroupAddress_raw d l (h24 d (by simp [hd])) (h24 l (by simp)) hc.2
      have := List.pairwise_append.mp hdist
      refine this.2.2 d hd l (by simp) ⟨?_, hsg⟩
      have h1 := hc.1
      rw [controller_bit] at h1
      exact h1
    have hm := modem_manage k ⟨done.map rawOf, next, [], tick⟩
      (if l.flags.controller then 0x40#8 else 0x41#8) (rawOf l) rfl (done.map rawOf ++ [rawOf l]) (by
        cases hc : l.flags.controller with
        | true =>
          rw [hc] at hnew
          simp only [ModemKind.manage, if_true]
          rw [upsert_append _ _ _ (by simpa using hnew)]
          simp
        | false =>
          rw [hc] at hnew
          have := upsert_append (fun x => !rawController x && sameGroupAddress x (rawOf l)) (rawOf l) (done.map rawOf)
            (by simpa using hnew)
          simp [ModemKind.manage, this])
    simp only [PlmLinks.writeAll, PlmLinks.writeOne, PlmLinks.writeLink, ManageRecord.marshalBinary, marshal_raw,
      Plm.asWriter, PCmd.manageAllLinkRecord]
    rw [hm]
    dsimp only
    have := ih (done ++ [l]) (by simpa using hdist) (by simpa using h24)
    simp only [Plm.asWriter, List.map_append, List.map_cons, List.map_nil] at this
    simp only [List.append_assoc, List.cons_append, List.nil_append] at this ⊢
    rw [this]
    simp

/-- C36 where the cache is up to date: after the modem's database has been read (C35), `WriteLinks` with
links the modem can tell apart leaves the modem's database and the cache holding exactly the
given links, in order, and reports success. -/
theorem modem_rewrite_partial (hk : k.lawful) (m : ModemSt) (new : List LinkRecord)
    (h8 : ∀ r ∈ m.db, r.length = 8) (hin : m.inbox = [])
    (hdist : new.Pairwise (fun a b => ¬ SameLink a b)) (h24 : ∀ l ∈ new, l.address.toNat < 2 ^ 24) :
    PlmLinks.writeLinks (Plm.asWriter k.io) m (m.db.map recordOf) new =
      ({ m with db := new.map rawOf }, .ok (new, none)) := by
  obtain ⟨db, next, inbox, tick⟩ := m
  dsimp only at hin h8 ⊢
  subst hin
  unfold PlmLinks.writeLinks
  rw [modem_deleteAll k hk db h8 next tick]
  dsimp only
  have := modem_writeAll k [] new next tick (by simpa using hdist) (by simpa using h24)
  simpa using this

/-- Reading and then rewriting: whatever was cached before, `Links` followed by `WriteLinks` leaves
exactly the given links, and a second `Links` returns them. -/
theorem modem_read_rewrite_read_partial (hk : k.lawful) (retries : Nat) (m : ModemSt) (cached new : List LinkRecord)
    (h8 : ∀ r ∈ m.db, r.length = 8) (hin : m.inbox = [])
    (hdist : new.Pairwise (fun a b => ¬ SameLink a b)) (h24 : ∀ l ∈ new, l.address.toNat < 2 ^ 24) :
    ∃ (fuel₀ : Nat) (m1 m2 m3 : ModemSt) (c1 : List LinkRecord),
      (∀ fuel ≥ fuel₀, PlmLinks.links (Plm.asWriter k.io) retries fuel m cached = some (m1, .ok (c1, none))) ∧
      PlmLinks.writeLinks (Plm.asWriter k.io) m1 c1 new = (m2, .ok (new, none)) ∧
      m2.db = new.map rawOf ∧
      (∀ fuel ≥ fuel₀, PlmLinks.links (Plm.asWriter k.io) retries fuel m2 new = some (m3, .ok (new, none))) := by
  obtain ⟨f1, m1, hdb, hin1, h1⟩ := modem_links_complete k hk retries m cached h8 hin
  have h8' : ∀ r ∈ m1.db, r.length = 8 := by rw [hdb]; exact h8
  have hw := modem_rewrite_partial k hk m1 new h8' hin1 hdist h24
  rw [hdb] at hw
  obtain ⟨f2, m3, -, -, h3⟩ := modem_links_complete k hk retries { m1 with db := new.map rawOf } new (by
    intro r hr
    simp only [List.mem_map] at hr
    obtain ⟨l, -, rfl⟩ := hr
    rfl) hin1
  have hid : (new.map rawOf).map recordOf = new := by
    rw [List.map_map]
    conv => rhs; rw [← List.map_id new]
    apply List.map_congr_left
    intro l hl
    exact record_raw l (h24 l hl)
  dsimp only at h3
  rw [hid] at h3
  exact ⟨max f1 f2, m1, _, m3, _, fun fuel hf => h1 fuel (by omega), hw, rfl, fun fuel hf => h3 fuel (by omega)⟩

end

/-- C36 is false of the code: a PLM that has not read the modem's database first leaves the old records
in place although it reports success. -/
theorem modem_rewrite_refuted :
    ¬ ∀ (k : ModemKind) (m : ModemSt) (cached new : List LinkRecord), k.lawful → (∀ r ∈ m.db, r.length = 8) →
      m.inbox = [] → new.Pairwise (fun a b => ¬ SameLink a b) → (∀ l ∈ new, l.address.toNat < 2 ^ 24) →
      (PlmLinks.writeLinks (Plm.asWriter k.io) m cached new).2 = .ok (new, none) →
      (PlmLinks.writeLinks (Plm.asWriter k.io) m cached new).1.db = new.map rawOf := by
  intro h
  have := h chattyModem ⟨[[0xe2, 1, 0xaa, 0xbb, 0xcc, 1, 2, 3]], 0, [], 0⟩ []
    [⟨0xa2#8, 5#8, 9#32, 0, 0, 0⟩] chattyModem_lawful (by simp) rfl (by simp) (by simp) (by decide)
  exact absurd this (by decide)

/-- Whatever the modem does, success means every given link is in the cache, in order. -/
theorem modem_rewrite_cache {σ : Type} (w : PacketWriter σ) (s s' : σ) (cached new cached' : List LinkRecord)
    (h : PlmLinks.writeLinks w s cached new = (s', .ok (cached', none))) : cached' = new := by
  have hall : ∀ (new done : List LinkRecord) (s s' : σ) (c : List LinkRecord),
      PlmLinks.writeAll w s done new = (s', .ok (c, none)) → c = done ++ new := by
    intro new
    induction new with
    | nil => intro done s s' c h; simp [PlmLinks.writeAll] at h; simp [h.2]
    | cons l ls ih =>
      intro done s s' c h
      rw [PlmLinks.writeAll] at h
      split at h
      · have := ih _ _ _ _ h; simpa using this
      · simp at h
      · simp at h
  unfold PlmLinks.writeLinks at h
  split at h
  · simp at h
  · simpa using hall _ _ _ _ _ h
  · simp at h

example : ([⟨0xe2#8, 1#8, 0xaabbcc#32, 1, 2, 3⟩, ⟨0xa2#8, 1#8, 0xaabbcc#32, 0, 0, 0⟩] : List LinkRecord).Pairwise
    (fun a b => ¬ SameLink a b) := by
  simp [SameLink]

/-! ### C37 -/

/-- What is deleted (C37): when the write of a link is answered with a different record, the deletion
that follows is for the record read from the echoed payload starting at its command byte, one
byte too early. -/
theorem corrupted_write_recovery_partial {σ : Type} (w : PacketWriter σ) (s s1 : σ) (link : LinkRecord)
    (op : Byte) (b0 b1 b2 b3 b4 b5 b6 b7 : Byte) (a : Byte)
    (h : PlmLinks.writeLink w s link =
      (s1, .ret (some ⟨0x6f#8, [op, b0, b1, b2, b3, b4, b5, b6, b7], a⟩) (some .wrongPayload))) :
    ∃ s2 r, retryWrite w.write 3 true s1 ⟨0x6f#8, 0x80#8 :: [op, b0, b1, b2, b3, b4, b5, b6], 0#8⟩ = (s2, r) ∧
      PlmLinks.writeOne w s link = match r with
        | .panic => (s2, .panic)
        | .ret _ (some e) => (s2, .ok (some e))
        | .ret _ none => match PlmLinks.writeLink w s2 link with
          | (s, .panic) => (s, .panic)
          | (s, .ret _ e) => (s, .ok e) := by
  have hd : ∀ s1, PlmLinks.deleteLink w s1 (LinkRecord.unmarshalBinary LinkRecord.zero
      [op, b0, b1, b2, b3, b4, b5, b6, b7]).1 =
      retryWrite w.write 3 true s1 ⟨0x6f#8, 0x80#8 :: [op, b0, b1, b2, b3, b4, b5, b6], 0#8⟩ := by
    intro s1
    have := (wire_link_roundtrip LinkRecord.zero [op, b0, b1, b2, b3, b4, b5, b6, b7]).2 (by simp)
    simp only [PlmLinks.deleteLink, ManageRecord.marshalBinary, this.2]
    rfl
  rcases hr : retryWrite w.write 3 true s1 ⟨0x6f#8, 0x80#8 :: [op, b0, b1, b2, b3, b4, b5, b6], 0#8⟩ with ⟨s2, r⟩
  refine ⟨s2, r, rfl, ?_⟩
  unfold PlmLinks.writeOne
  rw [h]
  simp only [if_true]
  rw [hd, hr]
  rcases r with ⟨a, _ | e⟩ | _ <;> rfl

/-- C37 is false of the code: some echoed record is not the one deleted. The modem here answers the
first write with a corrupted record; the state collects what is sent. -/
theorem corrupted_write_recovery_refuted :
    ¬ ∀ (w : PacketWriter (List Packet)) (s s1 : List Packet) (link : LinkRecord) (op a : Byte) (r : Bytes),
      r.length = 8 →
      PlmLinks.writeLink w s link = (s1, .ret (some ⟨0x6f#8, op :: r, a⟩) (some .wrongPayload)) →
      ∃ s2 res, retryWrite w.write 3 true s1 ⟨0x6f#8, 0x80#8 :: r, 0#8⟩ = (s2, res) ∧
        ∃ more, (PlmLinks.writeOne w s link).1 = s2 ++ more := by
  intro h
  let w : PacketWriter (List Packet) :=
    { write := fun s p => if s = [] then
        (s ++ [p], .ret (some ⟨0x6f#8, 0x40#8 :: [0, 0xe2, 1, 2, 3, 4, 5, 6], 6⟩) (some .wrongPayload))
        else (s ++ [p], .ret none none)
      read := fun s => (s, .panic) }
  obtain ⟨s2, res, h1, more, h2⟩ := h w [] [⟨0x6f#8, [0x40, 0xe2, 1, 0, 0, 7, 0, 0, 0], 0⟩]
    ⟨0xe2#8, 1#8, 7#32, 0, 0, 0⟩ 0x40#8 6 [0, 0xe2, 1, 2, 3, 4, 5, 6] rfl (by decide)
  have e1 : (retryWrite w.write 3 true [⟨0x6f#8, [0x40, 0xe2, 1, 0, 0, 7, 0, 0, 0], 0⟩]
      ⟨0x6f#8, 0x80#8 :: [0, 0xe2, 1, 2, 3, 4, 5, 6], 0#8⟩).1 =
      [⟨0x6f#8, [0x40, 0xe2, 1, 0, 0, 7, 0, 0, 0], 0⟩, ⟨0x6f#8, [0x80, 0, 0xe2, 1, 2, 3, 4, 5, 6], 0⟩] := by decide
  have e2 : (PlmLinks.writeOne w [] ⟨0xe2#8, 1#8, 7#32, 0, 0, 0⟩).1 =
      [⟨0x6f#8, [0x40, 0xe2, 1, 0, 0, 7, 0, 0, 0], 0⟩, ⟨0x6f#8, [0x80, 0x40, 0, 0xe2, 1, 2, 3, 4, 5], 0⟩,
       ⟨0x6f#8, [0x40, 0xe2, 1, 0, 0, 7, 0, 0, 0], 0⟩] := by decide
  rw [h1] at e1
  dsimp only at e1
  rw [e1, e2] at h2
  simp at h2

/-! ### C38 -/

theorem idxOf_skip (x a : Address) (xs : List Address) (h : x ≠ a) : (x :: xs).idxOf a = xs.idxOf a + 1 := by
  rw [List.idxOf_cons, beq_false_of_ne h]; rfl

theorem iterate_spec (seen : List Address) (ls : List LinkRecord) :
    (PlmLinks.iterate seen ls).Nodup ∧
    (∀ a, a ∈ PlmLinks.iterate seen ls ↔ a ∈ ls.map (·.address) ∧ a ∉ seen) ∧
    (PlmLinks.iterate seen ls).Pairwise (fun a b => (ls.map (·.address)).idxOf a < (ls.map (·.address)).idxOf b) := by
  induction ls generalizing seen with
  | nil => simp [PlmLinks.iterate]
  | cons l ls ih =>
    rw [PlmLinks.iterate]
    by_cases h : l.address ∈ seen
    · rw [if_pos h]
      obtain ⟨h1, h2, h3⟩ := ih seen
      refine ⟨h1, ?_, ?_⟩
      · intro a
        rw [h2]
        simp only [List.map_cons, List.mem_cons]
        constructor
        · rintro ⟨ha, hn⟩; exact ⟨Or.inr ha, hn⟩
        · rintro ⟨rfl | ha, hn⟩
          · exact absurd h hn
          · exact ⟨ha, hn⟩
      · refine List.Pairwise.imp_of_mem ?_ h3
        intro a b ha hb hlt
        have hna : l.address ≠ a := fun he => ((h2 a).mp ha).2 (he ▸ h)
        have hnb : l.address ≠ b := fun he => ((h2 b).mp hb).2 (he ▸ h)
        simp only [List.map_cons, idxOf_skip _ _ _ hna, idxOf_skip _ _ _ hnb]
        omega
    · rw [if_neg h]
      obtain ⟨h1, h2, h3⟩ := ih (l.address :: seen)
      have hnot : l.address ∉ PlmLinks.iterate (l.address :: seen) ls := by
        rw [h2]; simp
      refine ⟨List.nodup_cons.mpr ⟨hnot, h1⟩, ?_, ?_⟩
      · intro a
        simp only [List.mem_cons, h2, List.map_cons]
        constructor
        · rintro (rfl | ⟨ha, hn⟩)
          · exact ⟨Or.inl rfl, h⟩
          · simp only [not_or] at hn
            exact ⟨Or.inr ha, hn.2⟩
        · rintro ⟨rfl | ha, hn⟩
          · exact Or.inl rfl
          · by_cases he : a = l.address
            · exact Or.inl he
            · exact Or.inr ⟨ha, by simp only [not_or]; exact ⟨he, hn⟩⟩
      · refine List.pairwise_cons.mpr ⟨?_, ?_⟩
        · intro b hb
          have hnb : l.address ≠ b := fun he => hnot (he ▸ hb)
          simp only [List.map_cons, List.idxOf_cons_self, idxOf_skip _ _ _ hnb]
          omega
        · refine List.Pairwise.imp_of_mem ?_ h3
          intro a b ha hb hlt
          have hna : l.address ≠ a := fun he => hnot (he ▸ ha)
          have hnb : l.address ≠ b := fun he => hnot (he ▸ hb)
          simp only [List.map_cons, idxOf_skip _ _ _ hna, idxOf_skip _ _ _ hnb]
          omega

/-- C38: `IterateDevices` calls the callback exactly once for each distinct address among the links
`Links` returns, in order of first appearance; on error it makes no call. -/
theorem iterate_devices {σ : Type} (w : PacketWriter σ) (retries : Int) (fuel : Nat) (s s' : σ)
    (cached ls : List LinkRecord) (e : Option Err)
    (h : PlmLinks.links w retries fuel s cached = some (s', .ok (ls, e))) :
    ∃ calls, PlmLinks.iterateDevices w retries fuel s cached = some (s', .ok (calls, e)) ∧
      (e = none → calls.Nodup ∧ (∀ a, a ∈ calls ↔ ∃ l ∈ ls, l.address = a) ∧
        calls.Pairwise (fun a b => (ls.map (·.address)).idxOf a < (ls.map (·.address)).idxOf b)) ∧
      (e ≠ none → calls = []) := by
  unfold PlmLinks.iterateDevices
  rw [h]
  cases e with
  | none =>
    refine ⟨_, rfl, fun _ => ?_, fun h => absurd rfl h⟩
    obtain ⟨h1, h2, h3⟩ := iterate_spec [] ls
    refine ⟨h1, ?_, h3⟩
    intro a
    rw [h2]
    simp
  | some e => exact ⟨[], rfl, by simp, by simp⟩

/-- On a lawful modem: every device in the database exactly once. -/
example : ((PlmLinks.iterateDevices (Plm.asWriter chattyModem.io) 3 20
    ⟨[[0xe2, 1, 0, 0, 7, 1, 2, 3], [0xa2, 5, 0, 0, 9, 0, 0, 0], [0xa2, 1, 0, 0, 7, 0, 0, 0]], 0, [], 0⟩ []).map (·.2)) =
    some (.ok ([7#32, 9#32], none)) := by decide

end Insteon
