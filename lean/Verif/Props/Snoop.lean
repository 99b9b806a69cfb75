import Verif.Spec.Snoop
import Verif.Props.Live

/-
Properties C108, C109: listening on a serial line.
-/

namespace Insteon
open Spec

/-! ### Schedules -/

/-- What a `Read` makes of a packet. -/
def snoopDecode (p : Packet) : Message × Option Err := Message.zero.unmarshalBinary p.payload

theorem snoop_run_inv (es : List SnoopEv) (s s' : SnoopSt) (got : List (Message × Option Err))
    (h : Snoop.run s es = some (s', got)) :
    ∃ a b c out, s.fromModem.filter Snoop.forwarded = a ++ s'.fromModem.filter Snoop.forwarded ∧
      s.fromHost.filter Snoop.forwarded = b ++ s'.fromHost.filter Snoop.forwarded ∧
      Interleaving a b c ∧ s.queue ++ c = out ++ s'.queue ∧ got = out.map snoopDecode := by
  induction es generalizing s got with
  | nil =>
    simp only [Snoop.run, Option.some.injEq, Prod.mk.injEq] at h
    obtain ⟨rfl, rfl⟩ := h
    exact ⟨[], [], [], [], rfl, rfl, .nil, by simp, rfl⟩
  | cons e es ih =>
    rw [Snoop.run] at h
    rcases hs : Snoop.step s e with _ | ⟨s1, o⟩ <;> rw [hs] at h
    · simp at h
    · simp only [Option.map_eq_some_iff, Prod.mk.injEq] at h
      obtain ⟨⟨s2, g⟩, hr, rfl, rfl⟩ := h
      obtain ⟨a, b, c, out, h1, h2, h3, h4, rfl⟩ := ih s1 g hr
      cases e with
      | modem =>
        simp only [Snoop.step, Option.map_eq_some_iff, Prod.mk.injEq] at hs
        obtain ⟨⟨ps, q⟩, hf, rfl, rfl⟩ := hs
        unfold Snoop.forward at hf
        rcases hp : s.fromModem with _ | ⟨p, rest⟩ <;> rw [hp] at hf
        · simp at hf
        · dsimp only at hf
          split_ifs at hf with hfw hcap
          · simp only [Option.some.injEq, Prod.mk.injEq] at hf
            obtain ⟨rfl, rfl⟩ := hf
            refine ⟨p :: a, b, p :: c, out, ?_, h2, .left p h3, by simpa using h4, rfl⟩
            simp only [List.filter_cons, hfw, if_true, List.cons_append]
            rw [← h1]
          · simp only [Option.some.injEq, Prod.mk.injEq] at hf
            obtain ⟨rfl, rfl⟩ := hf
            refine ⟨a, b, c, out, ?_, h2, h3, h4, rfl⟩
            have hfw' : Snoop.forwarded p = false := by simpa using hfw
            simp only [List.filter_cons, hfw']
            exact h1
      | host =>
        simp only [Snoop.step, Option.map_eq_some_iff, Prod.mk.injEq] at hs
        obtain ⟨⟨ps, q⟩, hf, rfl, rfl⟩ := hs
        unfold Snoop.forward at hf
        rcases hp : s.fromHost with _ | ⟨p, rest⟩ <;> rw [hp] at hf
        · simp at hf
        · dsimp only at hf
          split_ifs at hf with hfw hcap
          · simp only [Option.some.injEq, Prod.mk.injEq] at hf
            obtain ⟨rfl, rfl⟩ := hf
            refine ⟨a, p :: b, p :: c, out, h1, ?_, .right p h3, by simpa using h4, rfl⟩
            simp only [List.filter_cons, hfw, if_true, List.cons_append]
            rw [← h2]
          · simp only [Option.some.injEq, Prod.mk.injEq] at hf
            obtain ⟨rfl, rfl⟩ := hf
            refine ⟨a, b, c, out, h1, ?_, h3, h4, rfl⟩
            have hfw' : Snoop.forwarded p = false := by simpa using hfw
            simp only [List.filter_cons, hfw']
            exact h2
      | read =>
        simp only [Snoop.step] at hs
        rcases hq : s.queue with _ | ⟨p, q⟩ <;> rw [hq] at hs
        · simp at hs
        · simp only [Option.some.injEq, Prod.mk.injEq] at hs
          obtain ⟨rfl, rfl⟩ := hs
          refine ⟨a, b, c, p :: out, h1, h2, h3, ?_, rfl⟩
          dsimp only at h4
          simp [h4]

theorem snoop_run_length (es : List SnoopEv) (s s' : SnoopSt) (got : List (Message × Option Err))
    (h : Snoop.run s es = some (s', got)) :
    es.length + 2 * (s'.fromModem.length + s'.fromHost.length) + s'.queue.length ≤
      2 * (s.fromModem.length + s.fromHost.length) + s.queue.length := by
  induction es generalizing s got with
  | nil =>
    simp only [Snoop.run, Option.some.injEq, Prod.mk.injEq] at h
    obtain ⟨rfl, -⟩ := h
    simp
  | cons e es ih =>
    rw [Snoop.run] at h
    rcases hs : Snoop.step s e with _ | ⟨s1, o⟩ <;> rw [hs] at h
    · simp at h
    · simp only [Option.map_eq_some_iff, Prod.mk.injEq] at h
      obtain ⟨⟨s2, g⟩, hr, rfl, rfl⟩ := h
      have := ih s1 g hr
      have hd : 2 * (s1.fromModem.length + s1.fromHost.length) + s1.queue.length + 1 ≤
          2 * (s.fromModem.length + s.fromHost.length) + s.queue.length := by
        cases e with
        | modem =>
          simp only [Snoop.step, Option.map_eq_some_iff, Prod.mk.injEq] at hs
          obtain ⟨⟨ps, q⟩, hf, rfl, rfl⟩ := hs
          unfold Snoop.forward at hf
          rcases hp : s.fromModem with _ | ⟨p, rest⟩ <;> rw [hp] at hf
          · simp at hf
          · dsimp only at hf
            split_ifs at hf <;> simp only [Option.some.injEq, Prod.mk.injEq] at hf <;> obtain ⟨rfl, rfl⟩ := hf <;>
              simp <;> omega
        | host =>
          simp only [Snoop.step, Option.map_eq_some_iff, Prod.mk.injEq] at hs
          obtain ⟨⟨ps, q⟩, hf, rfl, rfl⟩ := hs
          unfold Snoop.forward at hf
          rcases hp : s.fromHost with _ | ⟨p, rest⟩ <;> rw [hp] at hf
          · simp at hf
          · dsimp only at hf
            split_ifs at hf <;> simp only [Option.some.injEq, Prod.mk.injEq] at hf <;> obtain ⟨rfl, rfl⟩ := hf <;>
              simp <;> omega
        | read =>
          simp only [Snoop.step] at hs
          rcases hq : s.queue with _ | ⟨p, q⟩ <;> rw [hq] at hs
          · simp at hs
          · simp only [Option.some.injEq, Prod.mk.injEq] at hs
            obtain ⟨rfl, rfl⟩ := hs
            simp; omega
      dsimp only at this ⊢
      simp only [List.length_cons]
      omega

/-- Nothing can happen only when both streams are used up and everything was read. -/
theorem snoop_stuck (s : SnoopSt) : (∀ e, Snoop.step s e = none) ↔ s.fromModem = [] ∧ s.fromHost = [] ∧ s.queue = [] := by
  constructor
  · intro h
    have hq : s.queue = [] := by
      have := h .read
      simp only [Snoop.step] at this
      split at this
      · assumption
      · simp at this
    have hm := h .modem
    have hh := h .host
    simp only [Snoop.step, Option.map_eq_none_iff, Snoop.forward, hq] at hm hh
    refine ⟨?_, ?_, hq⟩
    · split at hm
      · assumption
      · split_ifs at hm
        simp at *
    · split at hh
      · assumption
      · split_ifs at hh
        simp at *
  · rintro ⟨h1, h2, h3⟩ e
    cases e <;> simp [Snoop.step, Snoop.forward, h1, h2, h3]

theorem interleaving_prefix {α : Type} (a b c : List α) (h : Interleaving a b c) (x y : List α) (hc : c = x ++ y) :
    ∃ a1 b1, a1 <+: a ∧ b1 <+: b ∧ Interleaving a1 b1 x := by
  induction h generalizing x with
  | nil =>
    have : x = [] := by simp at hc; exact hc.1
    subst this
    exact ⟨[], [], List.prefix_rfl, List.prefix_rfl, .nil⟩
  | left z _ ih =>
    cases x with
    | nil => exact ⟨[], [], List.nil_prefix, List.nil_prefix, .nil⟩
    | cons w x =>
      simp only [List.cons_append, List.cons.injEq] at hc
      obtain ⟨rfl, hc⟩ := hc
      obtain ⟨a1, b1, h1, h2, h3⟩ := ih x hc
      exact ⟨z :: a1, b1, by simpa using h1, h2, .left z h3⟩
  | right z _ ih =>
    cases x with
    | nil => exact ⟨[], [], List.nil_prefix, List.nil_prefix, .nil⟩
    | cons w x =>
      simp only [List.cons_append, List.cons.injEq] at hc
      obtain ⟨rfl, hc⟩ := hc
      obtain ⟨a1, b1, h1, h2, h3⟩ := ih x hc
      exact ⟨a1, z :: b1, h1, by simpa using h2, .right z h3⟩

theorem interleaving_map {α β : Type} (f : α → β) (a b c : List α) (h : Interleaving a b c) :
    Interleaving (a.map f) (b.map f) (c.map f) := by
  induction h with
  | nil => exact .nil
  | left z _ ih => exact .left _ ih
  | right z _ ih => exact .right _ ih

theorem interleaving_map_inv {α β : Type} (f : α → β) (a b : List α) (c : List β) (h : Interleaving (a.map f) (b.map f) c) :
    ∃ c', Interleaving a b c' ∧ c = c'.map f := by
  generalize hx : a.map f = x at h
  generalize hy : b.map f = y at h
  induction h generalizing a b with
  | nil =>
    simp only [List.map_eq_nil_iff] at hx hy
    subst hx hy
    exact ⟨[], .nil, rfl⟩
  | left z _ ih =>
    rcases a with _ | ⟨a0, a⟩
    · simp at hx
    · simp only [List.map_cons, List.cons.injEq] at hx
      obtain ⟨c', h1, rfl⟩ := ih a b hx.2 hy
      exact ⟨a0 :: c', .left a0 h1, by simp [hx.1]⟩
  | right z _ ih =>
    rcases b with _ | ⟨b0, b⟩
    · simp at hy
    · simp only [List.map_cons, List.cons.injEq] at hy
      obtain ⟨c', h1, rfl⟩ := ih a b hx hy.2
      exact ⟨b0 :: c', .right b0 h1, by simp [hy.1]⟩

/-! ### Streams -/

theorem readAll_host (items : Items)
    (hok : ∀ it ∈ items, Quiet it.1 ∧ it.2.hostFormed ∧ 0x61 ≤ it.2.cmd.toNat ∧ it.2.cmd.toNat ≤ 0x64) :
    ∀ fuel > (line items).length, ∀ n > items.length, ∀ l,
      readAll true fuel n ⟨line items, l⟩ = some (items.map (fun it =>
        { command := it.2.cmd, payload := (if it.2.cmd = 0x62#8 then [0#8, 0#8, 0#8] else []) ++ it.2.body, ack := 0#8 }),
        .err .eof) := by
  induction items with
  | nil =>
    intro fuel hfuel n hn l
    obtain ⟨m, rfl⟩ : ∃ m, n = m + 1 := ⟨n - 1, by simp at hn; omega⟩
    obtain ⟨l', h⟩ := sync_quiet_end true [] quiet_nil (by simp) fuel (by simpa [line] using hfuel) l
    simp [readAll, readPacket, readFrame, line, h]
  | cons it items ih =>
    intro fuel hfuel n hn l
    obtain ⟨m, rfl⟩ : ∃ m, n = m + 1 := ⟨n - 1, by simp at hn; omega⟩
    have hlen : (line (it :: items)).length = it.1.length + it.2.bytes.length + (line items).length := by
      simp [line, Nat.add_assoc]
    have hit := hok it (by simp)
    obtain ⟨l', h⟩ := snoop_framing_partial it.1 it.2 (line items) l fuel hit.1 hit.2.1 hit.2.2 (by omega)
    have := ih (fun i hi => hok i (by simp [hi])) fuel (by omega) m (by simp at hn; omega) l'
    have hl : line (it :: items) = it.1 ++ it.2.bytes ++ line items := by simp [line]
    rw [hl]
    simp only [readAll, h, this, List.map_cons]

theorem items_le_line (its : Items) : its.length ≤ (line its).length := by
  induction its with
  | nil => simp
  | cons it its ih =>
    have h : line (it :: its) = it.1 ++ it.2.bytes ++ line its := by simp [line]
    rw [h]
    simp only [List.length_append, List.length_cons, Frame.bytes]
    omega

/-- The packet of a snooped request. -/
def requestPacket (m : Message) : Packet := ⟨0x62#8, [0, 0, 0] ++ afterSource m, 0#8⟩

theorem anonymous_wire (m : Message) : (anonymous m).marshalBinary = [0, 0, 0] ++ afterSource m := by
  rw [afterSource_wire]
  have h1 : addr3 (anonymous m).src = [0, 0, 0] := by simp [anonymous, addr3]
  rw [h1]
  rfl

theorem anonymous_decode (m : Message) (h : Proper m) (st : Byte) :
    snoopDecode ⟨0x62#8, [0, 0, 0] ++ afterSource m, st⟩ = (anonymous m, none) := by
  unfold snoopDecode
  dsimp only
  rw [← anonymous_wire]
  exact message_wire_roundtrip_exact (anonymous m) (by simp [anonymous]) h.dst h.cls h.payload

theorem modem_packets (l : List (Bytes × FromModem)) (hok : ∀ x ∈ l, Quiet x.1 ∧ x.2.ok) :
    packetsIn false (modemLine l) = l.map (fun x => x.2.frame.packet) := by
  have hwf : ∀ it ∈ l.map (fun x => (x.1, x.2.frame)), Quiet it.1 ∧ it.2.wellFormed := by
    intro it hit
    simp only [List.mem_map] at hit
    obtain ⟨x, hx, rfl⟩ := hit
    refine ⟨(hok x hx).1, ?_⟩
    have := (hok x hx).2
    rcases hx2 : x.2 with m | m | m | f <;> rw [hx2] at this <;> dsimp only [FromModem.frame]
    · exact heard_wellFormed _
    · exact reply_wellFormed _ _
    · exact reply_wellFormed _ _
    · exact this.1
  have hp : packetsIn false (modemLine l) = (l.map (fun x => (x.1, x.2.frame))).map (fun it => it.2.packet) :=
    arrivals_line _ hwf
  rw [hp, List.map_map]
  rfl

theorem modem_stream (l : List (Bytes × FromModem)) (hok : ∀ x ∈ l, Quiet x.1 ∧ x.2.ok) :
    ((packetsIn false (modemLine l)).filter Snoop.forwarded).map snoopDecode =
      (heardOrRefusedIn l).map fun m => (m, none) := by
  rw [modem_packets l hok]
  induction l with
  | nil => rfl
  | cons x l ih =>
    have ih := ih (fun y hy => hok y (by simp [hy]))
    have hx := (hok x (by simp)).2
    obtain ⟨noise, x⟩ := x
    simp only [List.map_cons, List.filter_cons]
    cases x with
    | heard m =>
      have hf : Snoop.forwarded (FromModem.heard m).frame.packet = true := by
        have := heard_packet m
        simp only [FromModem.frame]
        rw [this]
        unfold Snoop.forwarded Packet.isACK
        by_cases hx : isExtended m.flags <;> simp [hx, PCmd.stdMsgReceived, PCmd.extMsgReceived]
      rw [if_pos hf]
      simp only [List.map_cons, ih]
      have hd : snoopDecode (FromModem.heard m).frame.packet = (m, none) := heard_decode m hx
      rw [hd]
      simp [heardOrRefusedIn]
    | accepted m =>
      have hf : Snoop.forwarded (FromModem.accepted m).frame.packet = false := by
        simp only [FromModem.frame]
        rw [reply_packet]
        simp [Snoop.forwarded, Packet.isACK]
      rw [if_neg (by simp [hf]), ih]
      simp [heardOrRefusedIn]
    | refused m =>
      have hf : Snoop.forwarded (FromModem.refused m).frame.packet = true := by
        simp only [FromModem.frame]
        rw [reply_packet]
        simp [Snoop.forwarded, Packet.isACK, PCmd.sendInsteonMsg]
      rw [if_pos hf]
      simp only [List.map_cons, ih]
      have hd : snoopDecode (FromModem.refused m).frame.packet = (anonymous m, none) := by
        simp only [FromModem.frame]
        rw [reply_packet]
        exact anonymous_decode m hx _
      rw [hd]
      simp [heardOrRefusedIn]
    | other f =>
      have hf : Snoop.forwarded (FromModem.other f).frame.packet = false := by
        have hc : f.packet.command = f.cmd := by unfold Frame.packet; split_ifs <;> rfl
        simp only [FromModem.frame, Snoop.forwarded, hc, PCmd.stdMsgReceived, PCmd.extMsgReceived, PCmd.sendInsteonMsg]
        simp [hx.2.1, hx.2.2.1, hx.2.2.2]
      rw [if_neg (by simp [hf]), ih]
      simp [heardOrRefusedIn]

/-- The packet a host frame is read as. -/
def hostPacket (f : Frame) : Packet :=
  { command := f.cmd, payload := (if f.cmd = 0x62#8 then [0#8, 0#8, 0#8] else []) ++ f.body, ack := 0#8 }

theorem host_packets (l : List (Bytes × FromHost)) (hok : ∀ x ∈ l, Quiet x.1 ∧ x.2.ok) :
    packetsIn true (hostLine l) = l.map (fun x => hostPacket x.2.frame) := by
  have hwf : ∀ it ∈ l.map (fun x => (x.1, x.2.frame)),
      Quiet it.1 ∧ it.2.hostFormed ∧ 0x61 ≤ it.2.cmd.toNat ∧ it.2.cmd.toNat ≤ 0x64 := by
    intro it hit
    simp only [List.mem_map] at hit
    obtain ⟨x, hx, rfl⟩ := hit
    refine ⟨(hok x hx).1, ?_⟩
    have := (hok x hx).2
    rcases hx2 : x.2 with m | f <;> rw [hx2] at this <;> dsimp only [FromHost.frame]
    · refine ⟨?_, by decide, by decide⟩
      unfold Frame.hostFormed
      rw [if_pos rfl]
      exact ⟨m.flags, by simp [afterSource, addr3], afterSource_length m⟩
    · refine ⟨this.1, ?_⟩
      rcases this.2 with h | h | h <;> rw [h] <;> decide
  have hp := readMany_all _ _ _ _ _ _ (readAll_host _ hwf ((hostLine l).length + 1) (Nat.lt_succ_self _)
    ((hostLine l).length + 1) (Nat.lt_succ_of_le (items_le_line (l.map fun x => (x.1, x.2.frame)))) none)
  have hp : packetsIn true (hostLine l) = _ := hp
  rw [hp, List.map_map]
  rfl

theorem host_stream (l : List (Bytes × FromHost)) (hok : ∀ x ∈ l, Quiet x.1 ∧ x.2.ok) :
    ((packetsIn true (hostLine l)).filter Snoop.forwarded).map snoopDecode = (sentIn l).map fun m => (m, none) := by
  rw [host_packets l hok]
  induction l with
  | nil => rfl
  | cons x l ih =>
    have ih := ih (fun y hy => hok y (by simp [hy]))
    have hx := (hok x (by simp)).2
    obtain ⟨noise, x⟩ := x
    simp only [List.map_cons, List.filter_cons]
    cases x with
    | send m =>
      rw [if_pos (by simp [FromHost.frame, hostPacket, Snoop.forwarded, Packet.isACK, PCmd.sendInsteonMsg])]
      simp only [List.map_cons, ih]
      have hd := anonymous_decode m hx 0#8
      simp only [FromHost.frame, hostPacket, if_true]
      have hz : ([0#8, 0#8, 0#8] : Bytes) = [0, 0, 0] := rfl
      rw [hz, hd]
      simp [sentIn]
    | other f =>
      have hne : f.cmd ≠ 0x50#8 ∧ f.cmd ≠ 0x51#8 ∧ f.cmd ≠ 0x62#8 := by
        rcases hx.2 with h | h | h <;> rw [h] <;> decide
      rw [if_neg (by
        simp [FromHost.frame, hostPacket, Snoop.forwarded, hne.1, hne.2.1, hne.2.2, PCmd.stdMsgReceived, PCmd.extMsgReceived,
          PCmd.sendInsteonMsg]), ih]
      simp [sentIn]

/-! ### C108 -/

theorem map_prefix_inv {α β : Type} (f : α → β) (x : List α) (l : List β) (p : List β) (hl : l.map id = x.map f) (h : p <+: l) :
    ∃ y, y <+: x ∧ p = y.map f := by
  simp only [List.map_id] at hl
  subst hl
  rw [List.prefix_iff_eq_take] at h
  exact ⟨x.take p.length, List.take_prefix _ _, by rw [h]; simp⟩

/-- C108 with refused requests included: listening to a host and a modem, whatever noise lies between their frames and in
whatever order the two streams and the reader get their turns. At any moment the messages read are an interleaving of
what the modem passed on (or refused) so far and what the host sent so far, without gaps; all the reads succeed. When nothing more can
happen, all of them have been read. And this point is reached: the number of steps is bounded. -/
theorem snoop_reports_partial (modem : List (Bytes × FromModem)) (host : List (Bytes × FromHost))
    (hm : ∀ x ∈ modem, Quiet x.1 ∧ x.2.ok) (hh : ∀ x ∈ host, Quiet x.1 ∧ x.2.ok) (es : List SnoopEv) (s' : SnoopSt)
    (got : List (Message × Option Err)) (h : Snoop.run (Snoop.init (hostLine host) (modemLine modem)) es = some (s', got)) :
    (∃ a b ms, a <+: heardOrRefusedIn modem ∧ b <+: sentIn host ∧ Interleaving a b ms ∧ got = ms.map fun m => (m, none)) ∧
    ((∀ e, Snoop.step s' e = none) →
      ∃ ms, Interleaving (heardOrRefusedIn modem) (sentIn host) ms ∧ got = ms.map fun m => (m, none)) ∧
    es.length ≤ 2 * (modem.length + host.length) := by
  obtain ⟨a, b, c, out, h1, h2, h3, h4, rfl⟩ := snoop_run_inv es _ s' got h
  have hlen := snoop_run_length es _ s' _ h
  have hmp := modem_stream modem hm
  have hhp := host_stream host hh
  simp only [Snoop.init, List.nil_append] at h1 h2 h4 hlen
  refine ⟨?_, ?_, ?_⟩
  · obtain ⟨a1, b1, ha, hb, hi⟩ := interleaving_prefix a b c h3 out s'.queue h4
    have ha' : a1.map snoopDecode <+: (heardOrRefusedIn modem).map fun m => (m, none) := by
      rw [← hmp, h1, List.map_append]
      exact (ha.map _).trans (List.prefix_append _ _)
    have hb' : b1.map snoopDecode <+: (sentIn host).map fun m => (m, none) := by
      rw [← hhp, h2, List.map_append]
      exact (hb.map _).trans (List.prefix_append _ _)
    obtain ⟨x, hx, hx'⟩ := map_prefix_inv _ _ _ _ (List.map_id _) ha'
    obtain ⟨y, hy, hy'⟩ := map_prefix_inv _ _ _ _ (List.map_id _) hb'
    have := interleaving_map snoopDecode _ _ _ hi
    rw [hx', hy'] at this
    obtain ⟨ms, hms, heq⟩ := interleaving_map_inv _ _ _ _ this
    exact ⟨x, y, ms, hx, hy, hms, heq⟩
  · intro hst
    obtain ⟨e1, e2, e3⟩ := (snoop_stuck s').mp hst
    rw [e1, List.filter_nil, List.append_nil] at h1
    rw [e2, List.filter_nil, List.append_nil] at h2
    rw [e3, List.append_nil] at h4
    subst h4
    have := interleaving_map snoopDecode _ _ _ h3
    rw [← h1, ← h2, hmp, hhp] at this
    obtain ⟨ms, hms, heq⟩ := interleaving_map_inv _ _ _ _ this
    exact ⟨ms, hms, heq⟩
  · rw [modem_packets modem hm, host_packets host hh] at hlen
    simp only [List.length_map, List.length_nil] at hlen
    omega

theorem heardOrRefused_eq (l : List (Bytes × FromModem)) (h : ∀ x ∈ l, ∀ m, x.2 ≠ .refused m) :
    heardOrRefusedIn l = heardIn l := by
  unfold heardOrRefusedIn heardIn
  induction l with
  | nil => rfl
  | cons x l ih =>
    have ih := ih (fun y hy => h y (by simp [hy]))
    obtain ⟨n, x⟩ := x
    cases x with
    | refused m => exact absurd rfl (h (n, .refused m) (by simp) m)
    | _ => simp [ih]

/-- C108 where the modem refuses nothing and the host uses no command that is misframed when listened to (C27): every message
the modem passes on and every message the host has sent is read exactly once, and in order. -/
theorem snoop_once_partial (modem : List (Bytes × FromModem)) (host : List (Bytes × FromHost))
    (hm : ∀ x ∈ modem, Quiet x.1 ∧ x.2.ok) (hh : ∀ x ∈ host, Quiet x.1 ∧ x.2.ok)
    (hacc : ∀ x ∈ modem, ∀ m, x.2 ≠ .refused m) (es : List SnoopEv) (s' : SnoopSt)
    (got : List (Message × Option Err)) (h : Snoop.run (Snoop.init (hostLine host) (modemLine modem)) es = some (s', got))
    (hend : ∀ e, Snoop.step s' e = none) :
    ∃ ms, Interleaving (heardIn modem) (sentIn host) ms ∧ got = ms.map fun m => (m, none) := by
  rw [← heardOrRefused_eq modem hacc]
  exact (snoop_reports_partial modem host hm hh es s' got h).2.1 hend

/-- A dialogue: the host asks for a message to be sent, the modem accepts it and passes on the answer. -/
def aDialogue : List (Bytes × FromModem) × List (Bytes × FromHost) :=
  let m : Message := ⟨0x000000#32, 0x040506#32, 0x0f#8, 0x0011ff#64, []⟩
  ([([], .accepted m), ([0x00#8], .heard ⟨0x040506#32, 0x010203#32, 0x2b#8, 0x0011ff#64, []⟩)], [([], .send m)])

example : (∀ x ∈ aDialogue.1, Quiet x.1 ∧ x.2.ok) ∧ (∀ x ∈ aDialogue.2, Quiet x.1 ∧ x.2.ok) := by
  have h1 : Proper ⟨0x000000#32, 0x040506#32, 0x0f#8, 0x0011ff#64, []⟩ := ⟨by decide, by decide, by decide, by decide⟩
  have h2 : Proper ⟨0x040506#32, 0x010203#32, 0x2b#8, 0x0011ff#64, []⟩ := ⟨by decide, by decide, by decide, by decide⟩
  simp [aDialogue, FromModem.ok, FromHost.ok, h1, h2, quiet_nil, quiet_one]

example : (Snoop.run (Snoop.init (hostLine aDialogue.2) (modemLine aDialogue.1)) [.host, .modem, .modem, .read, .read]).map (·.2) =
    some [(⟨0#32, 0x040506#32, 0x0f#8, 0x0011ff#64, []⟩, none), (⟨0x040506#32, 0x010203#32, 0x2b#8, 0x0011ff#64, []⟩, none)] := by
  decide +kernel

/-- C108 is false of the code: a message whose sending the modem refuses is reported twice. -/
theorem snoop_once_refuted :
    ¬ ∀ (modem : List (Bytes × FromModem)) (host : List (Bytes × FromHost)), (∀ x ∈ modem, Quiet x.1 ∧ x.2.ok) →
      (∀ x ∈ host, Quiet x.1 ∧ x.2.ok) → ∀ es s' got, Snoop.run (Snoop.init (hostLine host) (modemLine modem)) es = some (s', got) →
      (∀ e, Snoop.step s' e = none) → got.length = (heardIn modem).length + (sentIn host).length := by
  intro h
  have hp : Proper ⟨0x000000#32, 0x040506#32, 0x0f#8, 0x0011ff#64, []⟩ := ⟨by decide, by decide, by decide, by decide⟩
  have hr : Snoop.run (Snoop.init (hostLine [([], .send ⟨0x000000#32, 0x040506#32, 0x0f#8, 0x0011ff#64, []⟩)])
      (modemLine [([], .refused ⟨0x000000#32, 0x040506#32, 0x0f#8, 0x0011ff#64, []⟩)])) [.host, .modem, .read, .read] =
      some (⟨[], [], []⟩, [(⟨0#32, 0x040506#32, 0x0f#8, 0x0011ff#64, []⟩, none), (⟨0#32, 0x040506#32, 0x0f#8, 0x0011ff#64, []⟩, none)]) := by
    decide +kernel
  have := h [([], .refused ⟨0x000000#32, 0x040506#32, 0x0f#8, 0x0011ff#64, []⟩)]
    [([], .send ⟨0x000000#32, 0x040506#32, 0x0f#8, 0x0011ff#64, []⟩)]
    (by simp [FromModem.ok, hp, quiet_nil]) (by simp [FromHost.ok, hp, quiet_nil]) _ _ _ hr (by
      intro e; cases e <;> rfl)
  simp [heardIn, sentIn] at this

/-! ### C109 -/

/-- C109 is false of the code: once both streams have ended and everything was read, a read never completes: it neither
returns a message nor an error. This happens at the end of every pair of streams. -/
theorem snoop_end_refuted (rx tx : Bytes) (es : List SnoopEv) (s' : SnoopSt) (got : List (Message × Option Err))
    (_ : Snoop.run (Snoop.init rx tx) es = some (s', got)) (h1 : s'.fromModem = []) (h2 : s'.fromHost = []) (h3 : s'.queue = []) :
    ∀ es' s'' got', Snoop.run s' es' = some (s'', got') → es' = [] ∧ got' = [] := by
  intro es' s'' got' hr
  have := (snoop_stuck s').mpr ⟨h1, h2, h3⟩
  cases es' with
  | nil => simp [Snoop.run] at hr; exact ⟨rfl, hr.2⟩
  | cons e es' => rw [Snoop.run, this e] at hr; simp at hr

theorem snoop_read_now (s : SnoopSt) (h : s.queue ≠ []) : ∃ es s' got, Snoop.run s es = some (s', got) ∧ got ≠ [] := by
  rcases hq : s.queue with _ | ⟨p, q⟩
  · exact absurd hq h
  · exact ⟨[.read], { s with queue := q }, [Message.zero.unmarshalBinary p.payload], by simp [Snoop.run, Snoop.step, hq], by simp⟩

theorem snoop_step_first (s s1 : SnoopSt) (e : SnoopEv) (o : Option (Message × Option Err)) (h : Snoop.step s e = some (s1, o))
    (hr : ∃ es s' got, Snoop.run s1 es = some (s', got) ∧ got ≠ []) :
    ∃ es s' got, Snoop.run s es = some (s', got) ∧ got ≠ [] := by
  obtain ⟨es, s', got, hr, hg⟩ := hr
  refine ⟨e :: es, s', o.toList ++ got, by simp [Snoop.run, h, hr], by simp [hg]⟩

theorem snoop_read_soon_modem (ps : List Packet) (s : SnoopSt) (hs : s.fromModem = ps) (h : ps.filter Snoop.forwarded ≠ []) :
    ∃ es s' got, Snoop.run s es = some (s', got) ∧ got ≠ [] := by
  by_cases hq : s.queue = []
  · induction ps generalizing s with
    | nil => simp at h
    | cons p ps ih =>
      by_cases hf : Snoop.forwarded p = true
      · refine snoop_step_first s { s with fromModem := ps, queue := [p] } .modem none ?_ (snoop_read_now _ (by simp))
        simp [Snoop.step, Snoop.forward, hs, hf, hq]
      · refine snoop_step_first s { s with fromModem := ps } .modem none ?_ (ih _ rfl ?_ hq)
        · simp [Snoop.step, Snoop.forward, hs, hf]
        · simpa [List.filter_cons, hf] using h
  · exact snoop_read_now s hq

theorem snoop_read_soon_host (ps : List Packet) (s : SnoopSt) (hs : s.fromHost = ps) (h : ps.filter Snoop.forwarded ≠ []) :
    ∃ es s' got, Snoop.run s es = some (s', got) ∧ got ≠ [] := by
  by_cases hq : s.queue = []
  · induction ps generalizing s with
    | nil => simp at h
    | cons p ps ih =>
      by_cases hf : Snoop.forwarded p = true
      · refine snoop_step_first s { s with fromHost := ps, queue := [p] } .host none ?_ (snoop_read_now _ (by simp))
        simp [Snoop.step, Snoop.forward, hs, hf, hq]
      · refine snoop_step_first s { s with fromHost := ps } .host none ?_ (ih _ rfl ?_ hq)
        · simp [Snoop.step, Snoop.forward, hs, hf]
        · simpa [List.filter_cons, hf] using h
  · exact snoop_read_now s hq

/-- What is left of C109: a read completes if and only if something is left to read or still to come. -/
theorem snoop_read_progress_partial (s : SnoopSt) :
    (∃ es s' got, Snoop.run s es = some (s', got) ∧ got ≠ []) ↔
      s.queue ≠ [] ∨ s.fromModem.filter Snoop.forwarded ≠ [] ∨ s.fromHost.filter Snoop.forwarded ≠ [] := by
  constructor
  · rintro ⟨es, s', got, hr, hg⟩
    obtain ⟨a, b, c, out, h1, h2, h3, h4, rfl⟩ := snoop_run_inv es s s' got hr
    by_contra hn
    push Not at hn
    obtain ⟨n1, n2, n3⟩ := hn
    rw [n2] at h1
    rw [n3] at h2
    have ha : a = [] := by rw [eq_comm, List.append_eq_nil_iff] at h1; exact h1.1
    have hb : b = [] := by rw [eq_comm, List.append_eq_nil_iff] at h2; exact h2.1
    subst ha hb
    cases h3
    rw [n1, List.nil_append, eq_comm, List.append_eq_nil_iff] at h4
    exact hg (by rw [h4.1]; rfl)
  · rintro (h | h | h)
    · exact snoop_read_now s h
    · exact snoop_read_soon_modem _ s rfl h
    · exact snoop_read_soon_host _ s rfl h

/-- Writing is refused. -/
theorem snoop_write (m : Message) : ∃ e, Snoop.write m = (none, some e) := ⟨_, rfl⟩

end Insteon
