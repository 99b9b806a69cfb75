import Verif.Model.Isnoop
import Verif.Lemmas.Incremental
import Verif.Props.Snoop
import Verif.Props.Monitor

namespace Insteon
open Spec
open Monitor (MonInv)

/-! ### Helpers -/

theorem readMany_length (ia : Bool) (fuel : Nat) : ∀ (n : Nat) (a : Bytes) (l : Option Byte),
    (readMany ia fuel n ⟨a, l⟩).length ≤ a.length
  | 0, _, _ => by simp [readMany]
  | n + 1, a, l => by
    unfold readMany
    rcases hr : readPacket ia fuel ⟨a, l⟩ with _ | ⟨p | e | _, ⟨a1, l1⟩⟩
    · simp
    · rcases reader_safe ia fuel a l _ _ hr with ⟨p', noise, body, h1, h2, -⟩ | h | h
      · have := readMany_length ia fuel n a1 l1
        have h2' := congrArg List.length h2
        simp only [List.length_append, List.length_cons] at h2' ⊢
        omega
      · simp at h
      · simp at h
    · simp
    · simp

theorem packetsIn_length (ia : Bool) (a : Bytes) : (packetsIn ia a).length ≤ a.length := readMany_length ia _ _ a none

theorem interleaving_snoc_left {α : Type} {a b c : List α} (x : α) (h : Interleaving a b c) :
    Interleaving (a ++ [x]) b (c ++ [x]) := by
  induction h with
  | nil => exact .left x .nil
  | left y _ ih => exact .left y ih
  | right y _ ih => exact .right y ih

theorem interleaving_snoc_right {α : Type} {a b c : List α} (x : α) (h : Interleaving a b c) :
    Interleaving a (b ++ [x]) (c ++ [x]) := by
  induction h with
  | nil => exact .right x .nil
  | left y _ ih => exact .left y ih
  | right y _ ih => exact .right y ih

theorem decode_error (p : Packet) (e : Err) (h : (snoopDecode p).2 = some e) : e = .wrapped .bufferTooShort := by
  unfold snoopDecode Message.unmarshalBinary at h
  split at h
  · dsimp only at h
    split_ifs at h
    · simpa using h.symm
  · simp at h; exact h.symm

namespace Isnoop

/-- What is known of a direction. -/
structure LaneOk (side : Side) (input : Bytes) (l : Lane) : Prop where
  whole : l.out ++ l.chunk ++ l.src = input
  teed : l.seen ++ l.tee = l.out ++ l.chunk
  idle : l.tee.length ≤ l.chunk.length
  handed : l.handed ≤ (packetsIn side.ignoreAck l.seen).length

/-- The messages' packets a direction dealt with. -/
def dealt (side : Side) (l : Lane) : List Packet := ((packetsIn side.ignoreAck l.seen).take l.handed).filter Snoop.forwarded

theorem LaneOk.out_prefix {side : Side} {input : Bytes} {l : Lane} (h : LaneOk side input l) : l.out <+: input :=
  ⟨l.chunk ++ l.src, by rw [← h.whole, List.append_assoc]⟩

theorem LaneOk.seen_prefix {side : Side} {input : Bytes} {l : Lane} (h : LaneOk side input l) : l.seen <+: input :=
  ⟨l.tee ++ l.src, by rw [← h.whole, ← List.append_assoc, h.teed]⟩

theorem LaneOk.dealt_prefix {side : Side} {input : Bytes} {l : Lane} (h : LaneOk side input l) :
    dealt side l <+: (packetsIn side.ignoreAck input).filter Snoop.forwarded := by
  have h1 : (packetsIn side.ignoreAck l.seen).take l.handed <+: packetsIn side.ignoreAck input :=
    (List.take_prefix _ _).trans (packetsIn_prefix _ h.seen_prefix)
  exact h1.filter _

theorem start_ok (side : Side) (input : Bytes) : LaneOk side input (Lane.start input) :=
  ⟨by simp [Lane.start], by simp [Lane.start], by simp [Lane.start], by simp [Lane.start]⟩

theorem laneRead_ok {side : Side} {input : Bytes} {l l' : Lane} {n : Nat} (h : LaneOk side input l) (hr : laneRead l n = some l') :
    LaneOk side input l' ∧ dealt side l' = dealt side l := by
  unfold laneRead at hr
  split_ifs at hr with hc
  simp only [Option.some.injEq] at hr
  subst hr
  obtain ⟨hc, -⟩ := hc
  have ht : l.tee = [] := by
    have := h.idle; rw [hc] at this; exact List.eq_nil_of_length_eq_zero (by simpa using this)
  refine ⟨⟨?_, ?_, by simp, h.handed⟩, rfl⟩
  · have := h.whole
    rw [hc] at this
    simpa using this
  · have := h.teed
    rw [hc, ht] at this
    simpa using this

theorem laneTake_ok {side : Side} {input : Bytes} {l l' : Lane} {n : Nat} (h : LaneOk side input l)
    (hr : laneTake side l n = some l') : LaneOk side input l' ∧ dealt side l' = dealt side l := by
  unfold laneTake at hr
  split_ifs at hr with hc
  simp only [Option.some.injEq] at hr
  subst hr
  have hp := packetsIn_append side.ignoreAck l.seen (l.tee.take n)
  refine ⟨⟨h.whole, ?_, ?_, h.handed.trans hp.length_le⟩, ?_⟩
  · have := h.teed
    simpa using this
  · have := h.idle
    simp only [List.length_drop]; omega
  · unfold dealt
    dsimp only
    obtain ⟨t, ht⟩ := hp
    rw [← ht, List.take_append_of_le_length h.handed]

theorem laneWrite_ok {side : Side} {input : Bytes} {l l' : Lane} (h : LaneOk side input l) (hr : laneWrite l = some l') :
    LaneOk side input l' ∧ dealt side l' = dealt side l := by
  unfold laneWrite at hr
  split_ifs at hr with hc
  simp only [Option.some.injEq] at hr
  subst hr
  refine ⟨⟨?_, ?_, ?_, h.handed⟩, rfl⟩
  · simpa using h.whole
  · simpa using h.teed
  · simp [hc.2]

theorem lanePass_ok {side : Side} {input : Bytes} {l l' : Lane} {q q' : List Packet} (h : LaneOk side input l)
    (hr : lanePass side l q = some (l', q')) :
    LaneOk side input l' ∧ ∃ new, dealt side l' = dealt side l ++ new ∧ q' = q ++ new ∧ new.length ≤ 1
      ∧ (new = [] ∨ q.length < Snoop.cap) ∧ l'.handed = l.handed + 1 ∧ l'.seen = l.seen ∧ l'.src = l.src ∧ l'.chunk = l.chunk ∧ l'.tee = l.tee := by
  unfold lanePass at hr
  split at hr
  · simp at hr
  · rename_i p hp
    obtain ⟨hlt, hget⟩ := List.getElem?_eq_some_iff.mp hp
    have hk : LaneOk side input { l with handed := l.handed + 1 } := ⟨h.whole, h.teed, h.idle, hlt⟩
    have hd : dealt side { l with handed := l.handed + 1 } = dealt side l ++ [p].filter Snoop.forwarded := by
      unfold dealt
      dsimp only
      rw [← List.take_append_getElem hlt, hget, List.filter_append]
    split_ifs at hr with hf hq
    · simp only [Option.some.injEq, Prod.mk.injEq] at hr
      obtain ⟨rfl, rfl⟩ := hr
      exact ⟨hk, [p], by simpa [hf] using hd, rfl, by simp, Or.inr hq, rfl, rfl, rfl, rfl, rfl⟩
    · simp only [Option.some.injEq, Prod.mk.injEq] at hr
      obtain ⟨rfl, rfl⟩ := hr
      exact ⟨hk, [], by simpa [hf] using hd, by simp, by simp, Or.inl rfl, rfl, rfl, rfl, rfl, rfl⟩

/-- What is known of the monitor, which has printed the messages of `popped`. -/
structure MonOk (s : Isnoop) (popped : List Packet) (msgs : List Message) : Prop where
  mon : ∃ passed, MonInv s.mon passed
  queue : s.mon.inner.length ≤ Snoop.cap
  order : Interleaving (dealt .modem s.modem) (dealt .host s.host) (popped ++ s.mon.inner)
  out : ∃ ls : List Bytes, s.mon.out = ls.flatten ∧ List.Forall₂ Shows msgs ls
  alive : s.alive = true → popped.map snoopDecode = msgs.map fun m => (m, none)
  dead : s.alive = false → ∃ ps bad, popped = ps ++ [bad] ∧ ps.map snoopDecode = (msgs.map fun m => (m, none)) ∧ (snoopDecode bad).2 ≠ none

/-- What is known of the program. -/
structure Ok (stdin modem : Bytes) (s : Isnoop) : Prop where
  modem : LaneOk .modem modem s.modem
  host : LaneOk .host stdin s.host
  mon : ∃ popped msgs, MonOk s popped msgs

theorem init_ok (stdin modem : Bytes) : Ok stdin modem (init stdin modem) :=
  ⟨start_ok _ _, start_ok _ _, [], [], ⟨[], Monitor.init_inv _⟩, by simp [init, Monitor.init],
    by simpa [init, Monitor.init, dealt, Lane.start] using Interleaving.nil, ⟨[], by simp [init, Monitor.init]⟩,
    by simp, by simp [init]⟩

theorem setLane_ok {stdin modem : Bytes} {s : Isnoop} {side : Side} {l : Lane} (h : Ok stdin modem s)
    (hl : LaneOk side (match side with | .modem => modem | .host => stdin) l) (hd : dealt side l = dealt side (s.lane side)) :
    Ok stdin modem (s.setLane side l) := by
  obtain ⟨h1, h2, popped, msgs, h3⟩ := h
  cases side with
  | modem =>
    refine ⟨hl, h2, popped, msgs, h3.mon, h3.queue, ?_, h3.out, h3.alive, h3.dead⟩
    have := h3.order
    simp only [lane] at hd
    rw [← hd] at this
    exact this
  | host =>
    refine ⟨h1, hl, popped, msgs, h3.mon, h3.queue, ?_, h3.out, h3.alive, h3.dead⟩
    have := h3.order
    simp only [lane] at hd
    rw [← hd] at this
    exact this

theorem lane_ok {stdin modem : Bytes} {s : Isnoop} (h : Ok stdin modem s) (side : Side) :
    LaneOk side (match side with | .modem => modem | .host => stdin) (s.lane side) := by
  cases side with
  | modem => exact h.modem
  | host => exact h.host

/-- One round of the monitor. -/
theorem monitorStep_ok {errText : Err → Bytes} (he : ∀ e, 0x0a#8 ∉ errText e) (db : Option (Address → Option DeviceInfo))
    {stdin modem : Bytes} {s s' : Isnoop} (h : Ok stdin modem s) (hs : monitorStep errText db s = some s') :
    Ok stdin modem s' ∧ s'.modem = s.modem ∧ s'.host = s.host ∧ s'.over = s.over ∧ s.alive = true
      ∧ ∃ p, s.mon.inner = p :: s'.mon.inner ∧ s'.alive = (snoopDecode p).2.isNone := by
  obtain ⟨h1, h2, popped, msgs, ⟨passed, h3⟩, h4, h5, ⟨ls, h6, h6'⟩, h7, h8⟩ := h
  unfold monitorStep at hs
  split_ifs at hs with hc
  obtain ⟨ha, hq⟩ := hc
  obtain ⟨p, q, hpq⟩ : ∃ p q, s.mon.inner = p :: q := by
    cases hm : s.mon.inner with
    | nil => exact absurd hm hq
    | cons p q => exact ⟨p, q, rfl⟩
  have hread : channelIO.read s.mon.inner = (q, .ret (some (snoopDecode p).1) (snoopDecode p).2) := by
    rw [hpq]; rfl
  have hb : ¬ MonOp.read.broken (MonOp.read.perform channelIO s.mon.inner).2 := by
    simp [MonOp.perform, hread, MonOp.broken]
  obtain ⟨m1, m2, m3, ls', m4, m5⟩ := Monitor.monitor_step (errText := errText) he db channelIO .read s.mon h3 hb
  simp only [MonOp.perform, hread] at m1 m2 m3 m4 m5
  rcases hr : (Monitor.over errText db channelIO).read s.mon with ⟨mon, res⟩
  rw [hr] at m1 m2 m3 m4 hs
  dsimp only at m1 m2 m3 m4 hs
  subst m1
  have hord : Interleaving (dealt .modem s.modem) (dealt .host s.host) ((popped ++ [p]) ++ mon.inner) := by
    rw [hpq] at h5
    rw [m2]
    simpa using h5
  have hlen : mon.inner.length ≤ Snoop.cap := by
    rw [m2]; rw [hpq] at h4; simp at h4; omega
  cases hd : (snoopDecode p).2 with
  | none =>
    rw [hd] at hs m5
    simp only [Option.some.injEq] at hs
    subst hs
    refine ⟨⟨h1, h2, popped ++ [p], msgs ++ [(snoopDecode p).1], ⟨_, m3⟩, hlen, hord, ⟨ls ++ ls', ?_, ?_⟩, ?_, ?_⟩,
      rfl, rfl, rfl, ha, p, by rw [hpq]; exact congrArg _ m2.symm, by simp [ha, hd]⟩
    · dsimp only; rw [m4, h6]; simp
    · exact List.rel_append h6' m5
    · intro _
      rw [List.map_append, List.map_append, h7 ha]
      simp [← hd]
    · dsimp only; rw [ha]; simp
  | some e =>
    have he' := decode_error p e hd
    rw [hd] at hs m5
    simp only [Option.some.injEq] at hs
    subst hs
    have hni : e.is .insReadTimeout = false := by rw [he']; decide
    simp only [MonOp.seen, List.forall₂_nil_left_iff] at m5
    subst m5
    refine ⟨⟨h1, h2, popped ++ [p], msgs, ⟨_, m3⟩, hlen, hord, ⟨ls, ?_, h6'⟩, ?_, ?_⟩, rfl, rfl, rfl, ha, p, by rw [hpq]; exact congrArg _ m2.symm, by simp [hni, hd]⟩
    · dsimp only; rw [m4, h6]; simp
    · dsimp only; rw [hni]; simp
    · intro _
      exact ⟨popped, p, rfl, h7 ha, by rw [hd]; simp⟩

theorem step_ok {errText : Err → Bytes} (he : ∀ e, 0x0a#8 ∉ errText e) (db : Option (Address → Option DeviceInfo))
    {stdin modem : Bytes} {s s' : Isnoop} {e : IsnoopEv} (h : Ok stdin modem s) (hs : step errText db s e = some s') :
    Ok stdin modem s' := by
  unfold step at hs
  by_cases hov : s.over = true
  · rw [if_pos hov] at hs; simp at hs
  rw [if_neg hov] at hs
  have hl := lane_ok h
  cases e with
  | read side n =>
    simp only [Option.map_eq_some_iff] at hs
    obtain ⟨l, hr, rfl⟩ := hs
    obtain ⟨a, b⟩ := laneRead_ok (hl side) hr
    exact setLane_ok h a b
  | take side n =>
    simp only [Option.map_eq_some_iff] at hs
    obtain ⟨l, hr, rfl⟩ := hs
    obtain ⟨a, b⟩ := laneTake_ok (hl side) hr
    exact setLane_ok h a b
  | write side =>
    simp only [Option.map_eq_some_iff] at hs
    obtain ⟨l, hr, rfl⟩ := hs
    obtain ⟨a, b⟩ := laneWrite_ok (hl side) hr
    exact setLane_ok h a b
  | pass side =>
    simp only [Option.map_eq_some_iff] at hs
    obtain ⟨⟨l, q⟩, hr, rfl⟩ := hs
    obtain ⟨a, new, b1, b2, b3, b4, -⟩ := lanePass_ok (hl side) hr
    obtain ⟨h1, h2, popped, msgs, ⟨passed, h3⟩, h4, h5, h6, h7, h8⟩ := h
    have hnew : new = [] ∨ ∃ p, new = [p] := by
      rcases new with _ | ⟨p, _ | _⟩
      · exact Or.inl rfl
      · exact Or.inr ⟨p, rfl⟩
      · simp at b3
    have hq : q.length ≤ Snoop.cap := by
      rcases b4 with rfl | b4
      · rw [b2, List.append_nil]; exact h4
      · rw [b2, List.length_append]; omega
    have hmon : MonInv { s.mon with inner := q } passed := ⟨h3.wf, h3.cap, h3.recent⟩
    cases side with
    | modem =>
      refine ⟨a, h2, popped, msgs, ⟨passed, hmon⟩, hq, ?_, h6, h7, h8⟩
      show Interleaving (dealt .modem l) (dealt .host s.host) (popped ++ q)
      simp only [lane] at b1
      rw [b1, b2, ← List.append_assoc]
      rcases hnew with rfl | ⟨p, rfl⟩
      · simpa using h5
      · exact interleaving_snoc_left p h5
    | host =>
      refine ⟨h1, a, popped, msgs, ⟨passed, hmon⟩, hq, ?_, h6, h7, h8⟩
      show Interleaving (dealt .modem s.modem) (dealt .host l) (popped ++ q)
      simp only [lane] at b1
      rw [b1, b2, ← List.append_assoc]
      rcases hnew with rfl | ⟨p, rfl⟩
      · simpa using h5
      · exact interleaving_snoc_right p h5
  | print => exact (monitorStep_ok he db h hs).1
  | eof =>
    dsimp only at hs
    split_ifs at hs
    simp only [Option.some.injEq] at hs
    subst hs
    obtain ⟨h1, h2, popped, msgs, h3⟩ := h
    exact ⟨h1, h2, popped, msgs, ⟨h3.mon, h3.queue, h3.order, h3.out, h3.alive, h3.dead⟩⟩

theorem run_ok {errText : Err → Bytes} (he : ∀ e, 0x0a#8 ∉ errText e) (db : Option (Address → Option DeviceInfo))
    {stdin modem : Bytes} : ∀ {es : List IsnoopEv} {s s' : Isnoop}, Ok stdin modem s → run errText db s es = some s' →
    Ok stdin modem s'
  | [], s, s', h, hr => by simp only [run, Option.some.injEq] at hr; exact hr ▸ h
  | e :: es, s, s', h, hr => by
    rw [run] at hr
    cases hs : step errText db s e with
    | none => simp [hs] at hr
    | some s1 => rw [hs] at hr; exact run_ok he db (step_ok he db h hs) hr

/-! ### C133 -/

/-- C133: whatever the modem and the terminal send and in whatever order the goroutines run, what comes out on either side is what
went in on the other side, unaltered and in order, as far as it got. -/
theorem isnoop_unaltered (errText : Err → Bytes) (he : ∀ e, 0x0a#8 ∉ errText e) (db : Option (Address → Option DeviceInfo))
    (stdin modem : List (BitVec 8)) (es : List IsnoopEv) (s : Isnoop) (h : run errText db (init stdin modem) es = some s) :
    s.modem.out <+: modem ∧ s.host.out <+: stdin :=
  have := run_ok he db (init_ok stdin modem) h
  ⟨this.modem.out_prefix, this.host.out_prefix⟩

theorem popped_decoded {l : List Packet} {ms : List Message} {ps : List Packet} (hl : l.map snoopDecode = ms.map fun m => (m, none))
    (hp : ps <+: l) : ∃ ns, ns <+: ms ∧ ps.map snoopDecode = ns.map fun m => (m, none) := by
  obtain ⟨t, rfl⟩ := hp
  refine ⟨ms.take ps.length, List.take_prefix _ _, ?_⟩
  have := congrArg (List.take ps.length) hl
  rw [← List.map_take] at this
  simpa [← List.map_take] using this

/-- What was printed is a line for each message seen, as far as it got. -/
theorem printed {stdin modem : Bytes} {s : Isnoop} (h : Ok stdin modem s) {heard sent : List Message}
    (hm : ((packetsIn false modem).filter Snoop.forwarded).map snoopDecode = heard.map fun m => (m, none))
    (hh : ((packetsIn true stdin).filter Snoop.forwarded).map snoopDecode = sent.map fun m => (m, none)) :
    s.alive = true ∧ ∃ (a b ms : List Message) (ls : List Bytes), a <+: heard ∧ b <+: sent ∧ Interleaving a b ms ∧
      List.Forall₂ Shows ms ls ∧ s.mon.out = ls.flatten ∧
      (s.mon.inner = [] → dealt .modem s.modem = (packetsIn false modem).filter Snoop.forwarded →
        dealt .host s.host = (packetsIn true stdin).filter Snoop.forwarded → a = heard ∧ b = sent) := by
  obtain ⟨h1, h2, popped, msgs, h3, h4, h5, ⟨ls, h6, h6'⟩, h7, h8⟩ := h
  obtain ⟨a1, b1, ha, hb, hi⟩ := interleaving_prefix _ _ _ h5 popped s.mon.inner rfl
  have ha' := ha.trans h1.dealt_prefix
  have hb' := hb.trans h2.dealt_prefix
  obtain ⟨x, hx, hx'⟩ := popped_decoded hm ha'
  obtain ⟨y, hy, hy'⟩ := popped_decoded hh hb'
  have hi' := interleaving_map snoopDecode _ _ _ hi
  rw [hx', hy'] at hi'
  obtain ⟨ms, hms, heq⟩ := interleaving_map_inv _ _ _ _ hi'
  have hal : s.alive = true := by
    by_contra hd
    obtain ⟨ps, bad, e1, -, e3⟩ := h8 (by simpa using hd)
    have : snoopDecode bad ∈ popped.map snoopDecode := by rw [e1]; simp
    rw [heq] at this
    simp only [List.mem_map] at this
    obtain ⟨m, -, hm'⟩ := this
    rw [← hm'] at e3
    simp at e3
  have hmm : ms = msgs := by
    have := h7 hal
    rw [heq] at this
    exact (List.map_injective_iff.mpr (fun x y h => by simpa using h)) this
  subst hmm
  refine ⟨hal, x, y, ms, ls, hx, hy, hms, h6', h6, ?_⟩
  intro hq hdm hdh
  rw [hq, List.append_nil] at h5
  have hi2 := interleaving_map snoopDecode _ _ _ h5
  have l1 : ∀ {α : Type} {a b c : List α}, Interleaving a b c → c.length = a.length + b.length := by
    intro α a b c h
    induction h with
    | nil => rfl
    | left _ _ ih => simp only [List.length_cons]; omega
    | right _ _ ih => simp only [List.length_cons]; omega
  have e1 := l1 h5
  have e2 := l1 hms
  have e3 := congrArg List.length heq
  have e4 := congrArg List.length hm
  have e5 := congrArg List.length hh
  simp only [List.length_map] at e3 e4 e5
  rw [hdm, hdh] at e1
  have := hx.length_le
  have := hy.length_le
  exact ⟨hx.eq_of_length (by omega), hy.eq_of_length (by omega)⟩

/-- What is left to do: every step takes something from it. -/
def work (s : Isnoop) : Nat :=
  5 * (s.modem.src.length + s.host.src.length) + (s.modem.chunk.length + s.host.chunk.length)
    + 3 * (s.modem.tee.length + s.host.tee.length)
    + 2 * ((s.modem.seen.length - s.modem.handed) + (s.host.seen.length - s.host.handed)) + s.mon.inner.length
    + (!s.over).toNat

/-- The part of it in a direction. -/
def laneWork (l : Lane) : Nat := 5 * l.src.length + l.chunk.length + 3 * l.tee.length + 2 * (l.seen.length - l.handed)

theorem work_eq (s : Isnoop) : work s = laneWork s.modem + laneWork s.host + s.mon.inner.length + (!s.over).toNat := by
  unfold work laneWork; omega

theorem step_work {errText : Err → Bytes} (he : ∀ e, 0x0a#8 ∉ errText e) (db : Option (Address → Option DeviceInfo))
    {stdin modem : Bytes} {s s' : Isnoop} {e : IsnoopEv} (h : Ok stdin modem s) (hs : step errText db s e = some s') :
    work s' + 1 ≤ work s := by
  have hl := lane_ok h
  have hset : ∀ (side : Side) (l : Lane), laneWork l + 1 ≤ laneWork (s.lane side) → work (s.setLane side l) + 1 ≤ work s := by
    intro side l h
    rw [work_eq, work_eq]
    cases side <;> simp only [setLane, lane] at h ⊢ <;> omega
  unfold step at hs
  by_cases hov : s.over = true
  · rw [if_pos hov] at hs; simp at hs
  rw [if_neg hov] at hs
  cases e with
  | read side n =>
    simp only [Option.map_eq_some_iff] at hs
    obtain ⟨l, hr, rfl⟩ := hs
    apply hset
    unfold laneRead at hr
    split_ifs at hr with hc
    simp only [Option.some.injEq] at hr
    subst hr
    obtain ⟨hc, hn, -, hn'⟩ := hc
    have ht : (s.lane side).tee = [] := by
      have := (hl side).idle; rw [hc] at this; exact List.eq_nil_of_length_eq_zero (by simpa using this)
    unfold laneWork
    simp only [hc, ht, List.length_drop, List.length_take, List.length_nil]
    omega
  | take side n =>
    simp only [Option.map_eq_some_iff] at hs
    obtain ⟨l, hr, rfl⟩ := hs
    apply hset
    unfold laneTake at hr
    split_ifs at hr with hc
    simp only [Option.some.injEq] at hr
    subst hr
    obtain ⟨hc, hn, -, hn'⟩ := hc
    unfold laneWork
    simp only [List.length_drop, List.length_take, List.length_append]
    omega
  | write side =>
    simp only [Option.map_eq_some_iff] at hs
    obtain ⟨l, hr, rfl⟩ := hs
    apply hset
    unfold laneWrite at hr
    split_ifs at hr with hc
    simp only [Option.some.injEq] at hr
    subst hr
    have := List.length_pos_iff.mpr hc.1
    unfold laneWork
    simp only [List.length_nil]
    omega
  | pass side =>
    simp only [Option.map_eq_some_iff] at hs
    obtain ⟨⟨l, q⟩, hr, rfl⟩ := hs
    have hlt : (s.lane side).handed < (s.lane side).seen.length := by
      have hp := packetsIn_length side.ignoreAck (s.lane side).seen
      have : (s.lane side).handed < (packetsIn side.ignoreAck (s.lane side).seen).length := by
        by_contra hge
        unfold lanePass at hr
        rw [List.getElem?_eq_none (by omega)] at hr
        simp at hr
      omega
    obtain ⟨-, new, -, b2, b3, -, c1, c2, c3, c4, c5⟩ := lanePass_ok (hl side) hr
    have hq : q.length ≤ s.mon.inner.length + 1 := by rw [b2, List.length_append]; omega
    have hw : laneWork l + 2 ≤ laneWork (s.lane side) := by
      unfold laneWork
      rw [c1, c2, c3, c4, c5]
      omega
    rw [work_eq, work_eq]
    cases side <;> simp only [setLane, lane] at hw ⊢ <;> omega
  | print =>
    obtain ⟨-, h1, h2, h3, -, p, h4, -⟩ := monitorStep_ok he db h hs
    rw [work_eq, work_eq, h1, h2, h3, h4, List.length_cons]
    omega
  | eof =>
    dsimp only at hs
    split_ifs at hs
    simp only [Option.some.injEq] at hs
    subst hs
    simp only [work, hov]
    simp

theorem run_work {errText : Err → Bytes} (he : ∀ e, 0x0a#8 ∉ errText e) (db : Option (Address → Option DeviceInfo))
    {stdin modem : Bytes} : ∀ {es : List IsnoopEv} {s s' : Isnoop}, Ok stdin modem s → run errText db s es = some s' →
    work s' + es.length ≤ work s
  | [], s, s', h, hr => by simp only [run, Option.some.injEq] at hr; simp [hr]
  | e :: es, s, s', h, hr => by
    rw [run] at hr
    cases hs : step errText db s e with
    | none => simp [hs] at hr
    | some s1 =>
      rw [hs] at hr
      have h1 := step_work he db h hs
      have h2 := run_work he db (step_ok he db h hs) hr
      simp only [List.length_cons]
      omega

theorem run_open {errText : Err → Bytes} (he : ∀ e, 0x0a#8 ∉ errText e) (db : Option (Address → Option DeviceInfo))
    {stdin modem : Bytes} : ∀ {es : List IsnoopEv} {s s' : Isnoop}, Ok stdin modem s → run errText db s es = some s' →
    IsnoopEv.eof ∉ es → s.over = false → s'.over = false
  | [], s, s', _, hr, _, ho => by simp only [run, Option.some.injEq] at hr; exact hr ▸ ho
  | e :: es, s, s', h, hr, hn, ho => by
    rw [run] at hr
    cases hs : step errText db s e with
    | none => simp [hs] at hr
    | some s1 =>
      rw [hs] at hr
      refine run_open he db (step_ok he db h hs) hr (fun hm => hn (by simp [hm])) ?_
      unfold step at hs
      rw [if_neg (by simp [ho])] at hs
      have hset : ∀ (side : Side) (l : Lane), (s.setLane side l).over = s.over := fun side l => by cases side <;> rfl
      cases e with
      | read side n => simp only [Option.map_eq_some_iff] at hs; obtain ⟨l, -, rfl⟩ := hs; rw [hset, ho]
      | take side n => simp only [Option.map_eq_some_iff] at hs; obtain ⟨l, -, rfl⟩ := hs; rw [hset, ho]
      | write side => simp only [Option.map_eq_some_iff] at hs; obtain ⟨l, -, rfl⟩ := hs; rw [hset, ho]
      | pass side => simp only [Option.map_eq_some_iff] at hs; obtain ⟨l, -, rfl⟩ := hs; dsimp only; rw [hset, ho]
      | print => obtain ⟨-, -, -, h3, -⟩ := monitorStep_ok he db h hs; rw [h3, ho]
      | eof => simp at hn

/-- When nothing more can be done and the monitor goes on, everything is done. -/
theorem stuck_done (errText : Err → Bytes) (db : Option (Address → Option DeviceInfo))
    {stdin modem : Bytes} {s : Isnoop} (h : Ok stdin modem s) (ha : s.alive = true) (ho : s.over = false)
    (hs : ∀ e, e ≠ .eof → step errText db s e = none) :
    s.mon.inner = [] ∧ ∀ side, (s.lane side).out = (match side with | .modem => modem | .host => stdin) ∧
      dealt side (s.lane side) =
        (packetsIn side.ignoreAck (match side with | .modem => modem | .host => stdin)).filter Snoop.forwarded := by
  have hq : s.mon.inner = [] := by
    by_contra hq
    have := hs .print (by simp)
    rw [step, if_neg (by simp [ho])] at this
    try dsimp only at this
    rw [monitorStep, if_pos ⟨ha, hq⟩] at this
    split at this <;> simp at this
  refine ⟨hq, fun side => ?_⟩
  have hl := lane_ok h side
  have hhanded : (s.lane side).handed = (packetsIn side.ignoreAck (s.lane side).seen).length := by
    by_contra hne
    have hlt : (s.lane side).handed < (packetsIn side.ignoreAck (s.lane side).seen).length := by have := hl.handed; omega
    have := hs (.pass side) (by simp)
    rw [step, if_neg (by simp [ho])] at this
    try dsimp only at this
    rw [lanePass, List.getElem?_eq_getElem hlt, hq] at this
    dsimp only at this
    split at this <;> simp at this
  have htee : (s.lane side).tee = [] := by
    by_contra hne
    have hpos := List.length_pos_iff.mpr hne
    have := hs (.take side 1) (by simp)
    rw [step, if_neg (by simp [ho])] at this
    try dsimp only at this
    unfold laneTake at this
    rw [if_pos ⟨hhanded, by omega, by decide, by omega⟩] at this
    simp at this
  have hchunk : (s.lane side).chunk = [] := by
    by_contra hne
    have := hs (.write side) (by simp)
    rw [step, if_neg (by simp [ho])] at this
    try dsimp only at this
    unfold laneWrite at this
    rw [if_pos ⟨hne, htee⟩] at this
    simp at this
  have hsrc : (s.lane side).src = [] := by
    by_contra hne
    have hpos := List.length_pos_iff.mpr hne
    have := hs (.read side 1) (by simp)
    rw [step, if_neg (by simp [ho])] at this
    try dsimp only at this
    unfold laneRead at this
    rw [if_pos ⟨hchunk, by omega, by decide, by omega⟩] at this
    simp at this
  have h1 := hl.whole
  have h2 := hl.teed
  rw [hchunk, hsrc] at h1
  rw [htee, hchunk] at h2
  simp only [List.append_nil] at h1 h2
  refine ⟨h1, ?_⟩
  unfold dealt
  rw [hhanded, List.take_length, h2, h1]

/-- C134 while the terminal stays connected and only whole messages come in: whatever the order in which the goroutines run, the program
does only a bounded number of steps more than it is given bytes, and when it can do no more it has passed on everything that came
in on either side and printed a line for each message, in the order of each side. -/
theorem isnoop_delivers_partial (errText : Err → Bytes) (he : ∀ e, 0x0a#8 ∉ errText e) (db : Option (Address → Option DeviceInfo))
    (modem : List (Bytes × FromModem)) (host : List (Bytes × FromHost))
    (hm : ∀ x ∈ modem, Quiet x.1 ∧ x.2.ok) (hh : ∀ x ∈ host, Quiet x.1 ∧ x.2.ok) (es : List IsnoopEv) (s : Isnoop)
    (h : run errText db (init (hostLine host) (modemLine modem)) es = some s) :
    (∃ (a b ms : List Message) (ls : List Bytes), a <+: heardOrRefusedIn modem ∧ b <+: sentIn host ∧ Interleaving a b ms ∧
      List.Forall₂ Shows ms ls ∧ s.mon.out = ls.flatten) ∧
    (.eof ∉ es → (∀ e, e ≠ .eof → step errText db s e = none) →
      s.modem.out = modemLine modem ∧ s.host.out = hostLine host ∧
      ∃ (ms : List Message) (ls : List Bytes), Interleaving (heardOrRefusedIn modem) (sentIn host) ms ∧
        List.Forall₂ Shows ms ls ∧ s.mon.out = ls.flatten) ∧
    es.length ≤ 5 * ((modemLine modem).length + (hostLine host).length) + 1 := by
  have hi := init_ok (hostLine host) (modemLine modem)
  have hok := run_ok he db hi h
  obtain ⟨hal, a, b, ms, ls, p1, p2, p3, p4, p5, p6⟩ := printed hok (modem_stream modem hm) (host_stream host hh)
  refine ⟨⟨a, b, ms, ls, p1, p2, p3, p4, p5⟩, ?_, ?_⟩
  · intro hn hst
    have hov := run_open he db hi h hn rfl
    obtain ⟨hq, hd⟩ := stuck_done errText db hok hal hov hst
    obtain ⟨rfl, rfl⟩ := p6 hq (hd .modem).2 (hd .host).2
    exact ⟨(hd .modem).1, (hd .host).1, ms, ls, p3, p4, p5⟩
  · have := run_work he db hi h
    have hw : work (init (hostLine host) (modemLine modem)) = 5 * ((modemLine modem).length + (hostLine host).length) + 1 := by
      simp [work, init, Lane.start, Monitor.init]
    omega

/-- Non-vacuity: the dialogue of C108 in some order of the goroutines, until nothing more can be done. -/
example : ((run (fun _ => []) none (init (hostLine aDialogue.2) (modemLine aDialogue.1))
      [.read .host 8, .take .host 3, .take .host 5, .read .modem 4, .write .host, .pass .host, .take .modem 4, .write .modem,
       .read .modem 17, .take .modem 17, .write .modem, .pass .modem, .print, .pass .modem, .print]).map fun s =>
      (decide (s.host.out = hostLine aDialogue.2 ∧ s.modem.out = modemLine aDialogue.1), s.mon.out)) =
    some (true, lit "SD 00.00.00 -> 04.05.06 3:3 Light On(255)\nSD 04.05.06 -> 01.02.03 3:2 Light On(255) ACK\n") := by
  decide +kernel

/-- A stretch of an interleaving is an interleaving of stretches. -/
theorem interleaving_split {α : Type} {a b c : List α} (h : Interleaving a b c) : ∀ {x y : List α}, c = x ++ y →
    ∃ a1 a2 b1 b2, a = a1 ++ a2 ∧ b = b1 ++ b2 ∧ Interleaving a1 b1 x ∧ Interleaving a2 b2 y := by
  induction h with
  | nil =>
    intro x y hc
    obtain ⟨rfl, rfl⟩ : x = [] ∧ y = [] := by simpa using hc.symm
    exact ⟨[], [], [], [], rfl, rfl, .nil, .nil⟩
  | @left z a b c hi ih =>
    intro x y hc
    cases x with
    | nil =>
      simp only [List.nil_append] at hc
      subst hc
      exact ⟨[], z :: a, [], b, rfl, rfl, .nil, .left z hi⟩
    | cons w x =>
      simp only [List.cons_append, List.cons.injEq] at hc
      obtain ⟨rfl, hc⟩ := hc
      obtain ⟨a1, a2, b1, b2, rfl, rfl, h1, h2⟩ := ih hc
      exact ⟨z :: a1, a2, b1, b2, rfl, rfl, .left z h1, h2⟩
  | @right z a b c hi ih =>
    intro x y hc
    cases x with
    | nil =>
      simp only [List.nil_append] at hc
      subst hc
      exact ⟨[], a, [], z :: b, rfl, rfl, .nil, .right z hi⟩
    | cons w x =>
      simp only [List.cons_append, List.cons.injEq] at hc
      obtain ⟨rfl, hc⟩ := hc
      obtain ⟨a1, a2, b1, b2, rfl, rfl, h1, h2⟩ := ih hc
      exact ⟨a1, a2, z :: b1, b2, rfl, rfl, .right z h1, h2⟩

theorem interleaving_length {α : Type} {a b c : List α} (h : Interleaving a b c) : c.length = a.length + b.length := by
  induction h with
  | nil => rfl
  | left _ _ ih => simp only [List.length_cons]; omega
  | right _ _ ih => simp only [List.length_cons]; omega

theorem interleaving_mem {α : Type} {a b c : List α} (h : Interleaving a b c) {x : α} (hx : x ∈ a) : x ∈ c := by
  induction h with
  | nil => exact hx
  | left y _ ih =>
    rcases List.mem_cons.mp hx with rfl | hx
    · simp
    · exact List.mem_cons_of_mem _ (ih hx)
  | right y _ ih => exact List.mem_cons_of_mem _ (ih hx)

/-- Once the monitor has met a packet that is not a whole message, no more than ten get past it. -/
theorem dealt_bounded {stdin modem : Bytes} {s : Isnoop} (h : Ok stdin modem s) {bad : Packet} {ps : List Packet}
    (hb : (snoopDecode bad).2 ≠ none) (hp : dealt .modem s.modem <+: bad :: ps) : (dealt .modem s.modem).length ≤ 11 := by
  obtain ⟨h1, h2, popped, msgs, -, h4, h5, -, h7, h8⟩ := h
  by_contra hlt
  obtain ⟨a1, a2, b1, b2, e1, e2, i1, i2⟩ := interleaving_split h5 rfl
  have l2 := interleaving_length i2
  have l1 := congrArg List.length e1
  rw [List.length_append] at l1
  have h4' : s.mon.inner.length ≤ 10 := h4
  have ha1 : 2 ≤ a1.length := by omega
  have hhead : ∀ l : List Packet, l <+: a1 → l ≠ [] → bad ∈ l := by
    intro l hl hne
    have : l <+: bad :: ps := (hl.trans ⟨a2, e1.symm⟩).trans hp
    cases l with
    | nil => exact absurd rfl hne
    | cons x l =>
      obtain ⟨t, ht⟩ := this
      simp only [List.cons_append, List.cons.injEq] at ht
      rw [ht.1]; simp
  cases hal : s.alive with
  | true =>
    have hm := interleaving_mem i1 (hhead a1 List.prefix_rfl (by intro hn; simp [hn] at ha1))
    have : snoopDecode bad ∈ popped.map snoopDecode := List.mem_map_of_mem hm
    rw [h7 hal] at this
    simp only [List.mem_map] at this
    obtain ⟨m, -, hm'⟩ := this
    rw [← hm'] at hb
    simp at hb
  | false =>
    obtain ⟨qs, z, rfl, hq, -⟩ := h8 hal
    obtain ⟨c1, c2, d1, d2, f1, f2, j1, j2⟩ := interleaving_split i1 rfl
    have k2 := interleaving_length j2
    have k1 := congrArg List.length f1
    rw [List.length_append] at k1
    simp only [List.length_singleton] at k2
    have hm := interleaving_mem j1 (hhead c1 ⟨c2, f1.symm⟩ (by intro hn; simp [hn] at k1; omega))
    have : snoopDecode bad ∈ qs.map snoopDecode := List.mem_map_of_mem hm
    rw [hq] at this
    simp only [List.mem_map] at this
    obtain ⟨m, -, hm'⟩ := this
    rw [← hm'] at hb
    simp at hb

/-- The packets of the first frames on the line. -/
theorem first_packets (bad : Frame) (hbc : bad.cmd = 0x50#8) (hbl : bad.body.length = 9) (t : Traffic) (ht : t.ok) :
    ∃ ps, packetsIn false (line (([], bad) :: t.items)) = bad.packet :: ps ∧ ps.length = t.length ∧
      ∀ p ∈ bad.packet :: ps, Snoop.forwarded p = true := by
  have hbw : bad.wellFormed := by
    unfold Frame.wellFormed
    rw [hbc, if_neg (by decide)]
    rw [hbl]; decide
  have hall : ∀ it ∈ ([], bad) :: t.items, Quiet it.1 ∧ it.2.wellFormed := by
    intro it hit
    rcases List.mem_cons.mp hit with rfl | hit
    · exact ⟨quiet_nil, hbw⟩
    · simp only [Traffic.items, List.mem_map] at hit
      obtain ⟨x, hx, rfl⟩ := hit
      exact ⟨(ht x hx).1, heard_wellFormed _⟩
  have hp : packetsIn false (line (([], bad) :: t.items)) = (([], bad) :: t.items).map (fun it => it.2.packet) :=
    arrivals_line _ hall
  refine ⟨t.items.map (fun it => it.2.packet), by rw [hp]; rfl, by simp [Traffic.items], ?_⟩
  intro p hp
  rcases List.mem_cons.mp hp with rfl | hp
  · have hcmd : bad.packet.command = 0x50#8 := by unfold Frame.packet; rw [hbc]; rfl
    have hack : bad.packet.ack = 0#8 := by unfold Frame.packet; rw [hbc]; rfl
    simp [Snoop.forwarded, hcmd, Packet.isACK, hack]
  · simp only [Traffic.items, List.map_map, List.mem_map, Function.comp] at hp
    obtain ⟨x, -, rfl⟩ := hp
    rw [heard_packet]
    by_cases hx : isExtended x.2.flags <;> simp [Snoop.forwarded, Packet.isACK, hx]

theorem decode_bad (bad : Frame) (hbc : bad.cmd = 0x50#8) (hbl : bad.body.length = 9) {fl : Byte} (hf : bad.body[6]? = some fl)
    (hx : isExtended fl) : (snoopDecode bad.packet).2 ≠ none := by
  have hp : bad.packet.payload = bad.body := by unfold Frame.packet; rw [hbc]; rfl
  unfold snoopDecode
  rw [hp]
  obtain ⟨cmd, body⟩ := bad
  dsimp only at *
  match body, hbl with
  | [s0, s1, s2, d0, d1, d2, f, c1, c2], _ =>
    simp only [List.getElem?_cons_succ, List.getElem?_cons_zero, Option.some.injEq] at hf
    subst hf
    have := (extended_iff _).mpr hx
    simp [Message.unmarshalBinary, this]

/-- Where the listener stops. -/
theorem run_stalls {errText : Err → Bytes} (he : ∀ e, 0x0a#8 ∉ errText e) (db : Option (Address → Option DeviceInfo))
    {stdin rest : Bytes} {bad : Frame} (hbc : bad.cmd = 0x50#8) (hbl : bad.body.length = 9) {fl : Byte} (hf : bad.body[6]? = some fl)
    (hx : isExtended fl) {t : Traffic} (ht : t.ok) (htl : t.length = 11) :
    ∀ {es : List IsnoopEv} {s s' : Isnoop}, Ok stdin (line (([], bad) :: t.items) ++ rest) s →
      s.modem.seen.length < (line (([], bad) :: t.items)).length + bufSize → run errText db s es = some s' →
      s'.modem.seen.length < (line (([], bad) :: t.items)).length + bufSize
  | [], s, s', _, hl, hr => by simp only [run, Option.some.injEq] at hr; exact hr ▸ hl
  | e :: es, s, s', h, hl, hr => by
    rw [run] at hr
    cases hs : step errText db s e with
    | none => simp [hs] at hr
    | some s1 =>
      rw [hs] at hr
      refine run_stalls he db hbc hbl hf hx ht htl (step_ok he db h hs) ?_ hr
      clear hr
      have hset : ∀ (side : Side) (l : Lane), l.seen = (s.lane side).seen → (s.setLane side l).modem.seen = s.modem.seen := by
        intro side l hl
        cases side
        · exact hl
        · rfl
      unfold step at hs
      by_cases hov : s.over = true
      · rw [if_pos hov] at hs; simp at hs
      rw [if_neg hov] at hs
      cases e with
      | read side n =>
        simp only [Option.map_eq_some_iff] at hs
        obtain ⟨l, hr, rfl⟩ := hs
        unfold laneRead at hr
        split_ifs at hr
        simp only [Option.some.injEq] at hr
        subst hr
        rw [hset]
        · exact hl
        · rfl
      | take side n =>
        simp only [Option.map_eq_some_iff] at hs
        obtain ⟨l, hr, rfl⟩ := hs
        cases side with
        | host => exact hl
        | modem =>
          unfold laneTake at hr
          split_ifs at hr with hc
          simp only [Option.some.injEq] at hr
          subst hr
          simp only [lane, Side.ignoreAck] at hc
          obtain ⟨hc, hn, hn1, hn2⟩ := hc
          obtain ⟨ps, hp, hpl, hpf⟩ := first_packets bad hbc hbl t ht
          have hlt : s.modem.seen.length < (line (([], bad) :: t.items)).length := by
            by_contra hge
            have hpre : line (([], bad) :: t.items) <+: s.modem.seen :=
              List.prefix_of_prefix_length_le (List.prefix_append _ rest) h.modem.seen_prefix (by omega)
            have hpp := packetsIn_prefix false hpre
            rw [hp] at hpp
            have hd : dealt .modem s.modem = (packetsIn false s.modem.seen).filter Snoop.forwarded := by
              unfold dealt
              rw [hc]
              exact congrArg _ (List.take_length)
            have hfl := (hpp.filter Snoop.forwarded).length_le
            rw [← hd, List.filter_eq_self.mpr hpf, List.length_cons, hpl, htl] at hfl
            obtain ⟨tl, htl'⟩ := packetsIn_append false (line (([], bad) :: t.items)) rest
            have hdp := h.modem.dealt_prefix
            simp only [Side.ignoreAck] at hdp
            rw [← htl', hp, List.cons_append, List.filter_cons_of_pos (hpf _ (by simp))] at hdp
            have := dealt_bounded h (decode_bad bad hbc hbl hf hx) hdp
            omega
          show (s.modem.seen ++ s.modem.tee.take n).length < _
          rw [List.length_append, List.length_take]
          omega
      | write side =>
        simp only [Option.map_eq_some_iff] at hs
        obtain ⟨l, hr, rfl⟩ := hs
        unfold laneWrite at hr
        split_ifs at hr
        simp only [Option.some.injEq] at hr
        subst hr
        rw [hset]
        · exact hl
        · rfl
      | pass side =>
        simp only [Option.map_eq_some_iff] at hs
        obtain ⟨⟨l, q⟩, hr, rfl⟩ := hs
        obtain ⟨-, new, -, -, -, -, -, c2, -⟩ := lanePass_ok (lane_ok h side) hr
        show (s.setLane side l).modem.seen.length < _
        rw [hset side l c2]
        exact hl
      | print =>
        obtain ⟨-, h1, -⟩ := monitorStep_ok he db h hs
        rw [h1]; exact hl
      | eof =>
        dsimp only at hs
        split_ifs at hs
        simp only [Option.some.injEq] at hs
        subst hs
        exact hl

/-- C134 is false of the code when the modem sends something that is not a whole message: a standard message whose flags say it is
extended ends the monitor; when eleven more messages have come in, nothing that arrives more than one buffer later is ever passed on, whatever
the terminal sends and in whatever order the goroutines run. -/
theorem isnoop_stalls_refuted (errText : Err → Bytes) (he : ∀ e, 0x0a#8 ∉ errText e) (db : Option (Address → Option DeviceInfo))
    (bad : Frame) (hbc : bad.cmd = 0x50#8) (hbl : bad.body.length = 9) (fl : BitVec 8) (hf : bad.body[6]? = some fl)
    (hx : isExtended fl) (t : Traffic) (ht : t.ok) (htl : t.length = 11) (stdin rest : List (BitVec 8)) (es : List IsnoopEv) (s : Isnoop)
    (h : run errText db (init stdin (line (([], bad) :: t.items) ++ rest)) es = some s) :
    s.modem.out.length < (line (([], bad) :: t.items)).length + 4096 := by
  have hi := init_ok stdin (line (([], bad) :: t.items) ++ rest)
  have hk := (run_ok he db hi h).modem
  have hs := run_stalls he db hbc hbl hf hx ht htl hi (by simp [init, Lane.start, bufSize]) h
  have h1 := congrArg List.length hk.teed
  have h2 := hk.idle
  simp only [List.length_append] at h1
  have h3 : s.modem.seen.length < (line (([], bad) :: t.items)).length + 4096 := hs
  omega

/-- Non-vacuity: a garbled message and eleven whole ones. -/
example : ∃ (bad : Frame) (fl : BitVec 8) (t : Traffic), bad.cmd = 0x50#8 ∧ bad.body.length = 9 ∧ bad.body[6]? = some fl ∧ isExtended fl ∧
    t.ok ∧ t.length = 11 := by
  refine ⟨⟨0x50#8, [1, 2, 3, 4, 5, 6, 0x1f, 0x11, 0xff]⟩, 0x1f#8,
    List.replicate 11 ([], ⟨0x040506#32, 0x010203#32, 0x2b#8, 0x0011ff#64, []⟩), rfl, rfl, rfl, by simp [isExtended], ?_, rfl⟩
  intro x hx
  rw [List.mem_replicate] at hx
  rw [hx.2]
  exact ⟨quiet_nil, ⟨by decide, by decide, by decide, by decide⟩⟩

/-- C134 is false of the code when the terminal is disconnected: the program ends at once, and what the modem still sends is
not passed on. -/
theorem isnoop_hangup_refuted (errText : Err → Bytes) (db : Option (Address → Option DeviceInfo)) (modem : List (BitVec 8))
    (hm : modem ≠ []) : ∃ s, run errText db (init [] modem) [.eof] = some s ∧ (∀ e, step errText db s e = none) ∧ s.modem.out ≠ modem := by
  refine ⟨{ init [] modem with over := true }, by simp [run, step, init, Lane.start], ?_, ?_⟩
  · intro e; simp [step]
  · simpa [init, Lane.start] using hm.symm

end Isnoop

end Insteon
