import Verif.Model.IsnoopFaults
import Verif.Props.Isnoop

/-
Property C190: isnoop when the port or the terminal fails.
-/

namespace Insteon
open Spec

namespace IsnoopF
open Isnoop (Ok LaneOk dealt)

theorem over_ok {stdin modem : Bytes} {s : Isnoop} (h : Ok stdin modem s) : Ok stdin modem { s with over := true } := by
  obtain ⟨h1, h2, popped, msgs, h3⟩ := h
  exact ⟨h1, h2, popped, msgs, ⟨h3.mon, h3.queue, h3.order, h3.out, h3.alive, h3.dead⟩⟩

theorem copyEnds_ok {stdin modem : Bytes} {s : IsnoopF} (h : Ok stdin modem s.base) (side : Side) : Ok stdin modem (s.copyEnds side).base := by
  cases side
  · exact h
  · exact over_ok h

theorem step_ok {errText : Err → Bytes} (he : ∀ e, 0x0a#8 ∉ errText e) (db : Option (Address → Option DeviceInfo))
    {stdin modem : Bytes} {s s' : IsnoopF} {e : FaultEv} (h : Ok stdin modem s.base) (hs : step errText db s e = some s') :
    Ok stdin modem s'.base := by
  cases e with
  | fine e =>
    unfold step at hs
    dsimp only at hs
    split_ifs at hs
    simp only [Option.map_eq_some_iff] at hs
    obtain ⟨b, hb, rfl⟩ := hs
    exact Isnoop.step_ok he db h hb
  | readFails side =>
    unfold step at hs
    dsimp only at hs
    split_ifs at hs
    simp only [Option.some.injEq] at hs
    subst hs
    exact copyEnds_ok h side
  | writeFails side n =>
    unfold step at hs
    dsimp only at hs
    split_ifs at hs with h1 h2
    simp only [Option.some.injEq] at hs
    subst hs
    apply copyEnds_ok
    have hl := Isnoop.lane_ok h side
    refine Isnoop.setLane_ok h ⟨?_, ?_, ?_, ?_⟩ rfl
    · have := hl.whole
      dsimp only
      rw [List.append_assoc (s.base.lane side).out, List.take_append_drop]
      exact this
    · have := hl.teed
      simpa using this
    · rw [h2.2.1]; simp
    · exact hl.handed

theorem run_ok {errText : Err → Bytes} (he : ∀ e, 0x0a#8 ∉ errText e) (db : Option (Address → Option DeviceInfo))
    {stdin modem : Bytes} : ∀ {es : List FaultEv} {s s' : IsnoopF}, Ok stdin modem s.base → run errText db s es = some s' →
    Ok stdin modem s'.base
  | [], s, s', h, hr => by simp only [run, Option.some.injEq] at hr; exact hr ▸ h
  | e :: es, s, s', h, hr => by
    rw [run] at hr
    cases hs : step errText db s e with
    | none => simp [hs] at hr
    | some s1 => rw [hs] at hr; exact run_ok he db (step_ok he db h hs) hr

/-- The steps that did not fail. -/
def _root_.Insteon.Spec.fineSteps (es : List FaultEv) : List IsnoopEv :=
  es.filterMap fun e => match e with | .fine e => some e | _ => none

/-- A failure of reading or writing at the terminal's side. -/
def _root_.Insteon.Spec.hostFails : FaultEv → Prop
  | .readFails .host => True
  | .writeFails .host _ => True
  | _ => False

/-- A failing write of the standard output. -/
def _root_.Insteon.Spec.stdoutFails : FaultEv → Prop
  | .writeFails .modem _ => True
  | _ => False

theorem run_fine (errText : Err → Bytes) (db : Option (Address → Option DeviceInfo)) : ∀ (es : List FaultEv) (s s' : IsnoopF),
    (∀ e ∈ es, ¬ hostFails e ∧ ¬ stdoutFails e) → run errText db s es = some s' → Isnoop.run errText db s.base (fineSteps es) = some s'.base
  | [], s, s', _, hr => by simp only [run, Option.some.injEq] at hr; simp [fineSteps, Isnoop.run, hr]
  | e :: es, s, s', hn, hr => by
    have hn1 := hn e (by simp)
    rw [run] at hr
    cases hs : step errText db s e with
    | none => simp [hs] at hr
    | some s1 =>
      rw [hs] at hr
      have ih := run_fine errText db es s1 s' (fun x hx => hn x (by simp [hx])) hr
      cases e with
      | fine e =>
        unfold step at hs
        dsimp only at hs
        split_ifs at hs
        simp only [Option.map_eq_some_iff] at hs
        obtain ⟨b, hb, rfl⟩ := hs
        simp only [fineSteps, List.filterMap_cons, Isnoop.run, hb]
        exact ih
      | readFails side =>
        cases side with
        | host => simp [hostFails] at hn1
        | modem =>
          unfold step at hs
          dsimp only at hs
          split_ifs at hs
          simp only [Option.some.injEq] at hs
          subst hs
          exact ih
      | writeFails side n =>
        cases side with
        | host => simp [hostFails] at hn1
        | modem => simp [stdoutFails] at hn1

theorem deaf_step {errText : Err → Bytes} {db : Option (Address → Option DeviceInfo)} {s s' : IsnoopF} {e : FaultEv} (hd : s.deaf = true)
    (hs : step errText db s e = some s') : s'.deaf = true ∧ s'.base.modem.out = s.base.modem.out := by
  have hset : ∀ (b : Isnoop) (l : Lane), (b.setLane .host l).modem.out = b.modem.out := fun b l => rfl
  cases e with
  | fine e =>
    unfold step at hs
    dsimp only at hs
    split_ifs at hs with hc
    simp only [Option.map_eq_some_iff] at hs
    obtain ⟨b, hb, rfl⟩ := hs
    refine ⟨hd, ?_⟩
    dsimp only
    unfold Isnoop.step at hb
    by_cases hov : s.base.over = true
    · rw [if_pos hov] at hb; simp at hb
    rw [if_neg hov] at hb
    cases e with
    | read side n =>
      cases side
      · simp [hd, ofModemCopy] at hc
      · simp only [Option.map_eq_some_iff] at hb
        obtain ⟨l, -, rfl⟩ := hb
        rfl
    | take side n =>
      simp only [Option.map_eq_some_iff] at hb
      obtain ⟨l, hr, rfl⟩ := hb
      cases side
      · unfold Isnoop.laneTake at hr
        split_ifs at hr
        simp only [Option.some.injEq] at hr
        subst hr
        rfl
      · rfl
    | write side =>
      cases side
      · simp [hd, ofModemCopy] at hc
      · simp only [Option.map_eq_some_iff] at hb
        obtain ⟨l, -, rfl⟩ := hb
        rfl
    | pass side =>
      simp only [Option.map_eq_some_iff] at hb
      obtain ⟨⟨l, q⟩, hr, rfl⟩ := hb
      cases side
      · unfold Isnoop.lanePass at hr
        split at hr
        · simp at hr
        · split_ifs at hr <;> simp only [Option.some.injEq, Prod.mk.injEq] at hr <;> obtain ⟨rfl, -⟩ := hr <;> rfl
      · rfl
    | print =>
      change Isnoop.monitorStep errText db s.base = some b at hb
      unfold Isnoop.monitorStep at hb
      split_ifs at hb
      split at hb <;> simp only [Option.some.injEq] at hb <;> subst hb <;> rfl
    | eof =>
      dsimp only at hb
      split_ifs at hb
      simp only [Option.some.injEq] at hb
      subst hb
      rfl
  | readFails side =>
    unfold step at hs
    dsimp only at hs
    split_ifs at hs with h1 h2
    simp only [Option.some.injEq] at hs
    subst hs
    cases side
    · simp [hd] at h1
    · exact ⟨hd, rfl⟩
  | writeFails side n =>
    unfold step at hs
    dsimp only at hs
    split_ifs at hs with h1 h2
    simp only [Option.some.injEq] at hs
    subst hs
    cases side
    · simp [hd] at h1
    · exact ⟨hd, rfl⟩

theorem deaf_run {errText : Err → Bytes} {db : Option (Address → Option DeviceInfo)} : ∀ {es : List FaultEv} {s s' : IsnoopF}, s.deaf = true →
    run errText db s es = some s' → s'.base.modem.out = s.base.modem.out
  | [], s, s', _, hr => by simp only [run, Option.some.injEq] at hr; rw [hr]
  | e :: es, s, s', h, hr => by
    rw [run] at hr
    cases hs : step errText db s e with
    | none => simp [hs] at hr
    | some s1 =>
      rw [hs] at hr
      obtain ⟨h1, h2⟩ := deaf_step h hs
      rw [deaf_run h1 hr, h2]

theorem run_split {errText : Err → Bytes} {db : Option (Address → Option DeviceInfo)} : ∀ {a b : List FaultEv} {s s' : IsnoopF},
    run errText db s (a ++ b) = some s' → ∃ m, run errText db s a = some m ∧ run errText db m b = some s'
  | [], b, s, s', h => ⟨s, rfl, h⟩
  | e :: a, b, s, s', h => by
    rw [List.cons_append, run] at h
    cases hs : step errText db s e with
    | none => simp [hs] at h
    | some s1 =>
      rw [hs] at h
      obtain ⟨m, h1, h2⟩ := run_split h
      exact ⟨m, by rw [run, hs]; exact h1, h2⟩

/-- C190, what is true: whatever fails and whenever, what comes out on either side is the beginning of what went in on the other side, unaltered; while
only whole messages come in, the lines printed are those of the messages, each side's in order, and nothing else. -/
theorem isnoop_failures_partial (errText : Err → Bytes) (he : ∀ e, 0x0a#8 ∉ errText e) (db : Option (Address → Option DeviceInfo))
    (modem : List (Bytes × FromModem)) (host : List (Bytes × FromHost))
    (hm : ∀ x ∈ modem, Quiet x.1 ∧ x.2.ok) (hh : ∀ x ∈ host, Quiet x.1 ∧ x.2.ok) (es : List FaultEv) (s : IsnoopF)
    (h : run errText db (init (hostLine host) (modemLine modem)) es = some s) :
    s.base.modem.out <+: modemLine modem ∧ s.base.host.out <+: hostLine host ∧
    ∃ (a b ms : List Message) (ls : List Bytes), a <+: heardOrRefusedIn modem ∧ b <+: sentIn host ∧ Interleaving a b ms ∧
      List.Forall₂ Shows ms ls ∧ s.base.mon.out = ls.flatten := by
  have hok := run_ok he db (s := init (hostLine host) (modemLine modem)) (Isnoop.init_ok (hostLine host) (modemLine modem)) h
  obtain ⟨-, a, b, ms, ls, p1, p2, p3, p4, p5, -⟩ := Isnoop.printed hok (modem_stream modem hm) (host_stream host hh)
  exact ⟨hok.modem.out_prefix, hok.host.out_prefix, a, b, ms, ls, p1, p2, p3, p4, p5⟩

/-- C190, what is true: after a failure on the way from the terminal to the modem the program has ended. -/
theorem isnoop_failing_host_ends (errText : Err → Bytes) (db : Option (Address → Option DeviceInfo)) (s s' : IsnoopF) (e : FaultEv) (he : hostFails e)
    (h : step errText db s e = some s') : s'.base.over = true ∧ ∀ e, step errText db s' e = none := by
  have hov : s'.base.over = true := by
    unfold hostFails at he
    split at he
    · unfold step at h
      dsimp only at h
      split_ifs at h <;> (simp only [Option.some.injEq] at h; subst h; rfl)
    · unfold step at h
      dsimp only at h
      split_ifs at h <;> (simp only [Option.some.injEq] at h; subst h; rfl)
    · exact he.elim
  refine ⟨hov, fun e => ?_⟩
  cases e with
  | fine e => simp [step, Isnoop.step, hov]
  | readFails side => simp [step, hov]
  | writeFails side n => simp [step, hov]

/-- C190 is false of the code: when the modem's port fails, say because it was unplugged, the program does not end and does not say so. Whatever happens
afterwards, the standard output gets nothing more, although all that the program does (what it passes on to the modem, what it prints, whether it has ended)
is what it does when nothing failed and the modem has just nothing to say. -/
theorem isnoop_port_failure_refuted (errText : Err → Bytes) (db : Option (Address → Option DeviceInfo)) (stdin modem : List (BitVec 8))
    (before after : List FaultEv) (s0 s : IsnoopF) (hb : ∀ e ∈ before ++ after, ¬ hostFails e ∧ ¬ stdoutFails e)
    (h0 : run errText db (init stdin modem) before = some s0)
    (h : run errText db (init stdin modem) (before ++ .readFails .modem :: after) = some s) :
    s.base.modem.out = s0.base.modem.out ∧
    Isnoop.run errText db (Isnoop.init stdin modem) (fineSteps (before ++ after)) = some s.base := by
  have hfine := run_fine errText db _ _ _ (by
    intro e hm
    simp only [List.mem_append, List.mem_cons] at hm
    rcases hm with hm | rfl | hm
    · exact hb e (by simp [hm])
    · simp [hostFails, stdoutFails]
    · exact hb e (by simp [hm])) h
  refine ⟨?_, ?_⟩
  · obtain ⟨m, h1, h2⟩ := run_split h
    rw [h0] at h1
    cases h1
    rw [run] at h2
    cases hs : step errText db s0 (.readFails .modem) with
    | none => simp [hs] at h2
    | some s1 =>
      rw [hs] at h2
      replace h2 : run errText db s1 after = some s := h2
      unfold step at hs
      dsimp only at hs
      split_ifs at hs
      simp only [Option.some.injEq] at hs
      subst hs
      exact deaf_run (s := s0.copyEnds .modem) rfl h2
  · have : fineSteps (before ++ .readFails .modem :: after) = fineSteps (before ++ after) := by simp [fineSteps]
    rwa [this] at hfine

/-- Non-vacuity: the port fails after the terminal's command was passed on; the program goes on and passes on the next one. -/
example : ((run (fun _ => []) none (init [0x02, 0x60, 0x02, 0x60] [0x02, 0x60])
      [.fine (.read .host 2), .fine (.take .host 2), .fine (.write .host), .readFails .modem,
       .fine (.read .host 2), .fine (.take .host 2), .fine (.write .host)]).map fun s =>
      (s.base.host.out, s.base.modem.out, s.base.mon.out, s.base.over)) =
    some ([0x02, 0x60, 0x02, 0x60], [], [], false) := by
  decide +kernel

/-- C190 is false of the code when the port fails on writing, too: the program ends without a word, and what it had read is lost. -/
theorem isnoop_write_failure_refuted (errText : Err → Bytes) (db : Option (Address → Option DeviceInfo)) (stdin modem : List (BitVec 8)) (n k : Nat)
    (hn : 0 < n) (hn' : n ≤ stdin.length) (hmax : n ≤ 4096) (hk : k < n) : ∃ s,
    run errText db (init stdin modem) [.fine (.read .host n), .fine (.take .host n), .writeFails .host k] = some s ∧
      (∀ e, step errText db s e = none) ∧ s.base.host.out = stdin.take k ∧ s.base.mon.out = [] := by
  have h1 : Isnoop.step errText db (Isnoop.init stdin modem) (.read .host n) =
      some { Isnoop.init stdin modem with host := ⟨stdin.drop n, stdin.take n, stdin.take n, [], [], 0⟩ } := by
    simp [Isnoop.step, Isnoop.init, Isnoop.lane, Isnoop.laneRead, Isnoop.Lane.start, Isnoop.setLane, hn, hn', Isnoop.copySize, show n ≤ 32768 by omega]
  have h2 : Isnoop.step errText db { Isnoop.init stdin modem with host := ⟨stdin.drop n, stdin.take n, stdin.take n, [], [], 0⟩ } (.take .host n) =
      some { Isnoop.init stdin modem with host := ⟨stdin.drop n, stdin.take n, [], [], stdin.take n, 0⟩ } := by
    have : packetsIn true [] = [] := by decide +kernel
    simp [Isnoop.step, Isnoop.init, Isnoop.lane, Isnoop.laneTake, Isnoop.setLane, Side.ignoreAck, hn, hn', Isnoop.bufSize, hmax, this, List.take_take]
  have hne : stdin.take n ≠ [] := by
    intro h
    have := congrArg List.length h
    simp at this
    rcases this with h | h
    · omega
    · subst h; simp at hn'; omega
  refine ⟨⟨{ Isnoop.init stdin modem with host := ⟨stdin.drop n, (stdin.take n).drop k, [], (stdin.take n).take k, stdin.take n, 0⟩, over := true }, false⟩,
    ?_, ?_, ?_, rfl⟩
  · simp only [run, step, init, h1, h2, Option.map_some, Bool.false_eq_true, false_and, if_false, Isnoop.lane]
    rw [if_neg (by simp [Isnoop.init]), if_pos ⟨hne, by simp; omega⟩]
    simp [copyEnds, Isnoop.setLane]
  · intro e
    cases e <;> simp [step, Isnoop.step]
  · dsimp only
    rw [List.take_take, Nat.min_eq_left (by omega)]

end IsnoopF

end Insteon
