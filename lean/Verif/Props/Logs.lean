import Verif.Props.IcDevice
import Verif.Spec.Logs

/-
C162-C164: logs, and reading from a channel with a timeout.
-/

namespace Insteon
open Insteon.Spec

theorem hexDump_bytes (b : Bytes) : hexDump b (lit " ") = hexBytes b := by
  have hl : lit " " = [0x20#8] := by decide
  unfold hexDump
  rw [hl]
  induction b with
  | nil => rfl
  | cons x b ih =>
    rcases b with _ | ⟨y, b⟩
    · exact hex2_pair x
    · rw [List.map_cons, List.map_cons, joinWith, ← List.map_cons, ih, hex2_pair]; rfl

/-- C162: logging does not change what a program that uses the port gets or what happens at the port; and every byte that came or was sent is in the debug log,
in order, one line per request. -/
theorem log_transparent {σ : Type} (p : SerialPort σ) (text : Err → Bytes) (user : PortUser) (n : Nat) : ∀ (s : Logged σ) (seen : List (PortOp × PortResult)),
    let plain := useOf p user n s.port seen
    let t := useOf (p.logged text) user n s seen
    t.1.port = plain.1 ∧ t.2 = plain.2 ∧ seen <+: t.2 ∧
      t.1.debug = s.debug ++ ((t.2.drop seen.length).flatMap trafficOf).map PortTraffic.line := by
  induction n with
  | zero => exact fun s seen => ⟨rfl, rfl, List.prefix_rfl, by simp [useOf]⟩
  | succ n ih =>
    intro s seen
    dsimp only
    rw [useOf, useOf]
    rcases user (seen.map Prod.snd) with _ | ⟨k | b⟩ <;> dsimp only
    · exact ⟨rfl, rfl, List.prefix_rfl, by simp⟩
    · have key := ih ((p.logged text).read s k).1 (seen ++ [(.read k, .read ((p.logged text).read s k).2.1 ((p.logged text).read s k).2.2)])
      dsimp only at key
      obtain ⟨k1, k2, k3, k4⟩ := key
      refine ⟨k1, k2, (List.prefix_append _ _).trans k3, ?_⟩
      rw [k4]
      obtain ⟨u, hu⟩ := k3
      rw [← hu]
      rw [List.drop_left, List.append_assoc, List.drop_left, List.flatMap_append]
      simp only [SerialPort.logged]
      rcases hb : (p.read s.port k).2.1 with _ | ⟨b, bs⟩
      · simp [trafficOf]
      · simp [trafficOf, PortTraffic.line, hexDump_bytes]; rfl
    · have key := ih ((p.logged text).write s b).1 (seen ++ [(.write b, .write ((p.logged text).write s b).2.1 ((p.logged text).write s b).2.2)])
      dsimp only at key
      obtain ⟨k1, k2, k3, k4⟩ := key
      have hd : ((p.logged text).write s b).1.debug = s.debug ++ [PortTraffic.line (.tx b)] ∧ ((p.logged text).write s b).1.port = (p.write s.port b).1 ∧
          ((p.logged text).write s b).2 = (p.write s.port b).2 := by
        simp only [SerialPort.logged]
        rcases (p.write s.port b).2.2 with _ | e <;> exact ⟨by rw [hexDump_bytes]; rfl, rfl, rfl⟩
      rw [hd.2.1, hd.2.2] at k1 k2
      rw [hd.2.2] at k3 k4
      rw [hd.2.2]
      refine ⟨k1, k2, (List.prefix_append _ _).trans k3, ?_⟩
      rw [k4, hd.1]
      obtain ⟨u, hu⟩ := k3
      rw [← hu]
      rw [List.drop_left, List.append_assoc seen, List.drop_left, List.flatMap_append]
      simp [trafficOf]

theorem hexPair_inj (a b : Byte) (h : hexPair a.toNat = hexPair b.toNat) : a = b := by
  have hx : ∀ c : Byte, ∃ x y : Byte, hexPair c.toNat = [x, y] ∧ lowerDigits.idxOf x * 16 + lowerDigits.idxOf y = c.toNat := by
    intro c
    refine ⟨_, _, rfl, ?_⟩
    revert c; decide +kernel
  obtain ⟨x, y, h1, h2⟩ := hx a
  obtain ⟨x', y', h3, h4⟩ := hx b
  rw [h1, h3] at h
  simp only [List.cons.injEq, and_true] at h
  apply BitVec.eq_of_toNat_eq
  rw [← h2, ← h4, h.1, h.2]

theorem hexBytes_inj (a : Bytes) : ∀ b, hexBytes a = hexBytes b → a = b := by
  have hne : ∀ x (l : Bytes), hexBytes (x :: l) ≠ [] := by
    intro x l h
    rcases l with _ | ⟨y, l⟩ <;> simp [hexBytes, hexPair] at h
  have hlen : ∀ x y : Byte, ∀ l, (hexBytes (x :: y :: l)).length > 2 := by intro x y l; simp [hexBytes, hexPair]
  induction a with
  | nil => intro b h; rcases b with _ | ⟨y, b⟩; rfl; exact absurd h.symm (hne y b)
  | cons x a ih =>
    intro b h
    rcases b with _ | ⟨y, b⟩
    · exact absurd h (hne x a)
    · rcases a with _ | ⟨x', a⟩ <;> rcases b with _ | ⟨y', b⟩
      · rw [hexPair_inj x y h]
      · have := hlen y y' b; rw [← h] at this; simp [hexBytes, hexPair] at this
      · have := hlen x x' a; rw [h] at this; simp [hexBytes, hexPair] at this
      · simp only [hexBytes, List.append_assoc] at h
        have h1 := List.append_inj h (by simp [hexPair])
        rw [hexPair_inj x y h1.1, ih _ (List.append_cancel_left h1.2)]

/-- C162: a line of the log tells which bytes came or were sent. -/
theorem log_readable (a b : PortTraffic) (h : a.line = b.line) : a = b := by
  rcases a with a | a <;> rcases b with b | b <;> simp only [PortTraffic.line] at h
  · rw [hexBytes_inj a b (List.append_cancel_left h)]
  · exact absurd (congrArg List.head? h) (by simp [ascii])
  · exact absurd (congrArg List.head? h) (by simp [ascii])
  · rw [hexBytes_inj a b (List.append_cancel_left h)]

/-- A port on which what is written comes back in pieces of at most two bytes. -/
def loopback : SerialPort Bytes where
  read := fun s n => (s.drop (min n 2), s.take (min n 2), none)
  write := fun s b => (s ++ b, b.length, none)

/-- Sends `02 60`, then reads until nothing comes. -/
def probe : PortUser
  | [] => some (.write [0x02, 0x60, 0x0f])
  | rs => if rs.getLast? = some (.read [] none) then none else some (.read 9)

example : let t := (useOf (loopback.logged fun _ => []) probe 9 ⟨[], [], []⟩ []).1
    t.port = [] ∧ t.debug = [ascii "TX 02 60 0f", ascii "RX 02 60", ascii "RX 0f"] ∧ t.log = [] := by decide +kernel

theorem parse_flags (args : List (String × Bool)) : ∀ f g : IcFlags, f.parse args = some g →
    g.quiet = f.quiet ∧ g.debug = (((args.filter fun a => a.1 ∈ ["debug", "quietFlag"]).getLast?.map Prod.snd).getD f.debug) := by
  induction args with
  | nil => intro f g h; simp only [IcFlags.parse, Option.some.injEq] at h; subst h; simp
  | cons a args ih =>
    intro f g h
    obtain ⟨name, v⟩ := a
    rw [IcFlags.parse] at h
    unfold IcFlags.set at h
    split_ifs at h with h1 h2 h3
    · simp only [Option.bind_some] at h
      obtain ⟨i1, i2⟩ := ih _ g h
      refine ⟨i1, ?_⟩
      rw [i2, List.filter_cons_of_neg (by simp [h1])]
    · simp only [Option.bind_some] at h
      obtain ⟨i1, i2⟩ := ih _ g h
      refine ⟨i1, ?_⟩
      rw [i2, List.filter_cons_of_pos (by simp [h2]), List.getLast?_cons]
      generalize (List.filter (fun a => decide (a.1 ∈ ["debug", "quietFlag"])) args).getLast? = o
      rcases o with _ | ⟨_, _⟩ <;> rfl
    · simp only [Option.bind_some] at h
      obtain ⟨i1, i2⟩ := ih _ g h
      refine ⟨i1, ?_⟩
      rw [i2, List.filter_cons_of_pos (by simp [h3]), List.getLast?_cons]
      generalize (List.filter (fun a => decide (a.1 ∈ ["debug", "quietFlag"])) args).getLast? = o
      rcases o with _ | ⟨_, _⟩ <;> rfl
    · cases h

/-- C163, what holds: without the options for it, and whatever the other flags, ic writes no debug log. What is missing is that the quiet option silences it, which
is false (`quiet_refuted`). -/
theorem quiet_partial (args : List (String × Bool)) (f : IcFlags) (h : IcFlags.parse ⟨false, false, false⟩ args = some f)
    (hd : lastSetting ["debug", "quietFlag"] args = false) : (f.setup .initial).plmDebug = false ∧ (f.setup .initial).devDebug = false := by
  obtain ⟨h1, h2⟩ := parse_flags args _ f h
  change f.quiet = false at h1
  change f.debug = lastSetting ["debug", "quietFlag"] args at h2
  rw [hd] at h2
  simp [IcFlags.setup, h1, h2, Loggers.initial]

example : lastSetting ["debug", "quietFlag"] [("debug", true), ("log", true), ("debug", false)] = false ∧
    IcFlags.parse ⟨false, false, false⟩ [("debug", true), ("log", true), ("debug", false)] = some ⟨true, false, false⟩ := by decide

/-- C163 is false of the code: the quiet option switches the debug log on, and no command line silences ic. -/
theorem quiet_refuted : (∃ f, IcFlags.parse ⟨false, false, false⟩ [("quietFlag", true)] = some f ∧ f.setup .initial = ⟨true, true, true, true⟩) ∧
    ∀ args f, IcFlags.parse ⟨false, false, false⟩ args = some f → (f.setup .initial).plmLog = true ∧ (f.setup .initial).devLog = true := by
  refine ⟨⟨⟨false, true, false⟩, by decide, by decide⟩, fun args f h => ?_⟩
  have h1 := (parse_flags args _ f h).1
  change f.quiet = false at h1
  unfold IcFlags.setup
  rw [h1]
  cases f.debug <;> exact ⟨rfl, rfl⟩

/-- C164, what holds: on a channel that is not closed and carries no nil, `ReadWithTimeout` returns the first message at the time it is there if that is before the
timeout is over, and takes it from the channel; if it comes later, or none comes, it returns a timeout and no message when the time is over, and takes nothing. -/
theorem readWithTimeout_partial (timeout : Int) (tie : Bool) (now : Nat) (q : List (Nat × Message)) :
    let r := readWithTimeout timeout tie now none (q.map fun x => (x.1, some x.2))
    (∀ t m rest, q = (t, m) :: rest → max now t < now + timeout.toNat → r = (max now t, rest.map (fun x => (x.1, some x.2)), some m, none)) ∧
    ((∀ t m rest, q = (t, m) :: rest → now + timeout.toNat < max now t) →
      r = (now + timeout.toNat, q.map (fun x => (x.1, some x.2)), none, some .insReadTimeout)) ∧
    ((∃ m, r.2.2 = (some m, none)) ∨ r.2.2 = (none, some .insReadTimeout)) := by
  refine ⟨fun t m rest hq ht => ?_, fun h => ?_, ?_⟩
  · subst hq
    simp only [readWithTimeout, List.map_cons, Timed.first, ht, decide_true, Bool.true_or, if_true]
  · rcases q with _ | ⟨⟨t, m⟩, rest⟩
    · rfl
    · have := h t m rest rfl
      simp only [readWithTimeout, List.map_cons]
      rw [if_neg]
      simp only [Timed.first, Bool.or_eq_true, decide_eq_true_eq, Bool.and_eq_true, not_or]
      omega
  · rcases q with _ | ⟨⟨t, m⟩, rest⟩
    · exact .inr rfl
    · simp only [readWithTimeout, List.map_cons]
      split
      · exact .inl ⟨m, rfl⟩
      · exact .inr rfl

example : readWithTimeout 5 true 10 none [(12, some ⟨0, 5, 0, 0, []⟩)] = (12, [], some ⟨0, 5, 0, 0, []⟩, none) := by decide

/-- C164 is false of the code for a closed channel: neither a message nor an error is returned, and that at once. -/
theorem readWithTimeout_refuted (timeout : Int) (tie : Bool) (now : Nat) (ht : 0 < timeout) : readWithTimeout timeout tie now (some now) [] = (now, [], none, none) := by
  simp only [readWithTimeout, Nat.max_self]
  rw [if_pos]
  simp only [Timed.first, Bool.or_eq_true, decide_eq_true_eq]
  exact .inl (by omega)

example : (0 : Int) < 3 * PlmCfg.second := by decide

end Insteon
