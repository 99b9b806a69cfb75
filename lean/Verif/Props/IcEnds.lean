import Verif.Spec.IcEnds
import Verif.Props.WalkEnds

/-
Property C197: the commands of ic for one device end.
-/

namespace Insteon
open Spec

section
variable {σ : Type} {io : MsgIO σ} {ok : σ → Prop} {left : σ → Nat} {Hears : Message → Prop}

theorem once_back {α : Type} {s s' : σ} {r : σ × Out α} (h : DeviceCall.once r = some (s', Ended.returned)) : ∃ v, r = (s', v) ∧ v ≠ .panic := by
  obtain ⟨t, v⟩ := r
  simp only [DeviceCall.once, Option.some.injEq, Prod.mk.injEq] at h
  obtain ⟨rfl, h⟩ := h
  exact ⟨v, rfl, by rintro rfl; simp [ended] at h⟩

theorem waits_back {α : Type} {s' : σ} {r : Option (σ × Out α)} (h : DeviceCall.waits r = some (s', Ended.returned)) : ∃ v, r = some (s', v) ∧ v ≠ .panic := by
  rcases r with _ | ⟨t, v⟩
  · simp [DeviceCall.waits] at h
  · simp only [DeviceCall.waits, Option.map_some, Option.some.injEq, Prod.mk.injEq] at h
    obtain ⟨rfl, h⟩ := h
    exact ⟨v, rfl, by rintro rfl; simp [ended] at h⟩

theorem keeps_back {α : Type} {s' : σ} {r : Option (σ × Ldb × Out α)} (h : DeviceCall.keeps r = some (s', Ended.returned)) :
    ∃ d v, r = some (s', d, v) ∧ v ≠ .panic := by
  rcases r with _ | ⟨t, d, v⟩
  · simp [DeviceCall.keeps] at h
  · simp only [DeviceCall.keeps, Option.map_some, Option.some.injEq, Prod.mk.injEq] at h
    obtain ⟨rfl, h⟩ := h
    exact ⟨d, v, rfl, by rintro rfl; simp [ended] at h⟩

/-- The command has come to its end without crashing. -/
def Settled (r : Option (σ × Bytes × Out (Option Err))) : Prop := ∃ s' t v, r = some (s', t, v) ∧ v ≠ .panic

theorem printed_settled (h : Orderly io ok left NoReadRequests) (sort : List LinkRecord → List LinkRecord) (fuel : Nat) (now done : Int) (info : DeviceInfo) (extra : Bytes)
    (s : σ) (hs : ok s) (hl : left s < fuel) : Settled (IcDev.printDevInfo sort fuel now done (info, io) extra s) := by
  obtain ⟨r, h1, s1, d, v, h2, -⟩ := (h.device info).getLinks fuel now done s hs hl ⟨0, [], []⟩
  subst h2
  unfold IcDev.printDevInfo
  dsimp only
  rw [h1]
  obtain ⟨ls, _ | e⟩ := v <;> exact ⟨_, _, _, rfl, by simp⟩

theorem exec_settled (h : Orderly io ok left Hears) (sort : List LinkRecord → List LinkRecord) (fuel : Nat) (info : DeviceInfo) (s : σ) (hs : ok s) (hl : left s < fuel)
    (c : IcCommand) (hd : c.Downloads → Orderly io ok left NoReadRequests) : Settled (c.exec sort fuel (info, io) s) := by
  have call := fun (c : DeviceCall) (hc : c.Sensible) (hd : ¬ c.Downloads) => call_returns h info fuel s hs hl c hc (fun x => absurd x hd)
  have quiet : ∀ (r : σ × Out (Option Err)) (s' : σ), DeviceCall.once r = some (s', Ended.returned) → Settled (IcDev.quiet r) := by
    intro r s' hr
    obtain ⟨v, rfl, hv⟩ := once_back (s := s) hr
    exact ⟨_, _, _, rfl, hv⟩
  cases c with
  | version => exact ⟨_, _, _, rfl, by simp⟩
  | info now done => exact printed_settled (hd trivial) sort fuel now done info [] s hs hl
  | dump now done =>
    obtain ⟨r, h1, s1, d, v, h2, -⟩ := ((hd trivial).device info).getLinks fuel now done s hs hl ⟨0, [], []⟩
    subst h2
    unfold IcCommand.exec IcDev.dumpCmd
    dsimp only
    rw [h1]
    obtain ⟨ls, _ | e⟩ := v <;> exact ⟨_, _, _, rfl, by simp⟩
  | device c =>
    cases c with
    | link g => obtain ⟨s', h1, -⟩ := call (.enterLinkingMode g) trivial id; exact quiet _ _ h1
    | unlink g => obtain ⟨s', h1, -⟩ := call (.enterUnlinkingMode g) trivial id; exact quiet _ _ h1
    | exitlink => obtain ⟨s', h1, -⟩ := call .exitLinkingMode trivial id; exact quiet _ _ h1
    | send c => obtain ⟨s', h1, -⟩ := call (.sendCommand c []) trivial id; exact quiet _ _ h1
    | esend c data => obtain ⟨s', h1, -⟩ := call (.sendCommand c data) trivial id; exact quiet _ _ h1
  | edit now done written editor =>
    obtain ⟨r, h1, s1, d, ⟨ls, e⟩, h2, h3, -⟩ := ((hd trivial).device info).getLinks fuel now done s hs hl ⟨0, [], []⟩
    subst h2
    unfold IcCommand.exec IcDev.deviceEdit Ic.editLinks
    dsimp only
    rw [h1]
    dsimp only
    split_ifs
    · exact ⟨_, _, _, rfl, by simp⟩
    · rcases editor (linksToText ls true) with x | output
      · exact ⟨_, _, _, rfl, by simp⟩
      · dsimp only
        split_ifs
        · exact ⟨_, _, _, rfl, by simp⟩
        · rcases textToLinks output with ⟨new, _ | x⟩
          · dsimp only
            obtain ⟨s2, d2, v, g1, -⟩ := (h.device info).writeLinks written new s1 h3 d
            rw [g1]
            exact ⟨_, _, _, rfl, by simp⟩
          · exact ⟨_, _, _, rfl, by simp⟩
  | switchConfig now done =>
    obtain ⟨s1, h1, h2, h3⟩ := call .switchConfig trivial id
    obtain ⟨v, g1, g2⟩ := waits_back h1
    unfold IcCommand.exec IcDev.switchConfigCmd
    dsimp only
    rw [g1]
    rcases v with ⟨c, _ | e⟩ | e | _
    · exact printed_settled (hd trivial) sort fuel now done info _ s1 h2 (by omega)
    · exact ⟨_, _, _, rfl, by simp⟩
    · exact ⟨_, _, _, rfl, by simp⟩
    · exact absurd rfl g2
  | switchStatus =>
    obtain ⟨s1, h1, h2, h3⟩ := call .lightStatus trivial id
    obtain ⟨v, g1, g2⟩ := once_back (s := s) h1
    unfold IcCommand.exec IcDev.switchStatusCmd
    dsimp only
    rw [g1]
    rcases v with ⟨c, _ | e⟩ | e | _
    · exact ⟨_, _, _, rfl, by simp⟩
    · exact ⟨_, _, _, rfl, by simp⟩
    · exact ⟨_, _, _, rfl, by simp⟩
    · exact absurd rfl g2
  | dimmer c =>
    cases c with
    | on level => obtain ⟨s', h1, -⟩ := call (.turnOn level) trivial id; exact quiet _ _ h1
    | off => obtain ⟨s', h1, -⟩ := call .turnOff trivial id; exact quiet _ _ h1
    | backlight b => obtain ⟨s', h1, -⟩ := call (.setBacklight b) trivial id; exact quiet _ _ h1
    | loadsense b => obtain ⟨s', h1, -⟩ := call (.setLoadSense b) trivial id; exact quiet _ _ h1
    | brighten => obtain ⟨s', h1, -⟩ := call .brighten trivial id; exact quiet _ _ h1
    | dim => obtain ⟨s', h1, -⟩ := call .dim trivial id; exact quiet _ _ h1
    | startBrighten => obtain ⟨s', h1, -⟩ := call .startBrighten trivial id; exact quiet _ _ h1
    | startDim => obtain ⟨s', h1, -⟩ := call .startDim trivial id; exact quiet _ _ h1
    | stopChange => obtain ⟨s', h1, -⟩ := call .stopManualChange trivial id; exact quiet _ _ h1
    | onfast => obtain ⟨s', h1, -⟩ := call .onFast trivial id; exact quiet _ _ h1
    | instantChange level => obtain ⟨s', h1, -⟩ := call (.instantChange level) trivial id; exact quiet _ _ h1
    | setstatus level => obtain ⟨s', h1, -⟩ := call (.setStatus level) trivial id; exact quiet _ _ h1
    | onramp level rate => obtain ⟨s', h1, -⟩ := call (.onAtRamp level rate) trivial id; exact quiet _ _ h1
    | offramp rate => obtain ⟨s', h1, -⟩ := call (.offAtRamp rate) trivial id; exact quiet _ _ h1
  | dimmerConfig =>
    obtain ⟨s1, h1, h2, h3⟩ := call .dimmerConfig trivial id
    obtain ⟨v, g1, g2⟩ := waits_back h1
    unfold IcCommand.exec IcDev.dimmerConfigCmd
    dsimp only
    rw [g1]
    rcases v with ⟨c, e⟩ | e | _
    · dsimp only
      obtain ⟨s2, k1, -⟩ := call_returns h info fuel s1 h2 (by omega) .operatingFlags trivial (fun x => x.elim)
      obtain ⟨v, k2, k3⟩ := once_back (s := s1) k1
      rw [k2]
      rcases v with ⟨lf, _ | e⟩ | e | _
      · exact ⟨_, _, _, rfl, by simp⟩
      · exact ⟨_, _, _, rfl, by simp⟩
      · exact ⟨_, _, _, rfl, by simp⟩
      · exact absurd rfl k3
    · exact ⟨_, _, _, rfl, by simp⟩
    · exact absurd rfl g2
  | dimmerStatus =>
    obtain ⟨s1, h1, h2, h3⟩ := call .lightStatus trivial id
    obtain ⟨v, g1, g2⟩ := once_back (s := s) h1
    unfold IcCommand.exec IcDev.dimmerStatusCmd
    dsimp only
    rw [g1]
    rcases v with ⟨c, _ | e⟩ | e | _
    · exact ⟨_, _, _, rfl, by simp⟩
    · exact ⟨_, _, _, rfl, by simp⟩
    · exact ⟨_, _, _, rfl, by simp⟩
    · exact absurd rfl g2
  | thermostatStatus =>
    obtain ⟨s1, h1, h2, h3⟩ := call (.setTempUnit 0) trivial id
    obtain ⟨v, g1, g2⟩ := once_back (s := s) h1
    unfold IcCommand.exec IcDev.thermStatusCmd
    dsimp only
    rw [g1]
    rcases v with (_ | e) | e | _
    · dsimp only
      obtain ⟨s2, k1, -⟩ := call_returns h info fuel s1 h2 (by omega) .thermostatStatus trivial (fun x => x.elim)
      obtain ⟨v, k2, k3⟩ := waits_back k1
      rw [k2]
      rcases v with ⟨st, _ | e⟩ | e | _
      · exact ⟨_, _, _, rfl, by simp⟩
      · exact ⟨_, _, _, rfl, by simp⟩
      · exact ⟨_, _, _, rfl, by simp⟩
      · exact absurd rfl k3
    · exact ⟨_, _, _, rfl, by simp⟩
    · exact ⟨_, _, _, rfl, by simp⟩
    · exact absurd rfl g2
  | thermostatReports on => obtain ⟨s', h1, -⟩ := call (.setStatusMessage on) trivial id; exact quiet _ _ h1

theorem run_settled (h : Orderly io ok left Hears) (sort : List LinkRecord → List LinkRecord) (f : FileFault) (modem : Linkable σ)
    (linkable : IcDev.Opened σ → Linkable σ) (filters : List (MsgIO σ → MsgIO σ)) (fuel : Nat) (db : FileDb) (hn : db.mem.nilMap = false) (addr : Address) (c : IcCommand)
    (hd : c.Downloads → Orderly io ok left NoReadRequests) (s : σ) (hs : ok s) (hl : left s < fuel) :
    ∃ s' db' t v, IcDev.run (IcDev.openAsk f modem linkable db io fuel s addr true (fun _ => false) filters) c.init (fun d s => c.exec sort fuel d s) =
      some (s', db', t, v) ∧ v ≠ .panic := by
  obtain ⟨s1, db1, dev, err, h1, h2, h3, h4, h5⟩ := h.openDevice f db hn fuel s hs hl addr filters
  have hopen : IcDev.openAsk f modem linkable db io fuel s addr true (fun _ => false) filters = some (s1, db1, .ok (dev, err)) := by
    unfold IcDev.openAsk
    rw [h1]
    dsimp only
    split_ifs <;> first | rfl | contradiction
  rw [hopen]
  unfold IcDev.run
  dsimp only
  rcases err with _ | e
  · obtain ⟨info, rfl⟩ := h5 rfl
    have hi : c.init (some (info, io), none) = .ok (.ok (info, io)) ∨ c.init (some (info, io), none) = .ok (.error (.other 60)) := by
      cases c <;> simp only [IcCommand.init, IcDev.initDevice, IcDev.initClass] <;> first | exact Or.inl trivial | (split_ifs <;> simp)
    rcases hi with hi | hi
    · rw [hi]
      dsimp only
      obtain ⟨s2, t, v, g1, g2⟩ := exec_settled h sort fuel info s1 h2 (by omega) c hd
      rw [g1]
      exact ⟨_, _, _, _, rfl, g2⟩
    · rw [hi]
      exact ⟨_, _, _, _, rfl, by simp⟩
  · have hi : c.init (dev, some e) = .ok (.error e) := by
      cases c <;> simp only [IcCommand.init, IcDev.initDevice, IcDev.initClass]
    rw [hi]
    exact ⟨_, _, _, _, rfl, by simp⟩

end

/-- C197: whatever bytes the serial line brings and whichever writes to it fail, the commands of ic for a device end once the line is silent: with an error or without, not by a crash. This is not so for
the four commands of `ic switch` that are left out (see `C141`), if a message that asks for links arrives while links are read (`ic_crash_refuted`), or with a database
file that contains `null` (`walk_crash_refuted`). -/
theorem ic_ends_partial (sort : List LinkRecord → List LinkRecord) (f : FileFault) (modem : Linkable Live) (linkable : IcDev.Opened Live → Linkable Live)
    (filters : List (MsgIO Live → MsgIO Live)) (fails : List Bytes → Option Nat) (retries fuel : Nat) (slots : List Bytes) (hf : 11 * slots.length < fuel) (db : FileDb) (hn : db.mem.nilMap = false)
    (addr : Address) (c : IcCommand) (hr : c.Downloads → ∀ b ∈ slots, ∀ p ∈ packetsIn false b, ¬ AsksForLinks p) :
    ∃ live' db' text r, c.program sort f modem linkable filters fails retries fuel slots db addr = some (live', db', text, r) ∧ r ≠ .panic := by
  by_cases hd : c.Downloads
  · have hq := live_orderly (fails := fails) (fun p => ¬ AsksForLinks p) retries fuel
    have hq' : Orderly (Live.faultyMsgIO fails retries fuel) (fun s => Steady (fun p => ¬ AsksForLinks p) s ∧ messagesLeft s < fuel) messagesLeft NoReadRequests :=
      ⟨fun s h => by
        obtain ⟨s1, m, e, h1, h2, h3, h4⟩ := hq.read s h
        exact ⟨s1, m, e, h1, h2, h3, fun he => ⟨(h4 he).1.imp fun x hx => ⟨hx.1, from_packet_quiet x hx.2⟩, (h4 he).2⟩⟩, hq.write⟩
    obtain ⟨h1, h2⟩ := init_ready (fun p => ¬ AsksForLinks p) slots (hr hd)
    exact run_settled hq' sort f modem linkable filters fuel db hn addr c (fun _ => hq') _ ⟨h1.steady, by omega⟩ (by omega)
  · have hq := live_orderly (fails := fails) (fun _ => True) retries fuel
    obtain ⟨h1, h2⟩ := init_ready (fun _ => True) slots (by simp)
    exact run_settled hq sort f modem linkable filters fuel db hn addr c (fun h => absurd h hd) _ ⟨h1.steady, by omega⟩ (by omega)

/-- A linkable thing that does nothing. -/
def exIdle : Linkable Live := ⟨0, fun s => (s, 0), fun s _ => (s, none), fun s _ => (s, none), fun s => (s, none), fun s => (s, [], none), fun s _ => (s, none),
  fun s _ => (s, none), none⟩

/-- C197: `ic device info` crashes if any device asks the modem for its links while it reads those of the device. -/
theorem ic_crash_refuted : ∃ live db' text, (IcCommand.info 4000 4001).program id FileFault.none exIdle (fun _ => exIdle) [] (fun _ => none) 3 100 exAsked
    ⟨⟨[(0x010203, exDimmer)], false, false⟩, none⟩ 0x010203 = some (live, db', text, .panic) := ⟨_, _, _, rfl⟩

/-- A command as in `ic_ends_partial`: a dimmer is asked for its status and answers among noise. -/
example : ∃ live db', IcCommand.dimmerStatus.program id FileFault.none exIdle (fun _ => exIdle) [] (fun _ => none) 3 100
    [[0x15, 0x02, 0x02, 0x62, 0x01, 0x02, 0x03, 0x0f, 0x19, 0x00, 0x06], [0x02, 0x50, 0x01, 0x02, 0x03, 0x04, 0x05, 0x06, 0x2f, 0x07, 0x80]]
    ⟨⟨[(0x010203, exDimmer)], false, false⟩, none⟩ 0x010203 = some (live, db', lit "Dimer is on at level 128\n", .ok none) := ⟨_, _, rfl⟩

end Insteon
