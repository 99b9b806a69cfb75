import Verif.Spec.IcFailures
import Verif.Props.Failures

/-
Property C202: ic reports failures.
-/

namespace Insteon
open Spec

section
variable {σ : Type} {io : MsgIO (Watched σ)}

/-- What became of a command: any failure was the end of it and is an error; the same error unless the command is one for editing. -/
def OwnedCmd (edits : Prop) (r : Option (Watched σ × Bytes × Out (Option Err))) : Prop :=
  ∀ w' t v, r = some (w', t, v) → v ≠ .panic → w'.more = false ∧ ∀ e, w'.failed = some e → v = .ok (some e) ∨ v = .err e ∨ (edits ∧ v = .ok (some (.other 55)))

theorem OwnedCmd.of {p : Prop} {w : Watched σ} {t : Bytes} {v : Out (Option Err)} (h : OwnedOut id w v) : OwnedCmd p (some (w, t, v)) := by
  intro w' t' v' hr hp
  simp only [Option.some.injEq, Prod.mk.injEq] at hr
  obtain ⟨rfl, rfl, rfl⟩ := hr
  rcases v with e | e | _
  · exact ⟨h.1, fun x hx => Or.inl (by rw [show e = some x from h.2 x hx])⟩
  · exact ⟨h.1, fun x hx => Or.inr (Or.inl (by have := h.2 x hx; simp at this; rw [this]))⟩
  · exact absurd rfl hp

theorem OwnedCmd.nothing {p : Prop} : OwnedCmd (σ := σ) p none := by intro w' t v hr; simp at hr

theorem quiet_owned {p : Prop} {r : Watched σ × Out (Option Err)} (h : ReportOwned (DeviceCall.tells id r)) : OwnedCmd p (IcDev.quiet r) := by
  obtain ⟨w, v⟩ := r
  refine OwnedCmd.of ?_
  rcases v with e | e | _
  · exact h w e rfl
  · exact h w (some e) rfl
  · trivial

theorem printed_owned {p : Prop} (h : Noting io) (sort : List LinkRecord → List LinkRecord) (fuel : Nat) (now done : Int) (info : DeviceInfo) (extra : Bytes)
    (w : Watched σ) (hw : Owned w none) : OwnedCmd p (IcDev.printDevInfo sort fuel now done (info, io) extra w) := by
  have o1 := (h.device info).getLinks fuel now done w hw ⟨0, [], []⟩
  unfold IcDev.printDevInfo
  dsimp only
  rcases h1 : Ldb.getLinks (Device.io info io) fuel now done w ⟨0, [], []⟩ with _ | ⟨w1, d, ⟨ls, _ | e⟩ | e | _⟩ <;> rw [h1] at o1
  · exact .nothing
  · exact .of (o1 _ _ _ rfl)
  · exact .of (o1 _ _ _ rfl)
  · exact .of (o1 _ _ _ rfl)
  · exact .of trivial

theorem exec_owned (h : Noting io) (sort : List LinkRecord → List LinkRecord) (fuel : Nat) (info : DeviceInfo) (w : Watched σ) (hw : Owned w none) (c : IcCommand)
    (hc : ¬ c.AsksTwice) : OwnedCmd c.Edits (c.exec sort fuel (info, io) w) := by
  have call := fun (c : DeviceCall) (hc : ∀ ldb now done ls, c ≠ .updateLinks ldb now done ls) (he : ¬ c.AsksEngine) => report_owned h info fuel w hw c hc he
  cases c with
  | version => exact .of hw
  | info now done => exact printed_owned h sort fuel now done info [] w hw
  | dump now done =>
    have o1 := (h.device info).getLinks fuel now done w hw ⟨0, [], []⟩
    unfold IcCommand.exec IcDev.dumpCmd
    dsimp only
    rcases h1 : Ldb.getLinks (Device.io info io) fuel now done w ⟨0, [], []⟩ with _ | ⟨w1, d, ⟨ls, _ | e⟩ | e | _⟩ <;> rw [h1] at o1
    · exact .nothing
    · exact .of (o1 _ _ _ rfl)
    · exact .of (o1 _ _ _ rfl)
    · exact .of (o1 _ _ _ rfl)
    · exact .of trivial
  | device c =>
    cases c with
    | link g => exact quiet_owned (call (.enterLinkingMode g) (by simp) id)
    | unlink g => exact quiet_owned (call (.enterUnlinkingMode g) (by simp) id)
    | exitlink => exact quiet_owned (call .exitLinkingMode (by simp) id)
    | send c => exact quiet_owned (call (.sendCommand c []) (by simp) id)
    | esend c data => exact quiet_owned (call (.sendCommand c data) (by simp) id)
  | edit now done written editor =>
    have o1 := (h.device info).getLinks fuel now done w hw ⟨0, [], []⟩
    unfold IcCommand.exec IcDev.deviceEdit Ic.editLinks
    dsimp only
    rcases h1 : Ldb.getLinks (Device.io info io) fuel now done w ⟨0, [], []⟩ with _ | ⟨w1, d, ⟨ls, e⟩ | e | _⟩ <;> rw [h1] at o1
    · exact .nothing
    · dsimp only
      have o2 : Owned w1 e := o1 _ _ _ rfl
      have hls : e ≠ none → ls = [] := by
        intro hne
        unfold Ldb.getLinks at h1
        rcases hr : Ldb.refresh (Device.io info io) fuel now done w ⟨0, [], []⟩ with _ | ⟨w2, d2, (_ | e2) | e2 | _⟩ <;> rw [hr] at h1 <;> simp at h1
        · exact absurd h1.2.2.2.symm hne
        · exact h1.2.2.1
      rcases e with _ | e
      · split_ifs
        · exact .of (o2.weaken _)
        · rcases editor (linksToText ls true) with x | output
          · exact .of (o2.weaken _)
          · dsimp only
            split_ifs
            · exact .of (o2.weaken _)
            · rcases textToLinks output with ⟨new, _ | x⟩
              · exact .of ((h.device info).writeLinks written new w1 o2 d)
              · exact .of (o2.weaken _)
      · rw [hls (by simp)]
        intro w' t v hr hp
        simp at hr
        obtain ⟨rfl, rfl, rfl⟩ := hr
        exact ⟨o2.1, fun x hx => Or.inr (Or.inr ⟨trivial, rfl⟩)⟩
    · exact .of (o1 _ _ _ rfl)
    · exact .of trivial
  | switchConfig now done =>
    have o1 := call .switchConfig (by simp) id
    unfold IcCommand.exec IcDev.switchConfigCmd
    dsimp only
    simp only [DeviceCall.report] at o1
    rcases h1 : Switch.config info io fuel w with _ | ⟨w1, ⟨c, _ | e⟩ | e | _⟩ <;> rw [h1] at o1
    · exact .nothing
    · exact printed_owned h sort fuel now done info _ w1 (o1 _ _ rfl)
    · exact .of (o1 _ _ rfl)
    · exact .of (o1 _ _ rfl)
    · exact .of trivial
  | switchStatus =>
    have o1 := call .lightStatus (by simp) id
    unfold IcCommand.exec IcDev.switchStatusCmd
    dsimp only
    simp only [DeviceCall.report] at o1
    rcases h1 : Switch.status info io w with ⟨w1, ⟨c, _ | e⟩ | e | _⟩ <;> rw [h1] at o1
    · exact .of (o1 _ _ rfl)
    · exact .of (o1 _ _ rfl)
    · exact .of (o1 _ _ rfl)
    · exact .of trivial
  | dimmer c =>
    cases c with
    | on level => exact quiet_owned (call (.turnOn level) (by simp) id)
    | off => exact quiet_owned (call .turnOff (by simp) id)
    | backlight b => exact quiet_owned (call (.setBacklight b) (by simp) id)
    | loadsense b => exact quiet_owned (call (.setLoadSense b) (by simp) id)
    | brighten => exact quiet_owned (call .brighten (by simp) id)
    | dim => exact quiet_owned (call .dim (by simp) id)
    | startBrighten => exact quiet_owned (call .startBrighten (by simp) id)
    | startDim => exact quiet_owned (call .startDim (by simp) id)
    | stopChange => exact quiet_owned (call .stopManualChange (by simp) id)
    | onfast => exact quiet_owned (call .onFast (by simp) id)
    | instantChange level => exact quiet_owned (call (.instantChange level) (by simp) id)
    | setstatus level => exact quiet_owned (call (.setStatus level) (by simp) id)
    | onramp level rate => exact quiet_owned (call (.onAtRamp level rate) (by simp) id)
    | offramp rate => exact quiet_owned (call (.offAtRamp rate) (by simp) id)
  | dimmerConfig => exact absurd trivial hc
  | dimmerStatus =>
    have o1 := call .lightStatus (by simp) id
    unfold IcCommand.exec IcDev.dimmerStatusCmd
    dsimp only
    simp only [DeviceCall.report] at o1
    rcases h1 : Switch.status info io w with ⟨w1, ⟨c, _ | e⟩ | e | _⟩ <;> rw [h1] at o1
    · exact .of (o1 _ _ rfl)
    · exact .of (o1 _ _ rfl)
    · exact .of (o1 _ _ rfl)
    · exact .of trivial
  | thermostatStatus =>
    have o1 := call (.setTempUnit 0) (by simp) id
    unfold IcCommand.exec IcDev.thermStatusCmd
    dsimp only
    simp only [DeviceCall.report] at o1
    rcases h1 : Thermostat.setTempUnit info io w 0 with ⟨w1, (_ | e) | e | _⟩ <;> rw [h1] at o1
    · have o2 := report_owned h info fuel w1 (o1 _ _ rfl) .thermostatStatus (by simp) id
      dsimp only
      simp only [DeviceCall.report] at o2
      rcases h2 : Thermostat.status info io fuel w1 with _ | ⟨w2, ⟨c, _ | e⟩ | e | _⟩ <;> rw [h2] at o2
      · exact .nothing
      · exact .of (o2 _ _ rfl)
      · exact .of (o2 _ _ rfl)
      · exact .of (o2 _ _ rfl)
      · exact .of trivial
    · exact .of (o1 _ _ rfl)
    · exact .of (o1 _ _ rfl)
    · exact .of trivial
  | thermostatReports on => exact quiet_owned (call (.setStatusMessage on) (by simp) id)

theorem opened_owned (h : Noting io) (f : FileFault) (db db' : FileDb) (fuel : Nat) (w w' : Watched σ) (hw : Owned w none) (addr : Address)
    (filters : List (MsgIO (Watched σ) → MsgIO (Watched σ))) (r : Out (Option (IcDev.Opened (Watched σ)) × Option Err))
    (hr : db.openDevice f io fuel w addr filters = some (w', db', r)) (hp : r ≠ .panic) :
    (∃ dev err, r = .ok (dev, err) ∧ OwnedNak w' err ∧ (err = none → Owned w' none ∧ ∀ d, dev = some d → d.2 = io)) ∨ ∃ e, r = .err e ∧ OwnedNak w' (some e) := by
  unfold FileDb.openDevice MemDb.openDevice at hr
  rcases hg : db.mem.get addr with _ | info <;> rw [hg] at hr <;> dsimp only [applyFilters] at hr
  · have o1 := h.open_report fuel w hw addr
    rcases ho : Dev.open io fuel w addr with _ | ⟨w1, ⟨d, i, e⟩ | e | _⟩ <;> rw [ho] at hr o1 <;> dsimp only at hr
    · simp at hr
    · have o2 := o1 w1 e rfl
      rcases hq : (if e = none then db.mem.put i else some db.mem) with _ | mem <;> rw [hq] at hr <;> dsimp only at hr
      · simp at hr
        exact absurd hr.2.2.symm hp
      · simp only [Option.some.injEq, Prod.mk.injEq] at hr
        obtain ⟨rfl, -, rfl⟩ := hr
        refine Or.inl ⟨_, _, rfl, ?_, ?_⟩
        · refine ⟨o2.1, fun x hx => ?_⟩
          have : e ≠ none := by rintro rfl; rcases o2.2 x hx with h | h <;> simp at h
          unfold FileDb.save
          rw [if_neg (fun hc => this hc.1)]
          exact o2.2 x hx
        · intro hn
          have he : e = none := by
            unfold FileDb.save at hn
            split_ifs at hn with hc
            · exact hc.1
            · exact hn
          subst he
          refine ⟨⟨o2.1, fun x hx => ?_⟩, ?_⟩
          · rcases o2.2 x hx with h | h <;> simp at h
          · intro d' hd
            split_ifs at hd
            simp only [Option.some.injEq] at hd
            rw [← hd]
    · simp only [Option.some.injEq, Prod.mk.injEq] at hr
      obtain ⟨rfl, -, rfl⟩ := hr
      exact Or.inr ⟨e, rfl, o1 w1 (some e) rfl⟩
    · simp at hr
      exact absurd hr.2.2.symm hp
  · simp only [Option.some.injEq, Prod.mk.injEq] at hr
    obtain ⟨rfl, -, rfl⟩ := hr
    refine Or.inl ⟨_, _, rfl, (hw.weaken _).nak, fun _ => ⟨hw, ?_⟩⟩
    intro d hd
    simp only [Option.some.injEq] at hd
    rw [← hd]

end

/-- C202 (in part): over any message writer, when a command of ic for a device ends (other than by a crash), nothing was read or written after the first failure, and the
error of the command is that failure, "not linked" for a refusal to tell the engine version, or "no links to edit" if links to be edited could not be read. This does not
hold of `ic dimmer config` (`dimmer_config_status_refuted`). -/
theorem ic_failure_partial {σ : Type} (sort : List LinkRecord → List LinkRecord) (f : FileFault) (modem : Linkable (Watched σ))
    (linkable : IcDev.Opened (Watched σ) → Linkable (Watched σ)) (filters : List (MsgIO (Watched σ) → MsgIO (Watched σ))) (io : MsgIO σ) (fuel : Nat) (db db' : FileDb)
    (addr : Address) (c : IcCommand) (hc : ¬ c.AsksTwice) (s : σ) (w : Watched σ) (text : Bytes) (r : Out (Option Err))
    (h : c.over sort f modem linkable filters (watch io) fuel db addr ⟨s, none, false⟩ = some (w, db', text, r)) (hp : r ≠ .panic) :
    w.more = false ∧ ∀ e, w.failed = some e → r = .ok (some e) ∨ r = .err e ∨ (e = .devNak ∧ (r = .ok (some .notLinked) ∨ r = .err .notLinked)) ∨
      (c.Edits ∧ r = .ok (some (.other 55))) := by
  have hw : Owned (⟨s, none, false⟩ : Watched σ) none := ⟨rfl, by simp⟩
  have nak : ∀ (w : Watched σ) (e : Err), OwnedNak w (some e) → ∀ x, w.failed = some x → x = e ∨ (x = .devNak ∧ e = .notLinked) := by
    intro w e ho x hx
    rcases ho.2 x hx with h | ⟨h1, h2⟩
    · left; simpa using h.symm
    · right; exact ⟨h1, by simpa using h2⟩
  have hopen : IcDev.openAsk f modem linkable db (watch io) fuel ⟨s, none, false⟩ addr true (fun _ => false) filters =
      db.openDevice f (watch io) fuel ⟨s, none, false⟩ addr filters := by
    unfold IcDev.openAsk
    rcases db.openDevice f (watch io) fuel ⟨s, none, false⟩ addr filters with _ | ⟨w1, db1, ⟨dev, err⟩ | e | _⟩ <;> dsimp only
    split_ifs <;> first | rfl | contradiction
  unfold IcCommand.over at h
  rw [hopen] at h
  rcases ho : db.openDevice f (watch io) fuel ⟨s, none, false⟩ addr filters with _ | ⟨w1, db1, v⟩ <;> rw [ho] at h <;> unfold IcDev.run at h
  · simp at h
  by_cases hv : v = .panic
  · subst hv
    simp at h
    exact absurd h.2.2.2.symm hp
  rcases opened_owned (watch_noting io) f db db1 fuel _ w1 hw addr filters v ho hv with ⟨dev, err, rfl, o1, o2⟩ | ⟨e, rfl, o1⟩
  · dsimp only at h
    rcases err with _ | e
    · obtain ⟨o3, o4⟩ := o2 rfl
      rcases dev with _ | ⟨info, dio⟩
      · have hi : c.init (none, none) = (.panic : Out (Except Err (IcDev.Opened (Watched σ)))) := by
          cases c <;> simp only [IcCommand.init, IcDev.initDevice, IcDev.initClass]
        rw [hi] at h
        simp at h
        exact absurd h.2.2.2.symm hp
      · obtain rfl : dio = watch io := o4 _ rfl
        have hi : c.init (some (info, watch io), none) = .ok (.ok (info, watch io)) ∨ c.init (some (info, watch io), none) = .ok (.error (.other 60)) := by
          cases c <;> simp only [IcCommand.init, IcDev.initDevice, IcDev.initClass] <;> first | exact Or.inl trivial | (split_ifs <;> simp)
        rcases hi with hi | hi <;> rw [hi] at h <;> dsimp only at h
        · have o5 := exec_owned (watch_noting io) sort fuel info w1 o3 c hc
          rcases hx : c.exec sort fuel (info, watch io) w1 with _ | ⟨w2, t, v⟩ <;> rw [hx] at h o5
          · simp at h
          · simp only [Option.some.injEq, Prod.mk.injEq] at h
            obtain ⟨rfl, -, rfl, rfl⟩ := h
            obtain ⟨h1, h2⟩ := o5 _ _ _ rfl hp
            refine ⟨h1, fun e he => ?_⟩
            rcases h2 e he with h | h | h
            · exact Or.inl h
            · exact Or.inr (Or.inl h)
            · exact Or.inr (Or.inr (Or.inr h))
        · simp only [Option.some.injEq, Prod.mk.injEq] at h
          obtain ⟨rfl, -, -, rfl⟩ := h
          exact ⟨o3.1, fun e he => by simpa using o3.2 e he⟩
    · have hi : c.init (dev, some e) = .ok (.error e) := by
        cases c <;> simp only [IcCommand.init, IcDev.initDevice, IcDev.initClass]
      rw [hi] at h
      simp only [Option.some.injEq, Prod.mk.injEq] at h
      obtain ⟨rfl, -, -, rfl⟩ := h
      refine ⟨o1.1, fun x hx => ?_⟩
      rcases nak w1 e o1 x hx with rfl | ⟨rfl, rfl⟩
      · exact Or.inl rfl
      · exact Or.inr (Or.inr (Or.inl ⟨rfl, Or.inl rfl⟩))
  · dsimp only at h
    simp only [Option.some.injEq, Prod.mk.injEq] at h
    obtain ⟨rfl, -, -, rfl⟩ := h
    refine ⟨o1.1, fun x hx => ?_⟩
    rcases nak w1 e o1 x hx with rfl | ⟨rfl, rfl⟩
    · exact Or.inr (Or.inl rfl)
    · exact Or.inr (Or.inr (Or.inl ⟨rfl, Or.inr rfl⟩))

/-- C202: an exit status of 0 means that nothing failed. -/
theorem ic_success_partial {σ : Type} (sort : List LinkRecord → List LinkRecord) (f : FileFault) (modem : Linkable (Watched σ))
    (linkable : IcDev.Opened (Watched σ) → Linkable (Watched σ)) (filters : List (MsgIO (Watched σ) → MsgIO (Watched σ))) (io : MsgIO σ) (fuel : Nat) (db db' : FileDb)
    (addr : Address) (c : IcCommand) (hc : ¬ c.AsksTwice) (s : σ) (w : Watched σ) (text : Bytes) (r : Out (Option Err))
    (h : c.over sort f modem linkable filters (watch io) fuel db addr ⟨s, none, false⟩ = some (w, db', text, r)) (hx : Ic.exitStatus r = 0) : w.failed = none := by
  have hr : r = .ok none := by
    rcases r with (_ | e) | e | _ <;> simp [Ic.exitStatus] at hx ⊢
  subst hr
  obtain ⟨-, h2⟩ := ic_failure_partial sort f modem linkable filters io fuel db db' addr c hc s w text _ h (by simp)
  rcases hw : w.failed with _ | e
  · rfl
  · have := h2 e hw
    simp at this

/-- A linkable thing that does nothing, and the database that knows a dimmer or a thermostat. -/
def stillThing : Linkable (Watched Nat) := ⟨0, fun s => (s, 0), fun s _ => (s, none), fun s _ => (s, none), fun s => (s, none), fun s => (s, [], none), fun s _ => (s, none),
  fun s _ => (s, none), none⟩

def knowsOne (domain : BitVec 8) : FileDb := ⟨⟨[(0x010203, ⟨0x010203#32, (domain, 0), 0, 1⟩)], false, false⟩, none⟩

/-- The hypotheses can be met, with and without a failure: `ic device info` of a device with no links, where nothing fails and where the second exchange does; a device that
is opened, but cannot be identified. -/
example : ∃ w db text, (IcCommand.info 4000 4001).over id FileFault.none stillThing (fun _ => stillThing) [] (watch (timesOutAt 7)) 5 (knowsOne 1) 0x010203 ⟨0, none, false⟩ =
    some (w, db, text, .ok none) ∧ w.failed = none ∧ w.world = 2 := ⟨_, _, _, rfl, rfl, rfl⟩

example : ∃ w db text, (IcCommand.info 4000 4001).over id FileFault.none stillThing (fun _ => stillThing) [] (watch (timesOutAt 1)) 5 (knowsOne 1) 0x010203 ⟨0, none, false⟩ =
    some (w, db, text, .ok (some .devReadTimeout)) ∧ w.failed = some .devReadTimeout := ⟨_, _, _, rfl, rfl⟩

example : ∃ w db text, (IcCommand.dimmer .off).over id FileFault.none stillThing (fun _ => stillThing) [] (watch (timesOutAt 1)) 5 ⟨MemDb.new, none⟩ 0x010203 ⟨0, none, false⟩ =
    some (w, db, text, .ok (some .devReadTimeout)) ∧ w.failed = some .devReadTimeout ∧ w.world = 2 := ⟨_, _, _, rfl, rfl, rfl⟩

/-- C202 fails for `ic dimmer config`: when the configuration cannot be read, the flags are asked for all the same, and the exit status is 0. -/
theorem dimmer_config_status_refuted : ∃ w db text, IcCommand.dimmerConfig.over id FileFault.none stillThing (fun _ => stillThing) [] (watch (timesOutAt 1)) 5 (knowsOne 1) 0x010203
    ⟨0, none, false⟩ = some (w, db, text, .ok none) ∧ Ic.exitStatus (.ok none) = 0 ∧ w.failed = some .devReadTimeout ∧ w.more = true := ⟨_, _, _, rfl, rfl, rfl, rfl⟩

/-- C202 fails for `ic device edit`: when the links cannot be read, the user is told that there are none. -/
theorem edit_renamed_refuted : ∃ w db text, (IcCommand.edit 4000 4001 4002 .ok).over id FileFault.none stillThing (fun _ => stillThing) [] (watch (timesOutAt 0)) 5 (knowsOne 1)
    0x010203 ⟨0, none, false⟩ = some (w, db, text, .ok (some (.other 55))) ∧ w.failed = some .devReadTimeout := ⟨_, _, _, rfl, rfl⟩

end Insteon
