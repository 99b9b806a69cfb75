import Verif.Spec.IcAlike
import Verif.Props.Answers
import Verif.Props.Line

/-
C208: what the commands of ic for a device depend on, and that they work over the serial line as over messages.
-/

namespace Insteon
open Insteon.Spec

section
variable {σ τ : Type} {R : σ → τ → Prop}

theorem same_full {α : Type} (x : σ × Out α) (y : τ × Out α)
    (h : SameOutcome R (DeviceCall.full x) (DeviceCall.full y)) :
    x.2 = y.2 ∧ R x.1 y.1 := ⟨(Prod.mk.inj h.1).2, h.2⟩

theorem same_late {α : Type} (x : Option (σ × Out α)) (y : Option (τ × Out α))
    (h : SameOutcome R (DeviceCall.fullLate x) (DeviceCall.fullLate y)) :
    SameOutcome R x y := by
  rcases x with _ | ⟨s, x⟩ <;> rcases y with _ | ⟨t, y⟩
  · trivial
  · exact h.elim
  · exact h.elim
  · exact ⟨(Prod.mk.inj h.1).2, h.2⟩

theorem same_of {α : Type} (x : Option (σ × Ldb × Out α)) (y : Option (τ × Ldb × Out α))
    (h : SameOutcome R (DeviceCall.fullOf x) (DeviceCall.fullOf y)) :
    SameOutcome R x y := by
  rcases x with _ | ⟨s, l, x⟩ <;> rcases y with _ | ⟨t, m, y⟩
  · trivial
  · exact h.elim
  · exact h.elim
  · have h1 : l = m := Option.some.inj (Prod.mk.inj h.1).1
    have h2 : x = y := (Prod.mk.inj h.1).2
    exact ⟨by rw [h1, h2], h.2⟩

variable {a : MsgIO σ} {b : MsgIO τ} (h : AnswerAlike (fun _ => True) a b R)
include h

theorem alike_any (Q : Message → Prop) : AnswerAlike Q a b R := ⟨h.read, fun s t m hr _ => h.write s t m hr trivial⟩

theorem same_result (info : DeviceInfo) (c : DeviceCall) (fuel : Nat) (s : σ) (t : τ) (hr : R s t) : SameOutcome R (c.result info a fuel s) (c.result info b fuel t) := by
  have key := calls_same_answers info c fuel a b R (alike_any h _) s t hr
  revert key
  rcases c.result info a fuel s with _ | ⟨s', x⟩ <;> rcases c.result info b fuel t with _ | ⟨t', y⟩ <;> exact id

theorem alike_ic_links (info : DeviceInfo) (ldb : Ldb) (fuel : Nat) (now done : Int) (s : σ) (t : τ) (hr : R s t) :
    SameOutcome R (Ldb.getLinks (Device.io info a) fuel now done s ldb) (Ldb.getLinks (Device.io info b) fuel now done t ldb) :=
  same_of _ _ (same_result h info (.links ldb now done) fuel s t hr)

theorem alike_info (sort : List LinkRecord → List LinkRecord) (fuel : Nat) (now done : Int) (info : DeviceInfo) (extra : Bytes) (s : σ) (t : τ) (hr : R s t) :
    SameOutcome R (IcDev.printDevInfo sort fuel now done (info, a) extra s) (IcDev.printDevInfo sort fuel now done (info, b) extra t) := by
  have key := alike_ic_links h info ⟨0, [], []⟩ fuel now done s t hr
  unfold IcDev.printDevInfo
  dsimp only
  revert key
  rcases Ldb.getLinks (Device.io info a) fuel now done s ⟨0, [], []⟩ with _ | ⟨s1, l1, x1⟩ <;>
    rcases Ldb.getLinks (Device.io info b) fuel now done t ⟨0, [], []⟩ with _ | ⟨t1, m1, y1⟩ <;> intro key
  · trivial
  · exact key.elim
  · exact key.elim
  · obtain ⟨k1, k2⟩ := key
    obtain ⟨rfl, rfl⟩ := Prod.mk.inj k1
    rcases x1 with ⟨ls, _ | e⟩ | e | _ <;> exact ⟨rfl, k2⟩

theorem alike_dump (fuel : Nat) (now done : Int) (info : DeviceInfo) (s : σ) (t : τ) (hr : R s t) :
    SameOutcome R (IcDev.dumpCmd fuel now done (info, a) s) (IcDev.dumpCmd fuel now done (info, b) t) := by
  have key := alike_ic_links h info ⟨0, [], []⟩ fuel now done s t hr
  unfold IcDev.dumpCmd
  dsimp only
  revert key
  rcases Ldb.getLinks (Device.io info a) fuel now done s ⟨0, [], []⟩ with _ | ⟨s1, l1, x1⟩ <;>
    rcases Ldb.getLinks (Device.io info b) fuel now done t ⟨0, [], []⟩ with _ | ⟨t1, m1, y1⟩ <;> intro key
  · trivial
  · exact key.elim
  · exact key.elim
  · obtain ⟨k1, k2⟩ := key
    obtain ⟨rfl, rfl⟩ := Prod.mk.inj k1
    rcases x1 with ⟨ls, _ | e⟩ | e | _ <;> exact ⟨rfl, k2⟩

theorem alike_edit (fuel : Nat) (now done written : Int) (editor : Bytes → Except Err Bytes) (info : DeviceInfo) (s : σ) (t : τ) (hr : R s t) :
    SameOutcome R ((IcDev.deviceEdit fuel now done written editor (info, a) (s, ⟨0, [], []⟩)).map fun r => (r.1.1, ([] : Bytes), r.2))
      ((IcDev.deviceEdit fuel now done written editor (info, b) (t, ⟨0, [], []⟩)).map fun r => (r.1.1, ([] : Bytes), r.2)) := by
  have key := alike_ic_links h info ⟨0, [], []⟩ fuel now done s t hr
  unfold IcDev.deviceEdit Ic.editLinks
  dsimp only
  revert key
  rcases Ldb.getLinks (Device.io info a) fuel now done s ⟨0, [], []⟩ with _ | ⟨s1, l1, x1⟩ <;>
    rcases Ldb.getLinks (Device.io info b) fuel now done t ⟨0, [], []⟩ with _ | ⟨t1, m1, y1⟩ <;> intro key
  · trivial
  · exact key.elim
  · exact key.elim
  · obtain ⟨k1, k2⟩ := key
    obtain ⟨rfl, rfl⟩ := Prod.mk.inj k1
    rcases x1 with ⟨ls, e⟩ | e | _
    · dsimp only
      by_cases hl : ls.length = 0
      · rw [if_pos hl, if_pos hl]; exact ⟨rfl, k2⟩
      · rw [if_neg hl, if_neg hl]
        rcases editor (linksToText ls true) with e | out <;> dsimp only
        · exact ⟨rfl, k2⟩
        · by_cases ho : linksToText ls true = out
          · rw [if_pos ho, if_pos ho]; exact ⟨rfl, k2⟩
          · rw [if_neg ho, if_neg ho]
            rcases textToLinks out with ⟨new, _ | e⟩ <;> dsimp only
            · have key2 := same_of _ _ (same_result h info (.writeLinks l1 written new) fuel s1 t1 k2)
              refine ⟨?_, key2.2⟩
              have := (Prod.mk.inj key2.1).2
              exact congrArg (Prod.mk []) this
            · exact ⟨rfl, k2⟩
    · exact ⟨rfl, k2⟩
    · exact ⟨rfl, k2⟩

/-- A call without a value. -/
theorem alike_plain (x : σ × Out (Option Err)) (y : τ × Out (Option Err)) (hx : x.2 = y.2 ∧ R x.1 y.1) : SameOutcome R (IcDev.quiet x) (IcDev.quiet y) :=
  ⟨by rw [hx.1], hx.2⟩

theorem alike_exec (sort : List LinkRecord → List LinkRecord) (fuel : Nat) (info : DeviceInfo) (s : σ) (t : τ) (hr : R s t) (c : IcCommand) :
    SameOutcome R (c.exec sort fuel (info, a) s) (c.exec sort fuel (info, b) t) := by
  have call := fun c => same_result h info c fuel s t hr
  cases c with
  | version => exact ⟨rfl, hr⟩
  | info now done => exact alike_info h sort fuel now done info [] s t hr
  | dump now done => exact alike_dump h fuel now done info s t hr
  | edit now done written editor => exact alike_edit h fuel now done written editor info s t hr
  | device c =>
    refine alike_plain h _ _ ?_
    cases c with
    | link g => exact same_full _ _ (call (.enterLinkingMode g))
    | unlink g => exact same_full _ _ (call (.enterUnlinkingMode g))
    | exitlink => exact same_full _ _ (call .exitLinkingMode)
    | send c => exact same_full _ _ (call (.sendCommand c []))
    | esend c data => exact same_full _ _ (call (.sendCommand c data))
  | switchConfig now done =>
    have key := same_late _ _ (call .switchConfig)
    simp only [IcCommand.exec, IcDev.switchConfigCmd]
    revert key
    rcases Switch.config info a fuel s with _ | ⟨s1, x1⟩ <;> rcases Switch.config info b fuel t with _ | ⟨t1, y1⟩ <;> intro key
    · trivial
    · exact key.elim
    · exact key.elim
    · obtain ⟨k1, k2⟩ := key
      replace k1 : x1 = y1 := k1
      subst k1
      rcases x1 with ⟨c, _ | e⟩ | e | _
      · exact alike_info h sort fuel now done info _ s1 t1 k2
      · exact ⟨rfl, k2⟩
      · exact ⟨rfl, k2⟩
      · exact ⟨rfl, k2⟩
  | switchStatus =>
    have key := same_full _ _ (call .lightStatus)
    simp only [IcCommand.exec, IcDev.switchStatusCmd]
    revert key
    rcases Switch.status info a s with ⟨s1, x1⟩; rcases Switch.status info b t with ⟨t1, y1⟩; intro key
    obtain ⟨k1, k2⟩ := key
    replace k1 : x1 = y1 := k1
    subst k1
    rcases x1 with ⟨l, _ | e⟩ | e | _ <;> exact ⟨rfl, k2⟩
  | dimmer c =>
    refine alike_plain h _ _ ?_
    cases c with
    | on level => exact same_full _ _ (call (.turnOn level))
    | off => exact same_full _ _ (call .turnOff)
    | backlight on => exact same_full _ _ (call (.setBacklight on))
    | loadsense on => exact same_full _ _ (call (.setLoadSense on))
    | brighten => exact same_full _ _ (call .brighten)
    | dim => exact same_full _ _ (call .dim)
    | startBrighten => exact same_full _ _ (call .startBrighten)
    | startDim => exact same_full _ _ (call .startDim)
    | stopChange => exact same_full _ _ (call .stopManualChange)
    | onfast => exact same_full _ _ (call .onFast)
    | instantChange level => exact same_full _ _ (call (.instantChange level))
    | setstatus level => exact same_full _ _ (call (.setStatus level))
    | onramp level rate => exact same_full _ _ (call (.onAtRamp level rate))
    | offramp rate => exact same_full _ _ (call (.offAtRamp rate))
  | dimmerConfig =>
    have key := same_late _ _ (call .dimmerConfig)
    simp only [IcCommand.exec, IcDev.dimmerConfigCmd]
    revert key
    rcases Dimmer.config info a fuel s with _ | ⟨s1, x1⟩ <;> rcases Dimmer.config info b fuel t with _ | ⟨t1, y1⟩ <;> intro key
    · trivial
    · exact key.elim
    · exact key.elim
    · obtain ⟨k1, k2⟩ := key
      replace k1 : x1 = y1 := k1
      subst k1
      rcases x1 with ⟨c, e⟩ | e | _
      · dsimp only
        have key2 := same_full _ _ (same_result h info .operatingFlags fuel s1 t1 k2)
        revert key2
        rcases Switch.operatingFlags info a s1 with ⟨s2, x2⟩; rcases Switch.operatingFlags info b t1 with ⟨t2, y2⟩; intro key2
        obtain ⟨k3, k4⟩ := key2
        replace k3 : x2 = y2 := k3
        subst k3
        rcases x2 with ⟨l, _ | e⟩ | e | _ <;> exact ⟨rfl, k4⟩
      · exact ⟨rfl, k2⟩
      · exact ⟨rfl, k2⟩
  | dimmerStatus =>
    have key := same_full _ _ (call .lightStatus)
    simp only [IcCommand.exec, IcDev.dimmerStatusCmd]
    revert key
    rcases Switch.status info a s with ⟨s1, x1⟩; rcases Switch.status info b t with ⟨t1, y1⟩; intro key
    obtain ⟨k1, k2⟩ := key
    replace k1 : x1 = y1 := k1
    subst k1
    rcases x1 with ⟨l, _ | e⟩ | e | _ <;> exact ⟨rfl, k2⟩
  | thermostatStatus =>
    have key := same_full _ _ (call (.setTempUnit 0))
    simp only [IcCommand.exec, IcDev.thermStatusCmd]
    revert key
    rcases Thermostat.setTempUnit info a s 0 with ⟨s1, x1⟩; rcases Thermostat.setTempUnit info b t 0 with ⟨t1, y1⟩; intro key
    obtain ⟨k1, k2⟩ := key
    replace k1 : x1 = y1 := k1
    subst k1
    rcases x1 with (_ | e) | e | _
    · dsimp only
      have key2 := same_late _ _ (same_result h info .thermostatStatus fuel s1 t1 k2)
      revert key2
      rcases Thermostat.status info a fuel s1 with _ | ⟨s2, x2⟩ <;> rcases Thermostat.status info b fuel t1 with _ | ⟨t2, y2⟩ <;> intro key2
      · trivial
      · exact key2.elim
      · exact key2.elim
      · obtain ⟨k3, k4⟩ := key2
        replace k3 : x2 = y2 := k3
        subst k3
        rcases x2 with ⟨l, _ | e⟩ | e | _ <;> exact ⟨rfl, k4⟩
    · exact ⟨rfl, k2⟩
    · exact ⟨rfl, k2⟩
    · exact ⟨rfl, k2⟩
  | thermostatReports on => exact alike_plain h _ _ (same_full _ _ (call (.setStatusMessage on)))

/-- Running a command on the device opened. -/
theorem alike_run (sort : List LinkRecord → List LinkRecord) (fuel : Nat) (c : IcCommand) (db : FileDb) (s : σ) (t : τ) (hr : R s t) (o : Option DeviceInfo) (e : Option Err) :
    SameOutcome R (IcDev.run (some (s, db, .ok (o.map fun i => (i, a), e))) c.init (fun d s => c.exec sort fuel d s))
      (IcDev.run (some (t, db, .ok (o.map fun i => (i, b), e))) c.init (fun d s => c.exec sort fuel d s)) := by
  have go : ∀ info, SameOutcome R (match c.exec sort fuel (info, a) s with | none => none | some (s, text, r) => some (s, db, text, r))
      (match c.exec sort fuel (info, b) t with | none => none | some (s, text, r) => some (s, db, text, r)) := by
    intro info
    have key := alike_exec h sort fuel info s t hr c
    revert key
    rcases c.exec sort fuel (info, a) s with _ | ⟨s1, x1⟩ <;> rcases c.exec sort fuel (info, b) t with _ | ⟨t1, y1⟩ <;> intro key
    · trivial
    · exact key.elim
    · exact key.elim
    · obtain ⟨k1, k2⟩ := key
      exact ⟨by rw [show x1 = y1 from k1], k2⟩
  rcases e with _ | e
  · rcases o with _ | info
    · cases c <;> exact ⟨rfl, hr⟩
    · have dev : SameOutcome R (IcDev.run (some (s, db, .ok ((some info).map fun i => (i, a), none))) IcDev.initDevice (fun d s => c.exec sort fuel d s))
          (IcDev.run (some (t, db, .ok ((some info).map fun i => (i, b), none))) IcDev.initDevice (fun d s => c.exec sort fuel d s)) := go info
      have cls : ∀ k, SameOutcome R (IcDev.run (some (s, db, .ok ((some info).map fun i => (i, a), none))) (IcDev.initClass k) (fun d s => c.exec sort fuel d s))
          (IcDev.run (some (t, db, .ok ((some info).map fun i => (i, b), none))) (IcDev.initClass k) (fun d s => c.exec sort fuel d s)) := by
        intro k
        simp only [IcDev.run, IcDev.initClass, Option.map_some]
        by_cases hk : Dev.lookup info.devCat = k
        · rw [if_pos hk, if_pos hk]; exact go info
        · rw [if_neg hk, if_neg hk]; exact ⟨rfl, hr⟩
      cases c <;> first | exact dev | exact cls _
  · cases c <;> exact ⟨rfl, hr⟩

/-- C208: a command of ic for a device over two message writers that give the same results: it ends over both or over none, prints the same text, returns the same error, leaves the
same database file, and corresponding states. The filters and the modem make no difference. -/
theorem ic_same_answers (sort : List LinkRecord → List LinkRecord) (f : FileFault) (ma : Linkable σ) (la : IcDev.Opened σ → Linkable σ) (fa : List (MsgIO σ → MsgIO σ))
    (mb : Linkable τ) (lb : IcDev.Opened τ → Linkable τ) (fb : List (MsgIO τ → MsgIO τ)) (fuel : Nat) (db : FileDb) (addr : Address) (c : IcCommand) (s : σ) (t : τ) (hr : R s t) :
    SameOutcome R (c.over sort f ma la fa a fuel db addr s) (c.over sort f mb lb fb b fuel db addr t) := by
  have ask : ∀ {ρ : Type} (m : Linkable ρ) (l) (fs) (io : MsgIO ρ) (s : ρ), IcDev.openAsk f m l db io fuel s addr true (fun _ => false) fs = db.openDevice f io fuel s addr fs := by
    intro ρ m l fs io s
    unfold IcDev.openAsk
    rcases db.openDevice f io fuel s addr fs with _ | ⟨s1, db1, ⟨d, e⟩ | e | _⟩ <;> try rfl
    dsimp only
    split <;> rfl
  unfold IcCommand.over
  rw [ask, ask]
  unfold FileDb.openDevice MemDb.openDevice
  rcases db.mem.get addr with _ | info
  · have key := same_late _ _ (same_result h ⟨0#32, (0#8, 0#8), 0, 0⟩ (.openDevice addr) fuel s t hr)
    simp only [applyFilters]
    revert key
    rcases Dev.open a fuel s addr with _ | ⟨s1, x1⟩ <;> rcases Dev.open b fuel t addr with _ | ⟨t1, y1⟩ <;> intro key
    · trivial
    · exact key.elim
    · exact key.elim
    · obtain ⟨k1, k2⟩ := key
      replace k1 : x1 = y1 := k1
      subst k1
      rcases x1 with ⟨dev, info, e⟩ | e | _
      · dsimp only
        rcases (if e = none then db.mem.put info else some db.mem) with _ | mem <;> dsimp only
        · exact ⟨rfl, k2⟩
        · cases dev
          · exact alike_run h sort fuel c _ s1 t1 k2 none _
          · exact alike_run h sort fuel c _ s1 t1 k2 (some info) _
      · exact ⟨rfl, k2⟩
      · exact ⟨rfl, k2⟩
  · exact alike_run h sort fuel c _ s t hr (some info) _

end

/-- C208: over the serial line a command of ic for a device does what it does over the same network in terms of messages: same text, same error, same database file. -/
theorem ic_over_line {δ : Type} (net : Network δ) (hnet : net.Lawful) (sort : List LinkRecord → List LinkRecord) (f : FileFault)
    (ma : Linkable (Wired δ)) (la : IcDev.Opened (Wired δ) → Linkable (Wired δ)) (fa : List (MsgIO (Wired δ) → MsgIO (Wired δ)))
    (mb : Linkable (Inbox δ)) (lb : IcDev.Opened (Inbox δ) → Linkable (Inbox δ)) (fb : List (MsgIO (Inbox δ) → MsgIO (Inbox δ)))
    (retries fuel wait : Nat) (hw : 10 < wait) (db : FileDb) (addr : Address) (c : IcCommand) (w : Wired δ) (s : Inbox δ) (h : OnLine w s) :
    SameOutcome OnLine (c.over sort f ma la fa (Wired.msgIO net.modem retries wait) fuel db addr w) (c.over sort f mb lb fb (net.writer retries) fuel db addr s) :=
  ic_same_answers (line_alike net hnet retries wait hw _) sort f ma la fa mb lb fb fuel db addr c w s h

/-- A database file that knows the light of `busyLamp`. -/
def lampDb : FileDb := ⟨⟨[(0x010203#32, ⟨0x010203#32, (1, 0), 0, 1⟩)], false, false⟩, none⟩

/-- `ic dimmer 01.02.03 status` with a modem that is busy at first, over messages. -/
example (modem : Linkable (Inbox (Bool × BitVec 8))) (linkable) (filters) : ((IcCommand.dimmerStatus).over id FileFault.none modem linkable filters (busyLamp.writer 3) 5 lampDb 0x010203#32
      ⟨(true, 0x40#8), []⟩).map (fun r => r.2.2) = some (lit "Dimer is on at level 64\n", .ok none) := rfl

/-- And over the serial line. -/
example (modem : Linkable (Wired (Bool × BitVec 8))) (linkable) (filters) (modem' : Linkable (Inbox (Bool × BitVec 8))) (linkable' : IcDev.Opened (Inbox (Bool × BitVec 8)) → Linkable (Inbox (Bool × BitVec 8))) : ((IcCommand.dimmerStatus).over id FileFault.none modem linkable filters
      (Wired.msgIO busyLamp.modem 3 11) 5 lampDb 0x010203#32 (Wired.init (true, 0x40#8))).map (fun r => r.2.2) = some (lit "Dimer is on at level 64\n", .ok none) := by
  have h := ic_over_line busyLamp busyLamp_lawful id FileFault.none modem linkable filters modem'
    linkable' [] 3 5 11 (by decide) lampDb 0x010203#32 .dimmerStatus _ _ (line_start (true, 0x40#8))
  revert h
  rcases (IcCommand.dimmerStatus).over id FileFault.none modem linkable filters (Wired.msgIO busyLamp.modem 3 11) 5 lampDb 0x010203#32 (Wired.init (true, 0x40#8)) with _ | ⟨w, x⟩
  · exact False.elim
  · intro h
    rw [Option.map_some, show x = _ from h.1]; rfl

end Insteon
