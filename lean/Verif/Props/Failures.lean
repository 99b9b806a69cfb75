import Verif.Spec.Failures
import Verif.Props.Calls

/-
Property C198: a call on a device ends with the first failure and reports it.
-/

namespace Insteon
open Spec

section
variable {σ : Type}

/-- Nothing has gone wrong so far, or what went wrong is the error reported, and was the end of it. -/
def Owned (w : Watched σ) (err : Option Err) : Prop := w.more = false ∧ ∀ e, w.failed = some e → err = some e

def OwnedOut {α : Type} (err : α → Option Err) (w : Watched σ) : Out α → Prop
  | .ok v => Owned w (err v)
  | .err e => Owned w (some e)
  | .panic => True

theorem Owned.weaken {w : Watched σ} (h : Owned w none) (e : Option Err) : Owned w e := ⟨h.1, fun x hx => by simpa using h.2 x hx⟩

theorem owned_none {w : Watched σ} : Owned w none ↔ w.more = false ∧ w.failed = none := by
  unfold Owned
  rcases w.failed with _ | e <;> simp

/-- A message writer that notes failures. -/
structure Noting (io : MsgIO (Watched σ)) : Prop where
  read : ∀ w w' m e, Owned w none → io.read w = (w', .ret m e) → Owned w' e
  write : ∀ w msg w' m e, Owned w none → io.write w msg = (w', .ret m e) → Owned w' e

theorem watch_noting (io : MsgIO σ) : Noting (watch io) where
  read := by
    intro w w' m e hw h
    rw [owned_none] at hw
    simp only [watch, Prod.mk.injEq] at h
    obtain ⟨rfl, h⟩ := h
    rw [h]
    simp [Owned, hw.1, hw.2, errorOf]
  write := by
    intro w msg w' m e hw h
    rw [owned_none] at hw
    simp only [watch, Prod.mk.injEq] at h
    obtain ⟨rfl, h⟩ := h
    rw [h]
    simp [Owned, hw.1, hw.2, errorOf]

variable {io : MsgIO (Watched σ)}

theorem Noting.device (h : Noting io) (info : DeviceInfo) : Noting (Device.io info io) :=
  ⟨h.read, fun w msg => h.write w (Device.prepare info msg)⟩

theorem Noting.dwrite (h : Noting io) (info : DeviceInfo) (w : Watched σ) (msg : Message) (w' : Watched σ) (m : Option Message) (e : Option Err)
    (hw : Owned w none) (hr : Device.write info io w msg = (w', .ret m e)) : Owned w' e := h.write w _ w' m e hw hr

theorem Noting.devRead (h : Noting io) (f : Matcher) (fuel : Nat) (w : Watched σ) (hw : Owned w none) (w' : Watched σ) (m : Option Message) (e : Option Err)
    (hr : Dev.read io f fuel w = some (w', .ret m e)) : Owned w' e := by
  induction fuel generalizing w with
  | zero => simp [Dev.read] at hr
  | succ fuel ih =>
    rw [Dev.read] at hr
    rcases h1 : io.read w with ⟨w1, ⟨_ | x, _ | e1⟩ | _⟩ <;> rw [h1] at hr <;> dsimp only at hr
    · simp at hr
    · simp only [Option.some.injEq, Prod.mk.injEq, MRes.ret.injEq] at hr
      obtain ⟨rfl, -, rfl⟩ := hr
      exact h.read _ _ _ _ hw h1
    · split_ifs at hr
      · simp only [Option.some.injEq, Prod.mk.injEq, MRes.ret.injEq] at hr
        obtain ⟨rfl, -, rfl⟩ := hr
        exact h.read _ _ _ _ hw h1
      · exact ih w1 (h.read _ _ _ _ hw h1) hr
    · simp only [Option.some.injEq, Prod.mk.injEq, MRes.ret.injEq] at hr
      obtain ⟨rfl, -, rfl⟩ := hr
      exact h.read _ _ _ _ hw h1
    · simp at hr

/-- What is claimed of a call. -/
def OwnedAt {α : Type} (err : α → Option Err) (r : Watched σ × Out α) : Prop := OwnedOut err r.1 r.2

def OwnedLate {α : Type} (err : α → Option Err) (r : Option (Watched σ × Out α)) : Prop := ∀ w' v, r = some (w', v) → OwnedOut err w' v

def OwnedOf {α : Type} (err : α → Option Err) (r : Option (Watched σ × Ldb × Out α)) : Prop := ∀ w' l v, r = some (w', l, v) → OwnedOut err w' v

theorem OwnedLate.of {α : Type} {err : α → Option Err} {w : Watched σ} {v : Out α} (h : OwnedOut err w v) : OwnedLate err (some (w, v)) := by
  intro w' v' hr
  simp only [Option.some.injEq, Prod.mk.injEq] at hr
  obtain ⟨rfl, rfl⟩ := hr
  exact h

theorem OwnedOf.of {α : Type} {err : α → Option Err} {w : Watched σ} {l : Ldb} {v : Out α} (h : OwnedOut err w v) : OwnedOf err (some (w, l, v)) := by
  intro w' l' v' hr
  simp only [Option.some.injEq, Prod.mk.injEq] at hr
  obtain ⟨rfl, rfl, rfl⟩ := hr
  exact h

theorem OwnedLate.nothing {α : Type} {err : α → Option Err} : OwnedLate (σ := σ) err none := by intro w' v hr; simp at hr

theorem OwnedOf.nothing {α : Type} {err : α → Option Err} : OwnedOf (σ := σ) err none := by intro w' l v hr; simp at hr

theorem Noting.send (h : Noting io) (info : DeviceInfo) (w : Watched σ) (hw : Owned w none) (c : Command) (p : Bytes) :
    OwnedAt Prod.snd (Device.send info io w c p) := by
  unfold Device.send
  rcases h1 : Device.write info io w ⟨0, 0, 0, c, p⟩ with ⟨w1, ⟨_ | x, _ | e⟩ | _⟩
  · trivial
  · exact h.dwrite info _ _ _ _ _ hw h1
  · exact h.dwrite info _ _ _ _ _ hw h1
  · exact h.dwrite info _ _ _ _ _ hw h1
  · trivial

theorem Noting.sendCommand (h : Noting io) (info : DeviceInfo) (w : Watched σ) (hw : Owned w none) (c : Command) (p : Bytes) :
    OwnedAt id (Device.sendCommand info io w c p) := by
  have := h.send info w hw c p
  unfold Device.sendCommand
  rcases h1 : Device.send info io w c p with ⟨w1, ⟨v, e⟩ | e | _⟩ <;> rw [h1] at this <;> exact this

theorem Noting.query (h : Noting io) (info : DeviceInfo) (fuel : Nat) (w : Watched σ) (hw : Owned w none) (c : Command) (p : Bytes) (a : Command) :
    OwnedLate (fun v => match v with | .error e => some e | .ok _ => none) (Device.query info io fuel w c p a) := by
  unfold Device.query
  rcases h1 : Device.write info io w ⟨0, 0, 0, c, p⟩ with ⟨w1, ⟨x, _ | e⟩ | _⟩
  · have hw1 := h.dwrite info _ _ _ _ _ hw h1
    dsimp only
    rcases h2 : Dev.read (Device.io info io) (Matcher.cmd a) fuel w1 with _ | ⟨w2, ⟨_ | x, _ | e⟩ | _⟩
    · exact .nothing
    · exact .of trivial
    · exact .of ((h.device info).devRead _ _ _ hw1 _ _ _ h2)
    · exact .of ((h.device info).devRead _ _ _ hw1 _ _ _ h2)
    · exact .of ((h.device info).devRead _ _ _ hw1 _ _ _ h2)
    · exact .of trivial
  · exact .of (h.dwrite info _ _ _ _ _ hw h1)
  · exact .of trivial

theorem Noting.askAll (h : Noting io) (info : DeviceInfo) (cs : List Command) (w : Watched σ) (hw : Owned w none) :
    OwnedAt Prod.snd (Device.askAll info io cs w) := by
  induction cs generalizing w with
  | nil => exact hw
  | cons c cs ih =>
    rw [Device.askAll]
    rcases h1 : Device.write info io w ⟨0, 0, 0, c, []⟩ with ⟨w1, ⟨_ | x, _ | e⟩ | _⟩
    · trivial
    · exact h.dwrite info _ _ _ _ _ hw h1
    · have := ih w1 (h.dwrite info _ _ _ _ _ hw h1)
      dsimp only
      rcases h2 : Device.askAll info io cs w1 with ⟨w2, ⟨v, e⟩ | e | _⟩ <;> rw [h2] at this <;> exact this
    · exact h.dwrite info _ _ _ _ _ hw h1
    · trivial

/-- As `Owned`, but a refusal may be reported as what it means: that the device is not linked. -/
def OwnedNak (w : Watched σ) (err : Option Err) : Prop := w.more = false ∧ ∀ e, w.failed = some e → err = some e ∨ (e = .devNak ∧ err = some .notLinked)

theorem Owned.nak {w : Watched σ} {err : Option Err} (h : Owned w err) : OwnedNak w err := ⟨h.1, fun e he => Or.inl (h.2 e he)⟩

theorem Noting.engine (h : Noting io) (w : Watched σ) (hw : Owned w none) (dst : Address) :
    ∀ w' v, getEngineVersion io w dst = (w', .ok v) → OwnedNak w' v.2 ∧ (v.2 = none → Owned w' none) := by
  unfold getEngineVersion
  rcases h1 : io.write w ⟨0, dst, Flags.standardDirectMessage, Cmd.getEngineVersion, []⟩ with ⟨w1, ⟨_ | x, _ | e⟩ | _⟩ <;> dsimp only <;> intro w' v hr
  · simp at hr
  · have ho := h.write _ _ _ _ _ hw h1
    split_ifs at hr
    · simp at hr
    · simp only [Prod.mk.injEq, Out.ok.injEq] at hr
      obtain ⟨rfl, rfl⟩ := hr
      exact ⟨ho.nak, by simp⟩
  · have ho := h.write _ _ _ _ _ hw h1
    simp only [Prod.mk.injEq, Out.ok.injEq] at hr
    obtain ⟨rfl, rfl⟩ := hr
    exact ⟨ho.nak, fun _ => ho⟩
  · have ho := h.write _ _ _ _ _ hw h1
    split_ifs at hr with he hf
    · simp only [Prod.mk.injEq, Out.ok.injEq] at hr
      obtain ⟨rfl, rfl⟩ := hr
      subst he
      exact ⟨⟨ho.1, fun e he => Or.inr ⟨by simpa using (ho.2 e he).symm, rfl⟩⟩, by simp⟩
    · simp only [Prod.mk.injEq, Out.ok.injEq] at hr
      obtain ⟨rfl, rfl⟩ := hr
      subst he
      exact ⟨ho.nak, by simp⟩
    · simp only [Prod.mk.injEq, Out.ok.injEq] at hr
      obtain ⟨rfl, rfl⟩ := hr
      exact ⟨ho.nak, by simp⟩
  · simp at hr

theorem Noting.ident (h : Noting io) (fuel : Nat) (w : Watched σ) (hw : Owned w none) (dst : Address) :
    OwnedLate (fun v => v.2.2) (idRequest io fuel w dst) := by
  unfold idRequest
  rcases h1 : io.write w ⟨0, dst, Flags.standardDirectMessage, Cmd.idRequest, []⟩ with ⟨w1, ⟨x, _ | e⟩ | _⟩
  · have hw1 := h.write _ _ _ _ _ hw h1
    dsimp only
    rcases h2 : Dev.read io (Matcher.or [Matcher.cmd Cmd.setButtonPressedResponder, Matcher.cmd Cmd.setButtonPressedController]) fuel w1 with
      _ | ⟨w2, ⟨_ | x, _ | e⟩ | _⟩
    · exact .nothing
    · exact .of trivial
    · exact .of (h.devRead _ _ _ hw1 _ _ _ h2)
    · exact .of (h.devRead _ _ _ hw1 _ _ _ h2)
    · exact .of (h.devRead _ _ _ hw1 _ _ _ h2)
    · exact .of trivial
  · exact .of (h.write _ _ _ _ _ hw h1)
  · exact .of trivial

theorem Noting.extendedGet (h : Noting io) (info : DeviceInfo) (fuel : Nat) (w : Watched σ) (hw : Owned w none) (d : Bytes) :
    OwnedLate Prod.snd (Device.extendedGet info io fuel w d) := by
  have := h.query info fuel w hw Cmd.extendedGetSet d Cmd.extendedGetSet
  unfold Device.extendedGet
  rcases h1 : Device.query info io fuel w Cmd.extendedGetSet d Cmd.extendedGetSet with _ | ⟨w1, (e | v) | e | _⟩
  · exact .nothing
  all_goals (rw [h1] at this; exact .of (this _ _ rfl))

theorem Noting.ask (h : Noting io) (info : DeviceInfo) (w : Watched σ) (hw : Owned w none) (c : Command) :
    OwnedAt Prod.snd (Thermostat.ask info io w c) := by
  have := h.send info w hw c []
  unfold Thermostat.ask
  rcases h1 : Device.send info io w c [] with ⟨w1, ⟨v, e⟩ | e | _⟩ <;> rw [h1] at this <;> exact this

theorem Noting.infoStep (h : Noting io) (info : DeviceInfo) (fuel : Nat) (w : Watched σ) (hw : Owned w none) (ti : ThermostatInfo) (i : Byte) :
    OwnedLate Prod.snd (Thermostat.getInfoStep info io fuel w ti i) := by
  have := h.extendedGet info fuel w hw [0x00#8, 0x00#8, i]
  unfold Thermostat.getInfoStep
  rcases h1 : Device.extendedGet info io fuel w [0x00#8, 0x00#8, i] with _ | ⟨w1, ⟨v, _ | e⟩ | e | _⟩
  · exact .nothing
  all_goals (rw [h1] at this)
  · exact .of (Owned.weaken (this _ _ rfl) _)
  · exact .of (this _ _ rfl)
  · exact .of (this _ _ rfl)
  · exact .of trivial

theorem Noting.thermInfo (h : Noting io) (info : DeviceInfo) (fuel : Nat) (w : Watched σ) (hw : Owned w none) :
    OwnedLate Prod.snd (Thermostat.getInfo info io fuel w) := by
  have := h.infoStep info fuel w hw .zero 0#8
  unfold Thermostat.getInfo
  rcases h1 : Thermostat.getInfoStep info io fuel w .zero 0#8 with _ | ⟨w1, ⟨v, _ | e⟩ | e | _⟩
  · exact .nothing
  all_goals (rw [h1] at this)
  · exact h.infoStep info fuel w1 (this _ _ rfl) v 1#8
  · exact this
  · exact this
  · exact this

theorem Noting.tempUnit (h : Noting io) (info : DeviceInfo) (fuel : Nat) (w : Watched σ) (hw : Owned w none) :
    OwnedLate Prod.snd (Thermostat.getTempUnit info io fuel w) := by
  have := h.thermInfo info fuel w hw
  unfold Thermostat.getTempUnit
  rcases h1 : Thermostat.getInfo info io fuel w with _ | ⟨w1, ⟨v, e⟩ | e | _⟩
  · exact .nothing
  all_goals (rw [h1] at this; exact .of (this _ _ rfl))

theorem Noting.zone (h : Noting io) (info : DeviceInfo) (w : Watched σ) (hw : Owned w none) (z : Int) :
    OwnedAt Prod.snd (Thermostat.getZoneInfo info io w z) := by
  unfold Thermostat.getZoneInfo
  dsimp only
  have := h.askAll info [Cmd.getZoneInfo.subCommand (BitVec.ofInt 64 z &&& 0x0f#64),
    Cmd.getZoneInfo.subCommand (0x10#64 ||| BitVec.ofInt 64 z &&& 0x0f#64),
    Cmd.getZoneInfo.subCommand (0x20#64 ||| BitVec.ofInt 64 z &&& 0x0f#64),
    Cmd.getZoneInfo.subCommand (0x30#64 ||| BitVec.ofInt 64 z &&& 0x0f#64)] w hw
  rcases h1 : Device.askAll info io [Cmd.getZoneInfo.subCommand (BitVec.ofInt 64 z &&& 0x0f#64),
    Cmd.getZoneInfo.subCommand (0x10#64 ||| BitVec.ofInt 64 z &&& 0x0f#64),
    Cmd.getZoneInfo.subCommand (0x20#64 ||| BitVec.ofInt 64 z &&& 0x0f#64),
    Cmd.getZoneInfo.subCommand (0x30#64 ||| BitVec.ofInt 64 z &&& 0x0f#64)] w with ⟨w1, ⟨v, e⟩ | e | _⟩ <;> rw [h1] at this <;> exact this

theorem Noting.thermMode (h : Noting io) (info : DeviceInfo) (w : Watched σ) (hw : Owned w none) :
    OwnedAt Prod.snd (Thermostat.getMode info io w) := by
  have := h.ask info w hw Cmd.getThermostatMode
  unfold Thermostat.getMode
  rcases h1 : Thermostat.ask info io w Cmd.getThermostatMode with ⟨w1, ⟨v, e⟩ | e | _⟩ <;> rw [h1] at this <;> exact this

theorem Noting.equipment (h : Noting io) (info : DeviceInfo) (w : Watched σ) (hw : Owned w none) :
    OwnedAt Prod.snd (Thermostat.getEquipmentState info io w) := by
  have := h.ask info w hw Cmd.getEquipmentState
  unfold Thermostat.getEquipmentState
  rcases h1 : Thermostat.ask info io w Cmd.getEquipmentState with ⟨w1, ⟨v, e⟩ | e | _⟩ <;> rw [h1] at this <;> exact this

theorem Noting.thermStatus (h : Noting io) (info : DeviceInfo) (fuel : Nat) (w : Watched σ) (hw : Owned w none) :
    OwnedLate Prod.snd (Thermostat.status info io fuel w) := by
  unfold Thermostat.status
  have o1 := h.zone info w hw 0
  rcases h1 : Thermostat.getZoneInfo info io w 0 with ⟨w1, ⟨v, _ | e⟩ | e | _⟩ <;> rw [h1] at o1 <;> dsimp only
  · have o2 := h.tempUnit info fuel w1 o1
    rcases h2 : Thermostat.getTempUnit info io fuel w1 with _ | ⟨w2, ⟨u, _ | e⟩ | e | _⟩
    · exact .nothing
    · rw [h2] at o2
      have o2 := o2 _ _ rfl
      dsimp only
      have o3 := h.thermMode info w2 o2
      rcases h3 : Thermostat.getMode info io w2 with ⟨w3, ⟨m, _ | e⟩ | e | _⟩ <;> rw [h3] at o3 <;> dsimp only
      · have o4 := h.equipment info w3 o3
        rcases h4 : Thermostat.getEquipmentState info io w3 with ⟨w4, ⟨q, e⟩ | e | _⟩ <;> rw [h4] at o4 <;> exact .of o4
      · exact .of o3
      · exact .of o3
      · exact .of o3
    all_goals (rw [h2] at o2; exact .of (o2 _ _ rfl))
  · exact .of o1
  · exact .of o1
  · exact .of o1

/-! ### Links -/

theorem Noting.writeLink (h : Noting io) (w : Watched σ) (hw : Owned w none) (ldb : Ldb) (i : Int) (l : LinkRecord) :
    OwnedOut id (Ldb.writeLink io w ldb i l).1 (Ldb.writeLink io w ldb i l).2.2 := by
  unfold Ldb.writeLink
  by_cases hgt : i > ldb.links.length
  · rw [if_pos hgt]; exact hw.weaken _
  · rw [if_neg hgt]
    have hm : (⟨LinkRequest.writeLink, Ldb.memAddressOf i, 0, some l⟩ : LinkRequest).marshalBinary =
        .ok ([0, LinkRequest.writeLink, (Ldb.memAddressOf i >>> 8).setWidth 8, (Ldb.memAddressOf i &&& 0xff#64).setWidth 8] ++ [0x08#8] ++
          copyPad 9 l.marshalBinary) := rfl
    rw [hm]
    dsimp only
    rcases h1 : io.write w ⟨0, 0, 0, Cmd.readWriteALDB, [0, LinkRequest.writeLink, (Ldb.memAddressOf i >>> 8).setWidth 8,
      (Ldb.memAddressOf i &&& 0xff#64).setWidth 8] ++ [0x08#8] ++ copyPad 9 l.marshalBinary⟩ with ⟨w1, ⟨x, _ | e⟩ | _⟩
    · have ho := h.write _ _ _ _ _ hw h1
      dsimp only
      split_ifs <;> first | exact ho | trivial
    · exact h.write _ _ _ _ _ hw h1
    · trivial

theorem Noting.writeLinksLoop (h : Noting io) (ls : List LinkRecord) (i : Nat) (w : Watched σ) (hw : Owned w none) (ldb : Ldb) :
    OwnedOut id (Ldb.writeLinksLoop io i ls w ldb).1 (Ldb.writeLinksLoop io i ls w ldb).2.2 := by
  induction ls generalizing i w ldb with
  | nil => exact hw
  | cons l ls ih =>
    have o1 := h.writeLink w hw ldb i (Ldb.notLast l)
    rw [Ldb.writeLinksLoop]
    rcases h1 : Ldb.writeLink io w ldb i (Ldb.notLast l) with ⟨w1, d, (_ | e) | e | _⟩ <;> rw [h1] at o1
    · exact ih (i + 1) w1 o1 d
    · exact o1
    · exact o1
    · exact o1

theorem Noting.writeLinks (h : Noting io) (done : Int) (ls : List LinkRecord) (w : Watched σ) (hw : Owned w none) (ldb : Ldb) :
    OwnedOut id (Ldb.writeLinks io done w ldb ls).1 (Ldb.writeLinks io done w ldb ls).2.2 := by
  have o1 := h.writeLinksLoop ls 0 w hw ldb
  unfold Ldb.writeLinks
  rcases h1 : Ldb.writeLinksLoop io 0 ls w ldb with ⟨w1, d, (_ | e) | e | _⟩ <;> rw [h1] at o1
  · dsimp only
    have o2 := h.writeLink w1 o1 d d.links.length Ldb.endRecord
    rcases h2 : Ldb.writeLink io w1 d d.links.length Ldb.endRecord with ⟨w2, d2, (_ | e) | e | _⟩ <;> rw [h2] at o2 <;> exact o2
  · exact o1
  · exact o1
  · exact o1

theorem Noting.refreshLoop (h : Noting io) (fr fuel : Nat) (w : Watched σ) (hw : Owned w none) (ldb : Ldb) (last : MemAddress) :
    OwnedOf id (Ldb.refreshLoop io fr fuel w ldb last) := by
  induction fuel generalizing w ldb last with
  | zero => exact .nothing
  | succ fuel ih =>
    rw [Ldb.refreshLoop]
    rcases h1 : Dev.read io (Matcher.cmd Cmd.readWriteALDB) fr w with _ | ⟨w1, ⟨_ | x, _ | e⟩ | _⟩ <;> dsimp only
    · exact .nothing
    · exact .of trivial
    · exact .of (h.devRead _ _ _ hw _ _ _ h1)
    · have ho := h.devRead _ _ _ hw _ _ _ h1
      rcases hu : LinkRequest.zero.unmarshalBinary x.payload with ⟨lr, _ | e⟩ <;> dsimp only
      · split_ifs
        · rcases lr.link with _ | l
          · exact .of trivial
          · dsimp only
            split_ifs
            · exact .of ho
            · exact ih w1 ho _ _
        · exact ih w1 ho _ _
      · exact .of (ho.weaken _)
    · exact .of (h.devRead _ _ _ hw _ _ _ h1)
    · exact .of trivial

theorem Noting.refresh (h : Noting io) (fuel : Nat) (now done : Int) (w : Watched σ) (hw : Owned w none) (ldb : Ldb) :
    OwnedOf id (Ldb.refresh io fuel now done w ldb) := by
  unfold Ldb.refresh
  split_ifs
  · exact .of hw
  · dsimp only
    rcases h1 : io.write w Ldb.readRequest with ⟨w1, ⟨x, _ | e⟩ | _⟩
    · dsimp only
      have o2 := h.refreshLoop fuel fuel w1 (h.write _ _ _ _ _ hw h1) { ldb with index := [], links := [] } 0#64
      rcases h2 : Ldb.refreshLoop io fuel fuel w1 { ldb with index := [], links := [] } 0#64 with _ | ⟨w2, d, (_ | e) | e | _⟩ <;> rw [h2] at o2
      · exact .nothing
      · exact .of (o2 _ _ _ rfl)
      · exact o2
      · exact o2
      · exact o2
    · exact .of (h.write _ _ _ _ _ hw h1)
    · exact .of trivial

theorem Noting.getLinks (h : Noting io) (fuel : Nat) (now done : Int) (w : Watched σ) (hw : Owned w none) (ldb : Ldb) :
    OwnedOf Prod.snd (Ldb.getLinks io fuel now done w ldb) := by
  have o1 := h.refresh fuel now done w hw ldb
  unfold Ldb.getLinks
  rcases h1 : Ldb.refresh io fuel now done w ldb with _ | ⟨w1, d, (_ | e) | e | _⟩
  · exact .nothing
  all_goals (rw [h1] at o1; exact .of (o1 _ _ _ rfl))

theorem Noting.addLoop (h : Noting io) (rest : List LinkRecord) (i : Nat) (adds : List LinkRecord) (w : Watched σ) (hw : Owned w none) (ldb : Ldb) :
    OwnedOut Prod.snd (Ldb.addLoop io i rest adds w ldb).1 (Ldb.addLoop io i rest adds w ldb).2.2 := by
  induction rest generalizing i adds w ldb with
  | nil => exact hw
  | cons l rest ih =>
    rw [Ldb.addLoop.eq_def]
    rcases adds with _ | ⟨a, as⟩
    · exact hw
    · dsimp only
      split_ifs with hav
      · have o1 := h.writeLink w hw ldb i l
        rcases h1 : Ldb.writeLink io w ldb i l with ⟨w1, d, (_ | e) | e | _⟩ <;> rw [h1] at o1
        · exact ih (i + 1) as w1 o1 _
        · exact o1
        · trivial
        · trivial
      · exact ih (i + 1) as w hw ldb

theorem Noting.addAppend (h : Noting io) (ls : List LinkRecord) (w : Watched σ) (hw : Owned w none) (ldb : Ldb) :
    OwnedOut id (Ldb.addAppend io ls w ldb).1 (Ldb.addAppend io ls w ldb).2.2 := by
  induction ls generalizing w ldb with
  | nil => exact hw
  | cons l ls ih =>
    have o1 := h.writeLink w hw ldb ldb.links.length (Ldb.notLast l)
    rw [Ldb.addAppend]
    rcases h1 : Ldb.writeLink io w ldb ldb.links.length (Ldb.notLast l) with ⟨w1, d, (_ | e) | e | _⟩ <;> rw [h1] at o1
    · exact ih w1 o1 d
    · exact o1
    · exact o1
    · exact o1

theorem Noting.addLinks (h : Noting io) (fuel : Nat) (now done : Int) (w : Watched σ) (hw : Owned w none) (ldb : Ldb) (ls : List LinkRecord) :
    OwnedOf id (Ldb.addLinks io fuel now done w ldb ls) := by
  unfold Ldb.addLinks
  split_ifs
  · exact .of hw
  · have o1 := h.refresh fuel now done w hw ldb
    rcases h1 : Ldb.refresh io fuel now done w ldb with _ | ⟨w1, d, (_ | e) | e | _⟩
    · exact .nothing
    · rw [h1] at o1
      have o1 := o1 _ _ _ rfl
      dsimp only
      have o2 := h.addLoop d.links 0 ls w1 o1 d
      rcases h2 : Ldb.addLoop io 0 d.links ls w1 d with ⟨w2, d2, ⟨l2, _ | e⟩ | e | _⟩ <;> rw [h2] at o2 <;> dsimp only
      · intro w' l' v' hr
        have o3 := h.addAppend l2 w2 o2 d2
        simp only [Option.some.injEq] at hr
        rw [hr] at o3
        exact o3
      · exact .of o2
      · exact .of trivial
      · exact .of trivial
    all_goals (rw [h1] at o1; exact o1)

theorem Noting.updateFound (h : Noting io) (ls kept : List LinkRecord) (w : Watched σ) (hw : Owned w none) (ldb : Ldb) :
    OwnedOut Prod.snd (Ldb.updateFound io kept ls w ldb).1 (Ldb.updateFound io kept ls w ldb).2.2 := by
  induction ls generalizing kept w ldb with
  | nil => exact hw
  | cons l ls ih =>
    rw [Ldb.updateFound]
    rcases Ldb.lookup ldb.index l.id with _ | j
    · exact ih _ w hw ldb
    · dsimp only
      rcases ldb.links[j]? with _ | old
      · trivial
      · dsimp only
        split_ifs
        · have o1 := h.writeLink w hw ldb kept.length l
          rcases h1 : Ldb.writeLink io w ldb kept.length l with ⟨w1, d, (_ | e) | e | _⟩ <;> rw [h1] at o1
          · exact ih _ w1 o1 d
          · exact o1
          · trivial
          · trivial
        · exact ih _ w hw ldb

theorem Noting.updateAvailable (h : Noting io) (fuel i : Nat) (ls : List LinkRecord) (w : Watched σ) (hw : Owned w none) (ldb : Ldb) :
    OwnedOut Prod.snd (Ldb.updateAvailable io fuel i ls w ldb).1 (Ldb.updateAvailable io fuel i ls w ldb).2.2 := by
  induction fuel generalizing i ls w ldb with
  | zero => exact hw
  | succ fuel ih =>
    rw [Ldb.updateAvailable.eq_def]
    dsimp only
    rcases ldb.links[i]? with _ | r
    · exact hw
    · rcases ls with _ | ⟨l, ls⟩
      · exact ih _ _ w hw ldb
      · dsimp only
        split_ifs
        · have o1 := h.writeLink w hw ldb i (Ldb.notLast l)
          rcases h1 : Ldb.writeLink io w ldb i (Ldb.notLast l) with ⟨w1, d, (_ | e) | e | _⟩ <;> rw [h1] at o1
          · exact ih _ _ w1 o1 d
          · exact o1
          · trivial
          · trivial
        · exact ih _ _ w hw ldb

theorem updateFound_length (ls kept : List LinkRecord) (w : Watched σ) (ldb : Ldb) (w' : Watched σ) (d : Ldb) (out : List LinkRecord)
    (h : Ldb.updateFound io kept ls w ldb = (w', d, .ok (out, none))) : out.length ≤ kept.length + ls.length := by
  induction ls generalizing kept w ldb with
  | nil =>
    simp only [Ldb.updateFound, Prod.mk.injEq, Out.ok.injEq] at h
    rw [← h.2.2.1]; simp
  | cons l ls ih =>
    rw [Ldb.updateFound] at h
    rcases hk : Ldb.lookup ldb.index l.id with _ | j <;> rw [hk] at h <;> dsimp only at h
    · have := ih _ _ _ h
      simp only [List.length_append, List.length_cons, List.length_nil] at this ⊢
      omega
    · rcases hj : ldb.links[j]? with _ | old <;> rw [hj] at h <;> dsimp only at h
      · simp at h
      · split_ifs at h
        · rcases h1 : Ldb.writeLink io w ldb kept.length l with ⟨w1, d1, (_ | e) | e | _⟩ <;> rw [h1] at h <;> dsimp only at h
          · have := ih _ _ _ h
            simp only [List.length_cons]; omega
          · simp at h
          · simp at h
          · simp at h
        · have := ih _ _ _ h
          simp only [List.length_cons]; omega

theorem updateAvailable_length (fuel i : Nat) (ls : List LinkRecord) (w : Watched σ) (ldb : Ldb) (w' : Watched σ) (d : Ldb) (out : List LinkRecord)
    (h : Ldb.updateAvailable io fuel i ls w ldb = (w', d, .ok (out, none))) : out.length ≤ ls.length := by
  induction fuel generalizing i ls w ldb with
  | zero =>
    simp only [Ldb.updateAvailable, Prod.mk.injEq, Out.ok.injEq] at h
    rw [← h.2.2.1]
  | succ fuel ih =>
    rw [Ldb.updateAvailable.eq_def] at h
    dsimp only at h
    rcases hr : ldb.links[i]? with _ | r <;> rw [hr] at h
    · dsimp only at h
      simp only [Prod.mk.injEq, Out.ok.injEq] at h
      rw [← h.2.2.1]
    · rcases ls with _ | ⟨l, ls⟩ <;> dsimp only at h
      · exact ih _ _ _ _ h
      · split_ifs at h
        · rcases h1 : Ldb.writeLink io w ldb i (Ldb.notLast l) with ⟨w1, d1, (_ | e) | e | _⟩ <;> rw [h1] at h <;> dsimp only at h
          · have := ih _ _ _ _ h
            simp only [List.length_cons]; omega
          · simp at h
          · simp at h
          · simp at h
        · exact ih _ _ _ _ h

/-- Once appending failed, every later index is out of range, and nothing is written. -/
theorem updateAppend_stuck (ls : List LinkRecord) (i : Nat) (e : Err) (w : Watched σ) (ldb : Ldb) (hi : ldb.links.length < i) :
    ∃ e', Ldb.updateAppend io i ls (some e) w ldb = (w, ldb, .ok (some e')) := by
  induction ls generalizing i e with
  | nil => exact ⟨e, rfl⟩
  | cons l ls ih =>
    have h1 : Ldb.writeLink io w ldb i (Ldb.notLast l) = (w, ldb, .ok (some .linkIndexOutOfRange)) := by
      unfold Ldb.writeLink
      rw [if_pos (by omega)]
    rw [Ldb.updateAppend, h1]
    exact ih (i + 1) _ (by omega)

theorem notLast_flag (l : LinkRecord) : (Ldb.notLast l).flags.lastRecord = false := by
  have : ∀ f : Byte, RecordControlFlags.lastRecord (RecordControlFlags.clearLastRecord f) = false := by decide +kernel
  exact this _

/-- What a write leaves behind: the list is as before if it failed, and one longer if it was at the end. -/
theorem writeLink_kept (w : Watched σ) (ldb : Ldb) (l : LinkRecord) (w' : Watched σ) (d : Ldb) (e : Option Err)
    (h : Ldb.writeLink io w ldb ldb.links.length (Ldb.notLast l) = (w', d, .ok e)) :
    (e.isSome → d.links.length = ldb.links.length) ∧ (e = none → d.links.length = ldb.links.length + 1) := by
  have hm : (⟨LinkRequest.writeLink, Ldb.memAddressOf ldb.links.length, 0, some (Ldb.notLast l)⟩ : LinkRequest).marshalBinary =
      .ok ([0, LinkRequest.writeLink, (Ldb.memAddressOf ldb.links.length >>> 8).setWidth 8, (Ldb.memAddressOf ldb.links.length &&& 0xff#64).setWidth 8] ++ [0x08#8] ++
        copyPad 9 (Ldb.notLast l).marshalBinary) := rfl
  unfold Ldb.writeLink at h
  rw [if_neg (by omega), hm] at h
  dsimp only at h
  split at h
  · simp at h
  · simp only [Prod.mk.injEq, Out.ok.injEq] at h
    obtain ⟨-, rfl, rfl⟩ := h
    simp
  · rw [notLast_flag, if_neg (by simp), if_pos rfl] at h
    simp only [Prod.mk.injEq, Out.ok.injEq] at h
    obtain ⟨-, rfl, rfl⟩ := h
    simp

theorem errorAmong_ok {α : Type} (f : α → Option Err) (v : Out α) (e : Option Err) (h : errorAmong f v = .ok e) :
    (∃ x, v = .ok x ∧ f x = e) ∨ ∃ x, v = .err x ∧ e = some x := by
  rcases v with x | x | _ <;> simp only [errorAmong, Out.ok.injEq, reduceCtorEq] at h
  · exact Or.inl ⟨x, rfl, h⟩
  · exact Or.inr ⟨x, rfl, h.symm⟩

theorem OwnedOut.told {w : Watched σ} {v : Out (Option Err)} {e : Option Err} (h : OwnedOut id w v) (hv : errorAmong id v = .ok e) : Owned w e := by
  rcases errorAmong_ok _ _ _ hv with ⟨x, rfl, rfl⟩ | ⟨x, rfl, rfl⟩ <;> exact h

/-- Appending: nothing is written after a failure, and a failure is not taken for a success; with at most one link the loop has no chance to change the error. -/
theorem Noting.updateAppend (h : Noting io) (ls : List LinkRecord) (w : Watched σ) (hw : Owned w none) (ldb : Ldb) (w' : Watched σ) (d : Ldb) (v : Out (Option Err))
    (e : Option Err) (hr : Ldb.updateAppend io ldb.links.length ls none w ldb = (w', d, v)) (hv : errorAmong id v = .ok e) :
    w'.more = false ∧ (w'.failed.isSome → e.isSome) ∧ (ls.length ≤ 1 → Owned w' e) := by
  induction ls generalizing w ldb with
  | nil =>
    simp only [Ldb.updateAppend, Prod.mk.injEq] at hr
    obtain ⟨rfl, rfl, rfl⟩ := hr
    simp only [errorAmong, id_eq, Out.ok.injEq] at hv
    subst hv
    have hn := owned_none.1 hw
    exact ⟨hn.1, by simp [hn.2], fun _ => hw⟩
  | cons l ls ih =>
    have o1 := h.writeLink w hw ldb ldb.links.length (Ldb.notLast l)
    rw [Ldb.updateAppend] at hr
    rcases h1 : Ldb.writeLink io w ldb ldb.links.length (Ldb.notLast l) with ⟨w1, d1, (_ | x) | x | _⟩ <;> rw [h1] at o1 hr <;> dsimp only at hr
    · have hk := (writeLink_kept _ _ _ _ _ _ h1).2 rfl
      rw [← hk] at hr
      have := ih w1 o1 d1 hr
      refine ⟨this.1, this.2.1, fun hl => this.2.2 ?_⟩
      simp only [List.length_cons] at hl
      omega
    · have hk := (writeLink_kept _ _ _ _ _ _ h1).1 rfl
      obtain ⟨e', g⟩ := updateAppend_stuck (io := io) ls (ldb.links.length + 1) x w1 d1 (by omega)
      have gr := g
      rw [hr] at gr
      simp only [Prod.mk.injEq] at gr
      obtain ⟨rfl, rfl, rfl⟩ := gr
      simp only [errorAmong, id_eq, Out.ok.injEq] at hv
      subst hv
      refine ⟨o1.1, by simp, fun hl => ?_⟩
      rcases ls with _ | ⟨l2, ls⟩
      · simp only [Ldb.updateAppend, Prod.mk.injEq, Out.ok.injEq] at hr
        rw [← hr.2.2]; exact o1
      · simp at hl
    · simp only [Prod.mk.injEq] at hr
      obtain ⟨rfl, rfl, rfl⟩ := hr
      simp only [errorAmong, Out.ok.injEq] at hv
      subst hv
      exact ⟨o1.1, by simp, fun _ => o1⟩
    · simp only [Prod.mk.injEq] at hr
      obtain ⟨rfl, rfl, rfl⟩ := hr
      simp [errorAmong] at hv

theorem Noting.updateLinks (h : Noting io) (fuel : Nat) (now done : Int) (w : Watched σ) (hw : Owned w none) (ldb : Ldb) (ls : List LinkRecord)
    (w' : Watched σ) (d' : Ldb) (v : Out (Option Err)) (err : Option Err) (hr : Ldb.updateLinks io fuel now done w ldb ls = some (w', d', v))
    (hv : errorAmong id v = .ok err) :
    w'.more = false ∧ (w'.failed.isSome → err.isSome) ∧ (ls.length ≤ 1 → Owned w' err) := by
  have easy : ∀ {w : Watched σ} {e : Option Err}, Owned w e → w.more = false ∧ (w.failed.isSome → e.isSome) ∧ (ls.length ≤ 1 → Owned w e) := by
    intro w e ho
    refine ⟨ho.1, fun hf => ?_, fun _ => ho⟩
    obtain ⟨x, hx⟩ := Option.isSome_iff_exists.1 hf
    rw [ho.2 x hx]; rfl
  have fin : ∀ {w1 : Watched σ} {d1 : Ldb} {x : Out (Option Err)}, OwnedOut id w1 x → some (w1, d1, x) = some (w', d', v) →
      w'.more = false ∧ (w'.failed.isSome → err.isSome) ∧ (ls.length ≤ 1 → Owned w' err) := by
    intro w1 d1 e ho hx
    simp only [Option.some.injEq, Prod.mk.injEq] at hx
    obtain ⟨rfl, rfl, rfl⟩ := hx
    exact easy (ho.told hv)
  unfold Ldb.updateLinks at hr
  have o1 := h.refresh fuel now done w hw ldb
  rcases h1 : Ldb.refresh io fuel now done w ldb with _ | ⟨w1, d, (_ | e) | e | _⟩ <;> rw [h1] at o1 hr <;> dsimp only at hr
  · simp at hr
  · have o1 := o1 _ _ _ rfl
    have o2 := h.updateFound ls [] w1 o1 d
    rcases h2 : Ldb.updateFound io [] ls w1 d with ⟨w2, d2, ⟨l2, _ | e⟩ | e | _⟩ <;> rw [h2] at o2 hr <;> dsimp only at hr
    · have n2 := updateFound_length ls [] w1 d _ _ _ h2
      have o3 := h.updateAvailable d2.links.length 0 l2 w2 o2 d2
      rcases h3 : Ldb.updateAvailable io d2.links.length 0 l2 w2 d2 with ⟨w3, d3, ⟨l3, _ | e⟩ | e | _⟩ <;> rw [h3] at o3 hr
      · have n3 := updateAvailable_length _ _ _ _ _ _ _ _ h3
        rcases l3 with _ | ⟨a, l3⟩ <;> dsimp only at hr
        · exact fin (show OwnedOut id w3 (.ok none) from o3) hr
        · have o4 := h.updateAppend (a :: l3) w3 o3 d3
          rcases h4 : Ldb.updateAppend io d3.links.length (a :: l3) none w3 d3 with ⟨w4, d4, (_ | e) | e | _⟩ <;> rw [h4] at o4 hr <;> dsimp only at hr
          · have o4 := o4 _ _ _ _ rfl rfl
            have hn : Owned w4 none := by
              rw [owned_none]
              refine ⟨o4.1, ?_⟩
              rcases hf : w4.failed with _ | x
              · rfl
              · have := o4.2.1 (by rw [hf]; rfl)
                simp at this
            have o5 := h.writeLink w4 hn d4 (d3.links.length + (a :: l3).length : Nat) Ldb.endRecord
            simp only [Option.some.injEq] at hr
            rw [hr] at o5
            exact easy (o5.told hv)
          all_goals
            simp only [Option.some.injEq, Prod.mk.injEq] at hr
            obtain ⟨rfl, rfl, rfl⟩ := hr
            have o4 := o4 _ _ _ _ rfl hv
            refine ⟨o4.1, o4.2.1, fun hl => o4.2.2 ?_⟩
            simp only [List.length_nil] at n2
            omega
      · exact fin (x := .ok (some e)) (d1 := d3) o3 (by simpa using hr)
      · exact fin (x := .panic) trivial hr
      · exact fin (x := .panic) trivial hr
    · exact fin (show OwnedOut id w2 (.ok (some e)) from o2) hr
    · exact fin (x := .panic) trivial hr
    · exact fin (x := .panic) trivial hr
  all_goals exact fin (o1 _ _ _ rfl) hr

/-! ### All calls -/

/-- What is claimed of the report of a call that asks for no engine version. -/
def ReportOwned (r : Option (Watched σ × Out (Option Err))) : Prop := ∀ w' err, r = some (w', .ok err) → Owned w' err

theorem reportOwned_out {α : Type} {err : α → Option Err} {w w' : Watched σ} {v : Out α} {e : Option Err} (h : OwnedOut err w v)
    (hr : (w, errorAmong err v) = (w', .ok e)) : Owned w' e := by
  rcases v with v | x | _ <;> simp only [errorAmong, Prod.mk.injEq, Out.ok.injEq] at hr
  · obtain ⟨rfl, rfl⟩ := hr; exact h
  · obtain ⟨rfl, rfl⟩ := hr; exact h
  · simp at hr

theorem tells_owned {α : Type} {err : α → Option Err} {r : Watched σ × Out α} (h : OwnedAt err r) : ReportOwned (DeviceCall.tells err r) := by
  intro w' e hr
  simp only [DeviceCall.tells, Option.some.injEq] at hr
  exact reportOwned_out h hr

theorem tellsLate_owned {α : Type} {err : α → Option Err} {r : Option (Watched σ × Out α)} (h : OwnedLate err r) : ReportOwned (DeviceCall.tellsLate err r) := by
  intro w' e hr
  rcases r with _ | ⟨w, v⟩
  · simp [DeviceCall.tellsLate] at hr
  · simp only [DeviceCall.tellsLate, Option.map_some, Option.some.injEq] at hr
    exact reportOwned_out (h _ _ rfl) hr

theorem tellsOf_owned {α : Type} {err : α → Option Err} {r : Option (Watched σ × Ldb × Out α)} (h : OwnedOf err r) : ReportOwned (DeviceCall.tellsOf err r) := by
  intro w' e hr
  rcases r with _ | ⟨w, l, v⟩
  · simp [DeviceCall.tellsOf] at hr
  · simp only [DeviceCall.tellsOf, Option.map_some, Option.some.injEq] at hr
    exact reportOwned_out (h _ _ _ rfl) hr

theorem Noting.engine_report (h : Noting io) (w : Watched σ) (hw : Owned w none) (dst : Address) (w' : Watched σ) (err : Option Err)
    (hr : DeviceCall.tells Prod.snd (getEngineVersion io w dst) = some (w', .ok err)) : OwnedNak w' err := by
  have o1 := h.engine w hw dst
  rcases h1 : getEngineVersion io w dst with ⟨w1, v | e | _⟩ <;> rw [h1] at hr o1 <;>
    simp only [DeviceCall.tells, errorAmong, Option.some.injEq, Prod.mk.injEq, Out.ok.injEq] at hr
  · obtain ⟨rfl, rfl⟩ := hr
    exact (o1 _ _ rfl).1
  · unfold getEngineVersion at h1
    split at h1 <;> try (simp at h1; done)
    split_ifs at h1 <;> try (simp at h1; done)
    split at h1 <;> try (simp at h1; done)
    split_ifs at h1 <;> simp at h1
  · simp at hr

theorem Noting.open_report (h : Noting io) (fuel : Nat) (w : Watched σ) (hw : Owned w none) (dst : Address) (w' : Watched σ) (err : Option Err)
    (hr : DeviceCall.tellsLate (fun r => r.2.2) (Dev.open io fuel w dst) = some (w', .ok err)) : OwnedNak w' err := by
  have o1 := h.engine w hw dst
  have o0 := h.engine_report w hw dst
  unfold Dev.open at hr
  rcases h1 : getEngineVersion io w dst with ⟨w1, ⟨v, _ | e⟩ | e | _⟩ <;> rw [h1] at hr o1 o0 <;> dsimp only at hr
  · have o2 := h.ident fuel w1 ((o1 _ _ rfl).2 rfl) dst
    rcases h2 : idRequest io fuel w1 dst with _ | ⟨w2, ⟨fw, cat, _ | e⟩ | e | _⟩ <;> rw [h2] at hr o2 <;>
      simp only [DeviceCall.tellsLate, errorAmong, Option.map_none, Option.map_some, Option.some.injEq, Prod.mk.injEq, Out.ok.injEq, reduceCtorEq, and_false] at hr
    · obtain ⟨rfl, rfl⟩ := hr; exact Owned.nak (o2 _ _ rfl)
    · obtain ⟨rfl, rfl⟩ := hr; exact Owned.nak (o2 _ _ rfl)
    · obtain ⟨rfl, rfl⟩ := hr; exact Owned.nak (o2 _ _ rfl)
  · simp only [DeviceCall.tellsLate, errorAmong, Option.map_some, Option.some.injEq, Prod.mk.injEq, Out.ok.injEq] at hr
    obtain ⟨rfl, rfl⟩ := hr
    exact (o1 _ _ rfl).1
  · simp only [DeviceCall.tellsLate, errorAmong, Option.map_some, Option.some.injEq, Prod.mk.injEq, Out.ok.injEq] at hr
    obtain ⟨rfl, rfl⟩ := hr
    exact o0 _ _ rfl
  · simp [DeviceCall.tellsLate, errorAmong] at hr

theorem report_owned (h : Noting io) (info : DeviceInfo) (fuel : Nat) (w : Watched σ) (hw : Owned w none) (c : DeviceCall) (hc : ∀ ldb now done ls, c ≠ .updateLinks ldb now done ls) (he : ¬ c.AsksEngine) :
    ReportOwned (c.report info io fuel w) := by
  have sc : ∀ c p, ReportOwned (DeviceCall.tells id (Device.sendCommand info io w c p)) := fun c p => tells_owned (h.sendCommand info w hw c p)
  cases c with
  | openDevice dst => exact absurd trivial he
  | engineVersion dst => exact absurd trivial he
  | identification dst => exact tellsLate_owned (h.ident fuel w hw dst)
  | send c p => exact tells_owned (h.send info w hw c p)
  | sendCommand c p => exact sc c p
  | productData =>
    refine tellsLate_owned ?_
    have := h.query info fuel w hw Cmd.productDataReq [] Cmd.productDataResp
    unfold Device.productData
    rcases h1 : Device.query info io fuel w Cmd.productDataReq [] Cmd.productDataResp with _ | ⟨w1, (e | v) | e | _⟩
    · exact .nothing
    all_goals (rw [h1] at this)
    · exact .of (this _ _ rfl)
    · exact .of (Owned.weaken (this _ _ rfl) _)
    · exact .of (this _ _ rfl)
    · exact .of trivial
  | extendedGet d => exact tellsLate_owned (h.extendedGet info fuel w hw d)
  | enterLinkingMode g =>
    refine tells_owned ?_
    unfold Device.enterLinkingMode
    split_ifs <;> exact h.sendCommand info w hw _ _
  | enterUnlinkingMode g => exact sc _ _
  | exitLinkingMode => exact sc _ _
  | links ldb now done => exact tellsOf_owned ((h.device info).getLinks fuel now done w hw ldb)
  | writeLink ldb i l => exact tellsOf_owned (.of ((h.device info).writeLink w hw ldb i l))
  | writeLinks ldb done ls => exact tellsOf_owned (.of ((h.device info).writeLinks done ls w hw ldb))
  | updateLinks ldb now done ls => exact absurd rfl (hc _ _ _ _)
  | addLinks ldb now done ls => exact tellsOf_owned ((h.device info).addLinks fuel now done w hw ldb ls)
  | lightStatus =>
    refine tells_owned ?_
    have := h.send info w hw Cmd.lightStatusRequest []
    unfold Switch.status
    rcases h1 : Device.send info io w Cmd.lightStatusRequest [] with ⟨w1, ⟨v, _ | e⟩ | e | _⟩ <;> rw [h1] at this <;> exact this
  | switchConfig =>
    refine tellsLate_owned ?_
    have := h.query info fuel w hw Cmd.extendedGetSet [0x01#8, 0x00#8] Cmd.extendedGetSet
    unfold Switch.config
    rcases h1 : Device.query info io fuel w Cmd.extendedGetSet [0x01#8, 0x00#8] Cmd.extendedGetSet with _ | ⟨w1, (e | v) | e | _⟩
    · exact .nothing
    all_goals (rw [h1] at this)
    · exact .of (this _ _ rfl)
    · exact .of (Owned.weaken (this _ _ rfl) _)
    · exact .of (this _ _ rfl)
    · exact .of trivial
  | operatingFlags =>
    refine tells_owned ?_
    have := h.askAll info [Cmd.getOperatingFlags.subCommand 0x01#64, Cmd.getOperatingFlags.subCommand 0x02#64,
      Cmd.getOperatingFlags.subCommand 0x04#64, Cmd.getOperatingFlags.subCommand 0x10#64, Cmd.getOperatingFlags.subCommand 0x20#64] w hw
    unfold Switch.operatingFlags
    rcases h1 : Device.askAll info io [Cmd.getOperatingFlags.subCommand 0x01#64, Cmd.getOperatingFlags.subCommand 0x02#64,
      Cmd.getOperatingFlags.subCommand 0x04#64, Cmd.getOperatingFlags.subCommand 0x10#64, Cmd.getOperatingFlags.subCommand 0x20#64] w with
      ⟨w1, ⟨v, e⟩ | e | _⟩ <;> rw [h1] at this <;> exact this
  | setLoadSense b => cases b <;> exact sc _ _
  | setBacklight b => cases b <;> exact sc _ _
  | turnOff => exact sc _ _
  | turnOn l => exact sc _ _
  | dimmerConfig =>
    refine tellsLate_owned ?_
    have := h.query info fuel w hw Cmd.extendedGetSet [0x01#8, 0x00#8] Cmd.extendedGetSet
    unfold Dimmer.config
    rcases h1 : Device.query info io fuel w Cmd.extendedGetSet [0x01#8, 0x00#8] Cmd.extendedGetSet with _ | ⟨w1, (e | v) | e | _⟩
    · exact .nothing
    all_goals (rw [h1] at this)
    · exact .of (this _ _ rfl)
    · exact .of (Owned.weaken (this _ _ rfl) _)
    · exact .of (this _ _ rfl)
    · exact .of trivial
  | brighten => exact sc _ _
  | dim => exact sc _ _
  | startBrighten => exact sc _ _
  | startDim => exact sc _ _
  | stopManualChange => exact sc _ _
  | onFast => exact sc _ _
  | instantChange l => exact sc _ _
  | setStatus l => exact sc _ _
  | onAtRamp l r => exact sc _ _
  | offAtRamp r => exact sc _ _
  | increaseTemp d => exact sc _ _
  | decreaseTemp d => exact sc _ _
  | zoneInfo z => exact tells_owned (h.zone info w hw z)
  | getMode => exact tells_owned (h.thermMode info w hw)
  | ambientTemp => exact tells_owned (h.ask info w hw _)
  | equipmentState => exact tells_owned (h.equipment info w hw)
  | fanSpeed => exact tells_owned (h.ask info w hw _)
  | setMode m =>
    refine tells_owned ?_
    unfold Thermostat.setMode
    rcases Thermostat.modeCommand m with _ | c
    · exact hw.weaken _
    · exact h.sendCommand info w hw _ _
  | thermostatInfo => exact tellsLate_owned (h.thermInfo info fuel w hw)
  | getTempUnit => exact tellsLate_owned (h.tempUnit info fuel w hw)
  | setTempUnit u =>
    refine tells_owned ?_
    unfold Thermostat.setTempUnit
    split_ifs
    · exact h.sendCommand info w hw _ _
    · exact h.sendCommand info w hw _ _
    · exact hw.weaken _
  | setFanSpeed u =>
    refine tells_owned ?_
    unfold Thermostat.setFanSpeed
    split_ifs
    · exact h.sendCommand info w hw _ _
    · exact h.sendCommand info w hw _ _
    · exact h.sendCommand info w hw _ _
    · exact hw.weaken _
  | thermostatStatus => exact tellsLate_owned (h.thermStatus info fuel w hw)
  | setStatusMessage b => cases b <;> exact sc _ _
  | setCoolSetpoint z t => exact sc _ _
  | setHeatSetpoint z t => exact sc _ _
  | increaseZoneTemp z t => exact sc _ _
  | decreaseZoneTemp z t => exact sc _ _
  | setZoneCoolSetpoint z t d => exact sc _ _
  | setZoneHeatSetpoint z t d => exact sc _ _

end

/-- What is reported is what `Spec.DeviceCall.run` has of the same call. -/
theorem report_run {σ : Type} (info : DeviceInfo) (io : MsgIO σ) (fuel : Nat) (s : σ) (c : DeviceCall) :
    c.run info io fuel s = (c.report info io fuel s).map fun r => (r.1, ended r.2) := by
  have e0 : ∀ {α : Type} (err : α → Option Err) (v : Out α), ended (errorAmong err v) = ended v := by intro α err v; rcases v with _ | _ | _ <;> rfl
  have e1 : ∀ {α : Type} (err : α → Option Err) (r : σ × Out α), DeviceCall.once r = (DeviceCall.tells err r).map fun r => (r.1, ended r.2) := by
    intro α err r; simp [DeviceCall.once, DeviceCall.tells, e0]
  have e2 : ∀ {α : Type} (err : α → Option Err) (r : Option (σ × Out α)), DeviceCall.waits r = (DeviceCall.tellsLate err r).map fun r => (r.1, ended r.2) := by
    intro α err r; rcases r with _ | r <;> simp [DeviceCall.waits, DeviceCall.tellsLate, e0]
  have e3 : ∀ {α : Type} (err : α → Option Err) (r : Option (σ × Ldb × Out α)), DeviceCall.keeps r = (DeviceCall.tellsOf err r).map fun r => (r.1, ended r.2) := by
    intro α err r; rcases r with _ | r <;> simp [DeviceCall.keeps, DeviceCall.tellsOf, e0]
  cases c <;> first | exact e1 _ _ | exact e2 _ _ | exact e3 _ _

/-- C198 (in part): over any message writer, when a call on a device returns, nothing was read or written after the first failure, and if there was one the call returns
an error. That error is the failure itself, or "not linked" for a refusal to tell the engine version; `UpdateLinks` with several links may have another error. -/
theorem failure_reported_partial {σ : Type} (io : MsgIO σ) (info : DeviceInfo) (fuel : Nat) (s : σ) (c : DeviceCall) (w : Watched σ) (err : Option Err)
    (h : c.report info (watch io) fuel ⟨s, none, false⟩ = some (w, .ok err)) :
    w.more = false ∧ (w.failed.isSome → err.isSome) ∧
      (c.Remembers → ∀ e, w.failed = some e → err = some e ∨ (c.AsksEngine ∧ e = .devNak ∧ err = some .notLinked)) := by
  have hw : Owned (⟨s, none, false⟩ : Watched σ) none := ⟨rfl, by simp⟩
  have fin : (w.more = false ∧ ∀ e, w.failed = some e → err = some e ∨ (c.AsksEngine ∧ e = .devNak ∧ err = some .notLinked)) →
      w.more = false ∧ (w.failed.isSome → err.isSome) ∧
      (c.Remembers → ∀ e, w.failed = some e → err = some e ∨ (c.AsksEngine ∧ e = .devNak ∧ err = some .notLinked)) := by
    rintro ⟨h1, h2⟩
    refine ⟨h1, fun hf => ?_, fun _ => h2⟩
    obtain ⟨x, hx⟩ := Option.isSome_iff_exists.1 hf
    rcases h2 x hx with h | ⟨-, -, h⟩ <;> rw [h] <;> rfl
  by_cases he : c.AsksEngine
  · have : OwnedNak w err := by
      cases c with
      | openDevice dst => exact (watch_noting io).open_report fuel _ hw _ _ _ h
      | engineVersion dst => exact (watch_noting io).engine_report _ hw _ _ _ h
      | _ => exact he.elim
    exact fin ⟨this.1, fun e hx => (this.2 e hx).imp id (fun hn => ⟨he, hn⟩)⟩
  · by_cases hu : ∃ ldb now done ls, c = .updateLinks ldb now done ls
    · obtain ⟨ldb, now, done, ls, rfl⟩ := hu
      have o1 := ((watch_noting io).device info).updateLinks fuel now done _ hw ldb ls
      simp only [DeviceCall.report, DeviceCall.tellsOf] at h
      rcases h1 : Ldb.updateLinks (Device.io info (watch io)) fuel now done ⟨s, none, false⟩ ldb ls with _ | ⟨w1, d1, v⟩ <;> rw [h1] at h o1
      · simp at h
      · simp only [Option.map_some, Option.some.injEq, Prod.mk.injEq] at h
        obtain ⟨rfl, h⟩ := h
        have := o1 _ _ _ _ rfl h
        exact ⟨this.1, this.2.1, fun hc e hx => Or.inl ((this.2.2 hc).2 e hx)⟩
    · have := report_owned (watch_noting io) info fuel _ hw c (fun ldb now done ls hx => hu ⟨ldb, now, done, ls, hx⟩) he w err h
      exact fin ⟨this.1, fun e hx => Or.inl (this.2 e hx)⟩

/-- In particular a call that returns no error met with none. -/
theorem success_means_success {σ : Type} (io : MsgIO σ) (info : DeviceInfo) (fuel : Nat) (s : σ) (c : DeviceCall) (w : Watched σ)
    (h : c.report info (watch io) fuel ⟨s, none, false⟩ = some (w, .ok none)) : w.failed = none := by
  have := (failure_reported_partial io info fuel s c w none h).2.1
  rcases hf : w.failed with _ | e
  · rfl
  · rw [hf] at this
    simp at this

/-- A message writer of a device with no links whose n-th attempt times out; all others succeed. -/
def timesOutAt (n : Nat) : MsgIO Nat where
  read s := (s + 1, if s = n then .ret none (some .devReadTimeout) else
    .ret (some ⟨0x010203#32, 0, 0x2b#8, Cmd.readWriteALDB, [0, 1, 0x0f, 0xff, 0, 0, 0, 0, 0, 0, 0, 0, 0, 0]⟩) none)
  write s m := (s + 1, if s = n then .ret none (some .devReadTimeout) else .ret (some m) none)

def twoLinks : List LinkRecord := [⟨0xe2#8, 1#8, 0x010203#32, 1, 2, 3⟩, ⟨0xe2#8, 1#8, 0x010204#32, 1, 2, 3⟩]

/-- The hypotheses can be met, with and without a failure: reading the thermostat's zone, where the third of four questions times out. -/
example : ∃ w, DeviceCall.report ⟨0x010203#32, (5, 0), 0, 1⟩ (watch (timesOutAt 2)) 5 ⟨0, none, false⟩ (.zoneInfo 1) = some (w, .ok (some .devReadTimeout)) ∧
    w.failed = some .devReadTimeout ∧ w.more = false ∧ w.world = 3 := ⟨_, rfl, rfl, rfl, rfl⟩

example : ∃ w, DeviceCall.report ⟨0x010203#32, (5, 0), 0, 1⟩ (watch (timesOutAt 7)) 5 ⟨0, none, false⟩ (.zoneInfo 1) = some (w, .ok none) ∧ w.failed = none ∧ w.world = 4 :=
  ⟨_, rfl, rfl, rfl⟩

/-- C198 fails: when a write of `UpdateLinks` times out while links are appended, the next one replaces the error: the caller is told that an index is out of range. -/
theorem failure_renamed_refuted : ¬ ∀ {σ : Type} (io : MsgIO σ) (info : DeviceInfo) (fuel : Nat) (s : σ) (c : DeviceCall) (w : Watched σ) (err : Option Err),
    c.report info (watch io) fuel ⟨s, none, false⟩ = some (w, .ok err) →
    ∀ e, w.failed = some e → err = some e ∨ (c.AsksEngine ∧ e = .devNak ∧ err = some .notLinked) := by
  intro h
  have := h (timesOutAt 2) ⟨0x010203#32, (1, 0), 0, 1⟩ 5 0 (.updateLinks ⟨0, [], []⟩ 4000 4001 twoLinks) ⟨3, some .devReadTimeout, false⟩ (some .linkIndexOutOfRange) (by rfl) _ rfl
  simp [DeviceCall.AsksEngine] at this

end Insteon
