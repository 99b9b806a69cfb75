import Verif.Spec.Traffic
import Verif.Props.Device
import Mathlib.Tactic.SplitIfs

/-
Property C199: a call on a device talks to that device only, in its own words, and no longer than it has to.
-/

namespace Insteon
open Spec

section
variable {σ : Type} {P Q : Message → Prop}

/-- Between two states at most `k` messages were sent, all of them as `P` says. -/
def Sends (P : Message → Prop) (k : Nat) (w w' : Recorded σ) : Prop := ∃ ms, w'.sent = w.sent ++ ms ∧ ms.length ≤ k ∧ ∀ m ∈ ms, P m

theorem Sends.refl (w : Recorded σ) : Sends P 0 w w := ⟨[], by simp⟩

theorem Sends.trans {a b k : Nat} {w w1 w2 : Recorded σ} (h1 : Sends P a w w1) (h2 : Sends P b w1 w2) (hk : a + b ≤ k) : Sends P k w w2 := by
  obtain ⟨m1, e1, l1, p1⟩ := h1
  obtain ⟨m2, e2, l2, p2⟩ := h2
  refine ⟨m1 ++ m2, by rw [e2, e1, List.append_assoc], by simp; omega, ?_⟩
  intro m hm
  rcases List.mem_append.1 hm with h | h
  · exact p1 m h
  · exact p2 m h

theorem Sends.mono {a b : Nat} {w w1 : Recorded σ} (h : Sends P a w w1) (hk : a ≤ b) : Sends P b w w1 := h.trans (.refl w1) (by omega)

/-- A message writer that keeps the record: what is `Q` when given is `P` when sent. -/
structure Heard (io : MsgIO (Recorded σ)) (P Q : Message → Prop) : Prop where
  read : ∀ w, Sends P 0 w (io.read w).1
  write : ∀ w m, Q m → Sends P 1 w (io.write w m).1

theorem record_heard (io : MsgIO σ) : Heard (record io) P P where
  read w := ⟨[], by simp [record]⟩
  write w m hm := ⟨[m], by simp [record], by simp, by simpa using hm⟩

variable {io : MsgIO (Recorded σ)}

theorem Heard.device (h : Heard io P P) (info : DeviceInfo) : Heard (Device.io info io) P (fun m => P (Device.prepare info m)) :=
  ⟨h.read, fun w m => h.write w (Device.prepare info m)⟩

theorem Heard.devRead (h : Heard io P Q) (f : Matcher) (fuel : Nat) (w : Recorded σ) : ∀ r, Dev.read io f fuel w = some r → Sends P 0 w r.1 := by
  induction fuel generalizing w with
  | zero => intro r hr; simp [Dev.read] at hr
  | succ fuel ih =>
    intro r hr
    have hs := h.read w
    rw [Dev.read] at hr
    rcases h1 : io.read w with ⟨w1, ⟨_ | x, _ | e1⟩ | _⟩ <;> rw [h1] at hr hs <;> dsimp only at hr
    · simp only [Option.some.injEq] at hr; rw [← hr]; exact hs
    · simp only [Option.some.injEq] at hr; rw [← hr]; exact hs
    · split_ifs at hr
      · simp only [Option.some.injEq] at hr; rw [← hr]; exact hs
      · exact hs.trans (ih w1 r hr) (by omega)
    · simp only [Option.some.injEq] at hr; rw [← hr]; exact hs
    · simp only [Option.some.injEq] at hr; rw [← hr]; exact hs

/-- The same of calls that wait. -/
def SendsLate {α : Type} (P : Message → Prop) (k : Nat) (w : Recorded σ) (r : Option (Recorded σ × α)) : Prop := ∀ x, r = some x → Sends P k w x.1

theorem SendsLate.of {α : Type} {k : Nat} {w : Recorded σ} {x : Recorded σ × α} (h : Sends P k w x.1) : SendsLate P k w (some x) := by
  intro y hy; simp only [Option.some.injEq] at hy; rw [← hy]; exact h

theorem SendsLate.nothing {α : Type} {k : Nat} {w : Recorded σ} : SendsLate (α := α) P k w none := by intro y hy; simp at hy

theorem Heard.send (h : Heard io P P) (info : DeviceInfo) (w : Recorded σ) (c : Command) (p : Bytes) (hp : P (Device.prepare info ⟨0, 0, 0, c, p⟩)) :
    Sends P 1 w (Device.send info io w c p).1 := by
  have hs := (h.device info).write w ⟨0, 0, 0, c, p⟩ hp
  change Sends P 1 w (Device.write info io w ⟨0, 0, 0, c, p⟩).1 at hs
  unfold Device.send
  rcases h1 : Device.write info io w ⟨0, 0, 0, c, p⟩ with ⟨w1, ⟨_ | x, _ | e⟩ | _⟩ <;> rw [h1] at hs <;> exact hs

theorem Heard.sendCommand (h : Heard io P P) (info : DeviceInfo) (w : Recorded σ) (c : Command) (p : Bytes) (hp : P (Device.prepare info ⟨0, 0, 0, c, p⟩)) :
    Sends P 1 w (Device.sendCommand info io w c p).1 := by
  have hs := h.send info w c p hp
  unfold Device.sendCommand
  rcases h1 : Device.send info io w c p with ⟨w1, ⟨v, e⟩ | e | _⟩ <;> rw [h1] at hs <;> exact hs

theorem Heard.query (h : Heard io P P) (info : DeviceInfo) (fuel : Nat) (w : Recorded σ) (c : Command) (p : Bytes) (a : Command)
    (hp : P (Device.prepare info ⟨0, 0, 0, c, p⟩)) : SendsLate P 1 w (Device.query info io fuel w c p a) := by
  have hs := (h.device info).write w ⟨0, 0, 0, c, p⟩ hp
  change Sends P 1 w (Device.write info io w ⟨0, 0, 0, c, p⟩).1 at hs
  unfold Device.query
  rcases h1 : Device.write info io w ⟨0, 0, 0, c, p⟩ with ⟨w1, ⟨x, _ | e⟩ | _⟩ <;> rw [h1] at hs
  · dsimp only
    have hr := (h.device info).devRead (Matcher.cmd a) fuel w1
    rcases h2 : Dev.read (Device.io info io) (Matcher.cmd a) fuel w1 with _ | ⟨w2, ⟨_ | x, _ | e⟩ | _⟩
    · exact .nothing
    all_goals exact .of (hs.trans (hr _ h2) (by omega))
  · exact .of hs
  · exact .of hs

theorem Heard.askAll (h : Heard io P P) (info : DeviceInfo) (cs : List Command) (hp : ∀ c ∈ cs, P (Device.prepare info ⟨0, 0, 0, c, []⟩)) (w : Recorded σ) :
    Sends P cs.length w (Device.askAll info io cs w).1 := by
  induction cs generalizing w with
  | nil => exact .refl w
  | cons c cs ih =>
    have hs := (h.device info).write w ⟨0, 0, 0, c, []⟩ (hp c (by simp))
    change Sends P 1 w (Device.write info io w ⟨0, 0, 0, c, []⟩).1 at hs
    have ih := ih fun x hx => hp x (by simp [hx])
    rw [Device.askAll]
    simp only [List.length_cons]
    rcases h1 : Device.write info io w ⟨0, 0, 0, c, []⟩ with ⟨w1, ⟨_ | x, _ | e⟩ | _⟩ <;> rw [h1] at hs
    · exact hs.mono (by omega)
    · exact hs.mono (by omega)
    · have h2 := ih w1
      dsimp only
      rcases h3 : Device.askAll info io cs w1 with ⟨w2, ⟨v, e⟩ | e | _⟩ <;> rw [h3] at h2 <;> exact hs.trans h2 (by omega)
    · exact hs.mono (by omega)
    · exact hs.mono (by omega)

theorem Heard.engine (h : Heard io P P) (w : Recorded σ) (dst : Address) (hp : P ⟨0, dst, Flags.standardDirectMessage, Cmd.getEngineVersion, []⟩) :
    Sends P 1 w (getEngineVersion io w dst).1 := by
  have hs := h.write w _ hp
  unfold getEngineVersion
  rcases h1 : io.write w ⟨0, dst, Flags.standardDirectMessage, Cmd.getEngineVersion, []⟩ with ⟨w1, ⟨_ | x, _ | e⟩ | _⟩ <;> rw [h1] at hs <;> dsimp only
  · exact hs
  · split_ifs <;> exact hs
  · exact hs
  · split_ifs <;> exact hs
  · exact hs

theorem Heard.ident (h : Heard io P P) (fuel : Nat) (w : Recorded σ) (dst : Address) (hp : P ⟨0, dst, Flags.standardDirectMessage, Cmd.idRequest, []⟩) :
    SendsLate P 1 w (idRequest io fuel w dst) := by
  have hs := h.write w _ hp
  unfold idRequest
  rcases h1 : io.write w ⟨0, dst, Flags.standardDirectMessage, Cmd.idRequest, []⟩ with ⟨w1, ⟨x, _ | e⟩ | _⟩ <;> rw [h1] at hs
  · dsimp only
    have hr := h.devRead (Matcher.or [Matcher.cmd Cmd.setButtonPressedResponder, Matcher.cmd Cmd.setButtonPressedController]) fuel w1
    rcases h2 : Dev.read io (Matcher.or [Matcher.cmd Cmd.setButtonPressedResponder, Matcher.cmd Cmd.setButtonPressedController]) fuel w1 with
      _ | ⟨w2, ⟨_ | x, _ | e⟩ | _⟩
    · exact .nothing
    all_goals exact .of (hs.trans (hr _ h2) (by omega))
  · exact .of hs
  · exact .of hs

theorem Heard.opens (h : Heard io P P) (fuel : Nat) (w : Recorded σ) (dst : Address) (hp : P ⟨0, dst, Flags.standardDirectMessage, Cmd.getEngineVersion, []⟩)
    (hq : P ⟨0, dst, Flags.standardDirectMessage, Cmd.idRequest, []⟩) : SendsLate P 2 w (Dev.open io fuel w dst) := by
  have hs := h.engine w dst hp
  unfold Dev.open
  rcases h1 : getEngineVersion io w dst with ⟨w1, ⟨v, _ | e⟩ | e | _⟩ <;> rw [h1] at hs <;> dsimp only
  · have hi := h.ident fuel w1 dst hq
    rcases h2 : idRequest io fuel w1 dst with _ | ⟨w2, ⟨fw, cat, _ | e⟩ | e | _⟩
    · exact .nothing
    all_goals exact .of (hs.trans (hi _ h2) (by omega))
  all_goals exact .of (hs.mono (by omega))

theorem Heard.extendedGet (h : Heard io P P) (info : DeviceInfo) (fuel : Nat) (w : Recorded σ) (d : Bytes) (hp : P (Device.prepare info ⟨0, 0, 0, Cmd.extendedGetSet, d⟩)) :
    SendsLate P 1 w (Device.extendedGet info io fuel w d) := by
  have hs := h.query info fuel w Cmd.extendedGetSet d Cmd.extendedGetSet hp
  unfold Device.extendedGet
  rcases h1 : Device.query info io fuel w Cmd.extendedGetSet d Cmd.extendedGetSet with _ | ⟨w1, (e | v) | e | _⟩
  · exact .nothing
  all_goals exact .of (hs _ h1)

theorem Heard.ask (h : Heard io P P) (info : DeviceInfo) (w : Recorded σ) (c : Command) (hp : P (Device.prepare info ⟨0, 0, 0, c, []⟩)) :
    Sends P 1 w (Thermostat.ask info io w c).1 := by
  have hs := h.send info w c [] hp
  unfold Thermostat.ask
  rcases h1 : Device.send info io w c [] with ⟨w1, ⟨v, e⟩ | e | _⟩ <;> rw [h1] at hs <;> exact hs

theorem Heard.infoStep (h : Heard io P P) (info : DeviceInfo) (fuel : Nat) (w : Recorded σ) (ti : ThermostatInfo) (i : Byte)
    (hp : P (Device.prepare info ⟨0, 0, 0, Cmd.extendedGetSet, [0x00#8, 0x00#8, i]⟩)) : SendsLate P 1 w (Thermostat.getInfoStep info io fuel w ti i) := by
  have hs := h.extendedGet info fuel w [0x00#8, 0x00#8, i] hp
  unfold Thermostat.getInfoStep
  rcases h1 : Device.extendedGet info io fuel w [0x00#8, 0x00#8, i] with _ | ⟨w1, ⟨v, _ | e⟩ | e | _⟩
  · exact .nothing
  all_goals exact .of (hs _ h1)

theorem Heard.thermInfo (h : Heard io P P) (info : DeviceInfo) (fuel : Nat) (w : Recorded σ)
    (hp : ∀ i, P (Device.prepare info ⟨0, 0, 0, Cmd.extendedGetSet, [0x00#8, 0x00#8, i]⟩)) : SendsLate P 2 w (Thermostat.getInfo info io fuel w) := by
  have hs := h.infoStep info fuel w .zero 0#8 (hp _)
  unfold Thermostat.getInfo
  rcases h1 : Thermostat.getInfoStep info io fuel w .zero 0#8 with _ | ⟨w1, ⟨v, _ | e⟩ | e | _⟩
  · exact .nothing
  · intro x hx
    exact (hs _ h1).trans (h.infoStep info fuel w1 v 1#8 (hp _) x hx) (by omega)
  all_goals exact .of ((hs _ h1).mono (by omega))

theorem Heard.tempUnit (h : Heard io P P) (info : DeviceInfo) (fuel : Nat) (w : Recorded σ)
    (hp : ∀ i, P (Device.prepare info ⟨0, 0, 0, Cmd.extendedGetSet, [0x00#8, 0x00#8, i]⟩)) : SendsLate P 2 w (Thermostat.getTempUnit info io fuel w) := by
  have hs := h.thermInfo info fuel w hp
  unfold Thermostat.getTempUnit
  rcases h1 : Thermostat.getInfo info io fuel w with _ | ⟨w1, ⟨v, e⟩ | e | _⟩
  · exact .nothing
  all_goals exact .of (hs _ h1)

theorem Heard.zone (h : Heard io P P) (info : DeviceInfo) (w : Recorded σ) (z : Int)
    (hp : ∀ b, P (Device.prepare info ⟨0, 0, 0, Cmd.getZoneInfo.subCommand b, []⟩)) : Sends P 4 w (Thermostat.getZoneInfo info io w z).1 := by
  unfold Thermostat.getZoneInfo
  dsimp only
  have hs := h.askAll info [Cmd.getZoneInfo.subCommand (BitVec.ofInt 64 z &&& 0x0f#64),
    Cmd.getZoneInfo.subCommand (0x10#64 ||| BitVec.ofInt 64 z &&& 0x0f#64),
    Cmd.getZoneInfo.subCommand (0x20#64 ||| BitVec.ofInt 64 z &&& 0x0f#64),
    Cmd.getZoneInfo.subCommand (0x30#64 ||| BitVec.ofInt 64 z &&& 0x0f#64)] (by
      intro c hc
      simp only [List.mem_cons, List.not_mem_nil, or_false] at hc
      rcases hc with rfl | rfl | rfl | rfl <;> exact hp _) w
  rcases h1 : Device.askAll info io [Cmd.getZoneInfo.subCommand (BitVec.ofInt 64 z &&& 0x0f#64),
    Cmd.getZoneInfo.subCommand (0x10#64 ||| BitVec.ofInt 64 z &&& 0x0f#64),
    Cmd.getZoneInfo.subCommand (0x20#64 ||| BitVec.ofInt 64 z &&& 0x0f#64),
    Cmd.getZoneInfo.subCommand (0x30#64 ||| BitVec.ofInt 64 z &&& 0x0f#64)] w with ⟨w1, ⟨v, e⟩ | e | _⟩ <;> rw [h1] at hs <;> exact hs

theorem Heard.thermMode (h : Heard io P P) (info : DeviceInfo) (w : Recorded σ) (hp : P (Device.prepare info ⟨0, 0, 0, Cmd.getThermostatMode, []⟩)) :
    Sends P 1 w (Thermostat.getMode info io w).1 := by
  have hs := h.ask info w Cmd.getThermostatMode hp
  unfold Thermostat.getMode
  rcases h1 : Thermostat.ask info io w Cmd.getThermostatMode with ⟨w1, ⟨v, e⟩ | e | _⟩ <;> rw [h1] at hs <;> exact hs

theorem Heard.equipment (h : Heard io P P) (info : DeviceInfo) (w : Recorded σ) (hp : P (Device.prepare info ⟨0, 0, 0, Cmd.getEquipmentState, []⟩)) :
    Sends P 1 w (Thermostat.getEquipmentState info io w).1 := by
  have hs := h.ask info w Cmd.getEquipmentState hp
  unfold Thermostat.getEquipmentState
  rcases h1 : Thermostat.ask info io w Cmd.getEquipmentState with ⟨w1, ⟨v, e⟩ | e | _⟩ <;> rw [h1] at hs <;> exact hs

theorem Heard.thermStatus (h : Heard io P P) (info : DeviceInfo) (fuel : Nat) (w : Recorded σ)
    (h1 : ∀ b, P (Device.prepare info ⟨0, 0, 0, Cmd.getZoneInfo.subCommand b, []⟩))
    (h2 : ∀ i, P (Device.prepare info ⟨0, 0, 0, Cmd.extendedGetSet, [0x00#8, 0x00#8, i]⟩))
    (h3 : P (Device.prepare info ⟨0, 0, 0, Cmd.getThermostatMode, []⟩)) (h4 : P (Device.prepare info ⟨0, 0, 0, Cmd.getEquipmentState, []⟩)) :
    SendsLate P 8 w (Thermostat.status info io fuel w) := by
  unfold Thermostat.status
  have o1 := h.zone info w 0 h1
  rcases g1 : Thermostat.getZoneInfo info io w 0 with ⟨w1, ⟨v, _ | e⟩ | e | _⟩ <;> rw [g1] at o1 <;> dsimp only
  · have o2 := h.tempUnit info fuel w1 h2
    rcases g2 : Thermostat.getTempUnit info io fuel w1 with _ | ⟨w2, ⟨u, _ | e⟩ | e | _⟩
    · exact .nothing
    · have o2 := o2 _ g2
      dsimp only
      have o3 := h.thermMode info w2 h3
      rcases g3 : Thermostat.getMode info io w2 with ⟨w3, ⟨m, _ | e⟩ | e | _⟩ <;> rw [g3] at o3 <;> dsimp only
      · have o4 := h.equipment info w3 h4
        rcases g4 : Thermostat.getEquipmentState info io w3 with ⟨w4, ⟨q, e⟩ | e | _⟩ <;> rw [g4] at o4 <;>
          exact .of ((((o1.trans o2 (Nat.le_refl _)).trans o3 (Nat.le_refl _))).trans o4 (by omega))
      all_goals exact .of ((o1.trans o2 (Nat.le_refl _)).trans o3 (by omega))
    all_goals exact .of (o1.trans (o2 _ g2) (by omega))
  all_goals exact .of (o1.mono (by omega))

/-! ### Links -/

theorem Heard.writeLink (h : Heard io P Q) (hq : ∀ p, Q ⟨0, 0, 0, Cmd.readWriteALDB, p⟩) (w : Recorded σ) (ldb : Ldb) (i : Int) (l : LinkRecord) :
    Sends P 1 w (Ldb.writeLink io w ldb i l).1 := by
  unfold Ldb.writeLink
  by_cases hgt : i > ldb.links.length
  · rw [if_pos hgt]; exact (Sends.refl w).mono (by omega)
  · rw [if_neg hgt]
    have hm : (⟨LinkRequest.writeLink, Ldb.memAddressOf i, 0, some l⟩ : LinkRequest).marshalBinary =
        .ok ([0, LinkRequest.writeLink, (Ldb.memAddressOf i >>> 8).setWidth 8, (Ldb.memAddressOf i &&& 0xff#64).setWidth 8] ++ [0x08#8] ++
          copyPad 9 l.marshalBinary) := rfl
    rw [hm]
    dsimp only
    have hs := h.write w _ (hq ([0, LinkRequest.writeLink, (Ldb.memAddressOf i >>> 8).setWidth 8,
      (Ldb.memAddressOf i &&& 0xff#64).setWidth 8] ++ [0x08#8] ++ copyPad 9 l.marshalBinary))
    rcases h1 : io.write w ⟨0, 0, 0, Cmd.readWriteALDB, [0, LinkRequest.writeLink, (Ldb.memAddressOf i >>> 8).setWidth 8,
      (Ldb.memAddressOf i &&& 0xff#64).setWidth 8] ++ [0x08#8] ++ copyPad 9 l.marshalBinary⟩ with ⟨w1, ⟨x, _ | e⟩ | _⟩ <;> rw [h1] at hs
    · dsimp only
      split_ifs <;> exact hs
    · exact hs
    · exact hs

theorem Heard.writeLinksLoop (h : Heard io P Q) (hq : ∀ p, Q ⟨0, 0, 0, Cmd.readWriteALDB, p⟩) (ls : List LinkRecord) (i : Nat) (w : Recorded σ) (ldb : Ldb) :
    Sends P ls.length w (Ldb.writeLinksLoop io i ls w ldb).1 := by
  induction ls generalizing i w ldb with
  | nil => exact .refl w
  | cons l ls ih =>
    have o1 := h.writeLink hq w ldb i (Ldb.notLast l)
    rw [Ldb.writeLinksLoop]
    simp only [List.length_cons]
    rcases h1 : Ldb.writeLink io w ldb i (Ldb.notLast l) with ⟨w1, d, (_ | e) | e | _⟩ <;> rw [h1] at o1
    · exact o1.trans (ih (i + 1) w1 d) (by omega)
    all_goals exact o1.mono (by omega)

theorem Heard.writeLinks (h : Heard io P Q) (hq : ∀ p, Q ⟨0, 0, 0, Cmd.readWriteALDB, p⟩) (done : Int) (ls : List LinkRecord) (w : Recorded σ) (ldb : Ldb) :
    Sends P (ls.length + 1) w (Ldb.writeLinks io done w ldb ls).1 := by
  have o1 := h.writeLinksLoop hq ls 0 w ldb
  unfold Ldb.writeLinks
  rcases h1 : Ldb.writeLinksLoop io 0 ls w ldb with ⟨w1, d, (_ | e) | e | _⟩ <;> rw [h1] at o1
  · dsimp only
    have o2 := h.writeLink hq w1 d d.links.length Ldb.endRecord
    rcases h2 : Ldb.writeLink io w1 d d.links.length Ldb.endRecord with ⟨w2, d2, (_ | e) | e | _⟩ <;> rw [h2] at o2 <;> exact o1.trans o2 (Nat.le_refl _)
  all_goals exact o1.mono (by omega)

theorem Heard.refreshLoop (h : Heard io P Q) (fr fuel : Nat) (w : Recorded σ) (ldb : Ldb) (last : MemAddress) :
    SendsLate P 0 w (Ldb.refreshLoop io fr fuel w ldb last) := by
  induction fuel generalizing w ldb last with
  | zero => exact .nothing
  | succ fuel ih =>
    have hr := h.devRead (Matcher.cmd Cmd.readWriteALDB) fr w
    rw [Ldb.refreshLoop]
    rcases h1 : Dev.read io (Matcher.cmd Cmd.readWriteALDB) fr w with _ | ⟨w1, ⟨_ | x, _ | e⟩ | _⟩ <;> dsimp only
    · exact .nothing
    · exact .of (hr _ h1)
    · exact .of (hr _ h1)
    · have ho := hr _ h1
      have go : ∀ d a, SendsLate P 0 w (Ldb.refreshLoop io fr fuel w1 d a) := fun d a x hx => ho.trans (ih w1 d a x hx) (Nat.le_refl _)
      rcases hu : LinkRequest.zero.unmarshalBinary x.payload with ⟨lr, _ | e⟩ <;> dsimp only
      · split_ifs
        · rcases lr.link with _ | l
          · exact .of ho
          · dsimp only
            split_ifs
            · exact .of ho
            · exact go _ _
        · exact go _ _
      · exact .of ho
    · exact .of (hr _ h1)
    · exact .of (hr _ h1)

theorem Heard.refresh (h : Heard io P Q) (hq : Q Ldb.readRequest) (fuel : Nat) (now done : Int) (w : Recorded σ) (ldb : Ldb) :
    SendsLate P 1 w (Ldb.refresh io fuel now done w ldb) := by
  unfold Ldb.refresh
  split_ifs
  · exact .of ((Sends.refl w).mono (by omega))
  · dsimp only
    have hs := h.write w _ hq
    rcases h1 : io.write w Ldb.readRequest with ⟨w1, ⟨x, _ | e⟩ | _⟩ <;> rw [h1] at hs
    · dsimp only
      have o2 := h.refreshLoop fuel fuel w1 { ldb with index := [], links := [] } 0#64
      rcases h2 : Ldb.refreshLoop io fuel fuel w1 { ldb with index := [], links := [] } 0#64 with _ | ⟨w2, d, (_ | e) | e | _⟩
      · exact .nothing
      all_goals (have h3 := o2 _ h2; exact .of (hs.trans h3 (by omega)))
    · exact .of hs
    · exact .of hs

theorem Heard.getLinks (h : Heard io P Q) (hq : Q Ldb.readRequest) (fuel : Nat) (now done : Int) (w : Recorded σ) (ldb : Ldb) :
    SendsLate P 1 w (Ldb.getLinks io fuel now done w ldb) := by
  have o1 := h.refresh hq fuel now done w ldb
  unfold Ldb.getLinks
  rcases h1 : Ldb.refresh io fuel now done w ldb with _ | ⟨w1, d, (_ | e) | e | _⟩
  · exact .nothing
  all_goals exact .of (o1 _ h1)

/-- The links that are left to be written. -/
def leftOver : Out (List LinkRecord × Option Err) → Nat
  | .ok (ls, none) => ls.length
  | _ => 0

theorem Heard.addLoop (h : Heard io P Q) (hq : ∀ p, Q ⟨0, 0, 0, Cmd.readWriteALDB, p⟩) (rest : List LinkRecord) (i : Nat) (adds : List LinkRecord) (w : Recorded σ)
    (ldb : Ldb) : ∃ k, Sends P k w (Ldb.addLoop io i rest adds w ldb).1 ∧ k + leftOver (Ldb.addLoop io i rest adds w ldb).2.2 ≤ adds.length := by
  induction rest generalizing i adds w ldb with
  | nil => exact ⟨0, .refl w, by simp [Ldb.addLoop, leftOver]⟩
  | cons l rest ih =>
    rw [Ldb.addLoop.eq_def]
    rcases adds with _ | ⟨a, as⟩
    · exact ⟨0, .refl w, by simp [leftOver]⟩
    · dsimp only
      simp only [List.length_cons]
      split_ifs with hav
      · have o1 := h.writeLink hq w ldb i l
        rcases h1 : Ldb.writeLink io w ldb i l with ⟨w1, d, (_ | e) | e | _⟩ <;> rw [h1] at o1 <;> dsimp only
        · obtain ⟨k, g1, g2⟩ := ih (i + 1) as w1 { d with links := d.links.set i { a with flags := a.flags.setInUse.clearLastRecord } }
          exact ⟨1 + k, o1.trans g1 (Nat.le_refl _), by omega⟩
        all_goals exact ⟨1, o1, by simp only [leftOver]; omega⟩
      · obtain ⟨k, g1, g2⟩ := ih (i + 1) as w ldb
        exact ⟨k, g1, by omega⟩

theorem Heard.addAppend (h : Heard io P Q) (hq : ∀ p, Q ⟨0, 0, 0, Cmd.readWriteALDB, p⟩) (ls : List LinkRecord) (w : Recorded σ) (ldb : Ldb) :
    Sends P ls.length w (Ldb.addAppend io ls w ldb).1 := by
  induction ls generalizing w ldb with
  | nil => exact .refl w
  | cons l ls ih =>
    have o1 := h.writeLink hq w ldb ldb.links.length (Ldb.notLast l)
    rw [Ldb.addAppend]
    simp only [List.length_cons]
    rcases h1 : Ldb.writeLink io w ldb ldb.links.length (Ldb.notLast l) with ⟨w1, d, (_ | e) | e | _⟩ <;> rw [h1] at o1
    · exact o1.trans (ih w1 d) (by omega)
    all_goals exact o1.mono (by omega)

theorem Heard.addLinks (h : Heard io P Q) (hq : ∀ p, Q ⟨0, 0, 0, Cmd.readWriteALDB, p⟩) (hr : Q Ldb.readRequest) (fuel : Nat) (now done : Int) (w : Recorded σ)
    (ldb : Ldb) (ls : List LinkRecord) : SendsLate P (ls.length + 1) w (Ldb.addLinks io fuel now done w ldb ls) := by
  unfold Ldb.addLinks
  split_ifs
  · exact .of ((Sends.refl w).mono (by omega))
  · have o1 := h.refresh hr fuel now done w ldb
    rcases h1 : Ldb.refresh io fuel now done w ldb with _ | ⟨w1, d, (_ | e) | e | _⟩
    · exact .nothing
    · have o1 := o1 _ h1
      dsimp only
      obtain ⟨k, o2, hk⟩ := h.addLoop hq d.links 0 ls w1 d
      rcases h2 : Ldb.addLoop io 0 d.links ls w1 d with ⟨w2, d2, ⟨l2, _ | e⟩ | e | _⟩ <;> rw [h2] at o2 hk <;> dsimp only
      · have o3 := h.addAppend hq l2 w2 d2
        simp only [leftOver] at hk
        exact .of ((o1.trans o2 (Nat.le_refl _)).trans o3 (by omega))
      all_goals exact .of (o1.trans o2 (by omega))
    all_goals exact .of ((o1 _ h1).mono (by omega))

theorem Heard.updateFound (h : Heard io P Q) (hq : ∀ p, Q ⟨0, 0, 0, Cmd.readWriteALDB, p⟩) (ls kept : List LinkRecord) (w : Recorded σ) (ldb : Ldb) :
    ∃ k, Sends P k w (Ldb.updateFound io kept ls w ldb).1 ∧ k + leftOver (Ldb.updateFound io kept ls w ldb).2.2 ≤ kept.length + ls.length := by
  induction ls generalizing kept w ldb with
  | nil => exact ⟨0, .refl w, by simp [Ldb.updateFound, leftOver]⟩
  | cons l ls ih =>
    rw [Ldb.updateFound]
    simp only [List.length_cons]
    rcases Ldb.lookup ldb.index l.id with _ | j <;> dsimp only
    · obtain ⟨k, g1, g2⟩ := ih (kept ++ [l]) w ldb
      refine ⟨k, g1, ?_⟩
      simp only [List.length_append, List.length_cons, List.length_nil] at g2
      omega
    · rcases ldb.links[j]? with _ | old
      · exact ⟨0, .refl w, by simp [leftOver]⟩
      · dsimp only
        split_ifs
        · have o1 := h.writeLink hq w ldb kept.length l
          rcases h1 : Ldb.writeLink io w ldb kept.length l with ⟨w1, d, (_ | e) | e | _⟩ <;> rw [h1] at o1 <;> dsimp only
          · obtain ⟨k, g1, g2⟩ := ih kept w1 d
            exact ⟨1 + k, o1.trans g1 (Nat.le_refl _), by omega⟩
          all_goals exact ⟨1, o1, by simp only [leftOver]; omega⟩
        · obtain ⟨k, g1, g2⟩ := ih kept w ldb
          exact ⟨k, g1, by omega⟩

theorem Heard.updateAvailable (h : Heard io P Q) (hq : ∀ p, Q ⟨0, 0, 0, Cmd.readWriteALDB, p⟩) (fuel i : Nat) (ls : List LinkRecord) (w : Recorded σ) (ldb : Ldb) :
    ∃ k, Sends P k w (Ldb.updateAvailable io fuel i ls w ldb).1 ∧ k + leftOver (Ldb.updateAvailable io fuel i ls w ldb).2.2 ≤ ls.length := by
  induction fuel generalizing i ls w ldb with
  | zero => exact ⟨0, .refl w, by simp [Ldb.updateAvailable, leftOver]⟩
  | succ fuel ih =>
    rw [Ldb.updateAvailable.eq_def]
    dsimp only
    rcases ldb.links[i]? with _ | r
    · exact ⟨0, .refl w, by simp [leftOver]⟩
    · rcases ls with _ | ⟨l, ls⟩
      · exact ih _ _ w ldb
      · dsimp only
        split_ifs
        · have o1 := h.writeLink hq w ldb i (Ldb.notLast l)
          rcases h1 : Ldb.writeLink io w ldb i (Ldb.notLast l) with ⟨w1, d, (_ | e) | e | _⟩ <;> rw [h1] at o1 <;> dsimp only
          · obtain ⟨k, g1, g2⟩ := ih (i + 1) ls w1 d
            exact ⟨1 + k, o1.trans g1 (Nat.le_refl _), by simp only [List.length_cons]; omega⟩
          all_goals exact ⟨1, o1, by simp only [leftOver, List.length_cons]; omega⟩
        · exact ih _ _ w ldb

theorem Heard.updateAppend (h : Heard io P Q) (hq : ∀ p, Q ⟨0, 0, 0, Cmd.readWriteALDB, p⟩) (ls : List LinkRecord) (i : Nat) (e : Option Err) (w : Recorded σ) (ldb : Ldb) :
    Sends P ls.length w (Ldb.updateAppend io i ls e w ldb).1 := by
  induction ls generalizing i e w ldb with
  | nil => exact .refl w
  | cons l ls ih =>
    have o1 := h.writeLink hq w ldb i (Ldb.notLast l)
    rw [Ldb.updateAppend]
    simp only [List.length_cons]
    rcases h1 : Ldb.writeLink io w ldb i (Ldb.notLast l) with ⟨w1, d, x | x | _⟩ <;> rw [h1] at o1
    · exact o1.trans (ih (i + 1) x w1 d) (by omega)
    all_goals exact o1.mono (by omega)

theorem Heard.updateLinks (h : Heard io P Q) (hq : ∀ p, Q ⟨0, 0, 0, Cmd.readWriteALDB, p⟩) (hr : Q Ldb.readRequest) (fuel : Nat) (now done : Int) (w : Recorded σ)
    (ldb : Ldb) (ls : List LinkRecord) : SendsLate P (ls.length + 2) w (Ldb.updateLinks io fuel now done w ldb ls) := by
  unfold Ldb.updateLinks
  have o1 := h.refresh hr fuel now done w ldb
  rcases h1 : Ldb.refresh io fuel now done w ldb with _ | ⟨w1, d, (_ | e) | e | _⟩
  · exact .nothing
  · have o1 := o1 _ h1
    dsimp only
    obtain ⟨k, o2, hk⟩ := h.updateFound hq ls [] w1 d
    rcases h2 : Ldb.updateFound io [] ls w1 d with ⟨w2, d2, ⟨l2, _ | e⟩ | e | _⟩ <;> rw [h2] at o2 hk <;> simp only [List.length_nil] at hk <;> dsimp only
    · obtain ⟨k3, o3, hk3⟩ := h.updateAvailable hq d2.links.length 0 l2 w2 d2
      simp only [leftOver] at hk
      rcases h3 : Ldb.updateAvailable io d2.links.length 0 l2 w2 d2 with ⟨w3, d3, ⟨l3, _ | e⟩ | e | _⟩ <;> rw [h3] at o3 hk3
      · simp only [leftOver] at hk3
        rcases l3 with _ | ⟨a, l3⟩ <;> dsimp only
        · exact .of ((o1.trans o2 (Nat.le_refl _)).trans o3 (by omega))
        · have o4 := h.updateAppend hq (a :: l3) d3.links.length none w3 d3
          rcases h4 : Ldb.updateAppend io d3.links.length (a :: l3) none w3 d3 with ⟨w4, d4, (_ | e) | e | _⟩ <;> rw [h4] at o4 <;> dsimp only
          · have o5 := h.writeLink hq w4 d4 (d3.links.length + (a :: l3).length : Nat) Ldb.endRecord
            exact .of ((((o1.trans o2 (Nat.le_refl _)).trans o3 (Nat.le_refl _)).trans o4 (Nat.le_refl _)).trans o5 (by omega))
          all_goals exact .of (((o1.trans o2 (Nat.le_refl _)).trans o3 (Nat.le_refl _)).trans o4 (by omega))
      · have o12 : Sends P (1 + k) w w2 := o1.trans o2 (Nat.le_refl _)
        rcases l3 with _ | ⟨a, l3⟩ <;> exact .of (o12.trans o3 (by simp only [leftOver] at hk3; omega))
      all_goals
        have o12 : Sends P (1 + k) w w2 := o1.trans o2 (Nat.le_refl _)
        exact .of (o12.trans o3 (by simp only [leftOver] at hk3; omega))
    all_goals exact .of (o1.trans o2 (by omega))
  all_goals exact .of ((o1 _ h1).mono (by omega))

/-! ### All calls -/

theorem prepare_addressed (info : DeviceInfo) (m : Message) : (Device.prepare info m).dst = info.address ∧ (Device.prepare info m).command = m.command := by
  unfold Device.prepare
  dsimp only
  split_ifs <;> exact ⟨rfl, rfl⟩

theorem prepare_second (info : DeviceInfo) (m : Message) (b : Byte) (h : m.payload[1]? = some b) : (Device.prepare info m).payload[1]? = some b := by
  have h1 : 1 < m.payload.length := by
    rcases Nat.lt_or_ge 1 m.payload.length with h1 | h1
    · exact h1
    · rw [List.getElem?_eq_none h1] at h; simp at h
  have hc : ∀ p : Bytes, p[1]? = some b → 14 ≤ p.length → (setChecksum m.command p)[1]? = some b := by
    intro p hp hl
    unfold setChecksum
    rw [List.getElem?_set_ne (by omega)]
    exact hp
  unfold Device.prepare
  dsimp only
  split_ifs with a1 a2 a3
  · exact hc _ (by
      unfold copyPad
      rw [List.getElem?_append_left (by simp; omega), List.getElem?_take_of_lt (by omega), h]) (by simp [copyPad]; omega)
  · exact hc m.payload h (by dsimp only at a3; omega)
  all_goals exact h

/-- The messages a call may send. -/
def Allowed (info : DeviceInfo) (c : DeviceCall) (m : Message) : Prop := m.dst = c.target info ∧ opcode m ∈ c.vocabulary ∧ (c.Asks → IsQuestion m)

theorem opcode_prepare (info : DeviceInfo) (cmd : Command) (p : Bytes) : opcode (Device.prepare info ⟨0, 0, 0, cmd, p⟩) = cmd.toNat / 256 % 256 := by
  unfold opcode; rw [(prepare_addressed info _).2]

theorem operand_prepare (info : DeviceInfo) (cmd : Command) (p : Bytes) : operand (Device.prepare info ⟨0, 0, 0, cmd, p⟩) = cmd.toNat % 256 := by
  unfold operand; rw [(prepare_addressed info _).2]

theorem sub_opcode (c : Command) (x : BitVec 64) : (c.subCommand x).toNat / 256 % 256 = c.toNat / 256 % 256 := by
  rw [subCommand_toNat]; omega

theorem once_sends {α : Type} {P : Message → Prop} {k : Nat} {w : Recorded σ} {r : Recorded σ × Out α} (h : Sends P k w r.1) : SendsLate P k w (DeviceCall.once r) := .of h

theorem waits_sends {α : Type} {P : Message → Prop} {k : Nat} {w : Recorded σ} {r : Option (Recorded σ × Out α)} (h : SendsLate P k w r) :
    SendsLate P k w (DeviceCall.waits r) := by
  rcases r with _ | r
  · exact .nothing
  · exact .of (h _ rfl)

theorem keeps_sends {α : Type} {P : Message → Prop} {k : Nat} {w : Recorded σ} {r : Option (Recorded σ × Ldb × Out α)} (h : SendsLate P k w r) :
    SendsLate P k w (DeviceCall.keeps r) := by
  rcases r with _ | r
  · exact .nothing
  · exact .of (h _ rfl)

local macro "voc" : tactic => `(tactic| first | decide | simp [DeviceCall.vocabulary])

theorem call_sends (io : MsgIO σ) (info : DeviceInfo) (fuel : Nat) (w : Recorded σ) (c : DeviceCall) :
    SendsLate (Allowed info c) c.most w (c.run info (record io) fuel w) := by
  have h : Heard (record io) (Allowed info c) (Allowed info c) := record_heard io
  have hd := h.device info
  have tell : ∀ cmd p, c.target info = info.address → cmd.toNat / 256 % 256 ∈ c.vocabulary → (c.Asks → IsQuestion (Device.prepare info ⟨0, 0, 0, cmd, p⟩)) →
      Allowed info c (Device.prepare info ⟨0, 0, 0, cmd, p⟩) :=
    fun cmd p ht hv ha => ⟨by rw [ht]; exact (prepare_addressed info _).1, by rw [opcode_prepare]; exact hv, ha⟩
  have sc : ∀ cmd p, c.target info = info.address → cmd.toNat / 256 % 256 ∈ c.vocabulary → ¬ c.Asks →
      SendsLate (Allowed info c) 1 w (DeviceCall.once (Device.sendCommand info (record io) w cmd p)) :=
    fun cmd p ht hv ha => once_sends (h.sendCommand info w cmd p (tell cmd p ht hv (fun hx => absurd hx ha)))
  have simple : ∀ cmd p, cmd.toNat / 256 % 256 ∈ [0x03, 0x0d, 0x10, 0x19, 0x1f, 0x6a] → IsQuestion (Device.prepare info ⟨0, 0, 0, cmd, p⟩) :=
    fun cmd p hx => Or.inl (by rw [opcode_prepare]; exact hx)
  have therm : ∀ cmd p, cmd.toNat / 256 % 256 = 0x6b → cmd.toNat % 256 ∈ [0x02, 0x03, 0x0d, 0x12] → IsQuestion (Device.prepare info ⟨0, 0, 0, cmd, p⟩) :=
    fun cmd p hx hy => Or.inr (Or.inl ⟨by rw [opcode_prepare]; exact hx, by rw [operand_prepare]; exact hy⟩)
  have ext : ∀ cmd p, cmd.toNat / 256 % 256 ∈ [0x2e, 0x2f] → p[1]? = some 0x00#8 → IsQuestion (Device.prepare info ⟨0, 0, 0, cmd, p⟩) :=
    fun cmd p hx hy => Or.inr (Or.inr ⟨by rw [opcode_prepare]; exact hx, prepare_second info _ _ hy⟩)
  cases c with
  | openDevice dst =>
    exact waits_sends (h.opens fuel w dst ⟨rfl, by simp [DeviceCall.vocabulary, opcode], fun _ => Or.inl (by simp [opcode])⟩
      ⟨rfl, by simp [DeviceCall.vocabulary, opcode], fun _ => Or.inl (by simp [opcode])⟩)
  | engineVersion dst => exact once_sends (h.engine w dst ⟨rfl, by simp [DeviceCall.vocabulary, opcode], fun _ => Or.inl (by simp [opcode])⟩)
  | identification dst => exact waits_sends (h.ident fuel w dst ⟨rfl, by simp [DeviceCall.vocabulary, opcode], fun _ => Or.inl (by simp [opcode])⟩)
  | send c p => exact once_sends (h.send info w c p (tell c p rfl (by simp [DeviceCall.vocabulary]) (fun hx => hx.elim)))
  | sendCommand c p => exact sc c p rfl (by simp [DeviceCall.vocabulary]) id
  | productData =>
    refine waits_sends ?_
    have hs := h.query info fuel w Cmd.productDataReq [] Cmd.productDataResp (tell _ _ rfl (by voc) (fun _ => simple _ _ (by voc)))
    unfold Device.productData
    rcases h1 : Device.query info (record io) fuel w Cmd.productDataReq [] Cmd.productDataResp with _ | ⟨w1, (e | v) | e | _⟩
    · exact .nothing
    all_goals (have h2 := hs _ h1; exact .of h2)
  | extendedGet d => exact waits_sends (h.extendedGet info fuel w d (tell _ _ rfl (by voc) (fun hx => hx.elim)))
  | enterLinkingMode g =>
    show SendsLate _ 1 w (DeviceCall.once (Device.enterLinkingMode info (record io) w g))
    unfold Device.enterLinkingMode
    split_ifs <;> exact sc _ _ rfl (by rw [sub_opcode]; voc) id
  | enterUnlinkingMode g => exact sc _ _ rfl (by rw [sub_opcode]; voc) id
  | exitLinkingMode => exact sc _ _ rfl (by voc) id
  | links ldb now done =>
    exact keeps_sends (hd.getLinks (tell _ _ rfl (by voc) (fun _ => ext _ _ (by voc) rfl)) fuel now done w ldb)
  | writeLink ldb i l => exact keeps_sends (.of (hd.writeLink (fun p => tell _ _ rfl (by voc) (fun hx => hx.elim)) w ldb i l))
  | writeLinks ldb done ls => exact keeps_sends (.of (hd.writeLinks (fun p => tell _ _ rfl (by voc) (fun hx => hx.elim)) done ls w ldb))
  | updateLinks ldb now done ls =>
    exact keeps_sends (hd.updateLinks (fun p => tell _ _ rfl (by voc) (fun hx => hx.elim)) (tell _ _ rfl (by voc) (fun hx => hx.elim)) fuel now done w ldb ls)
  | addLinks ldb now done ls =>
    exact keeps_sends (hd.addLinks (fun p => tell _ _ rfl (by voc) (fun hx => hx.elim)) (tell _ _ rfl (by voc) (fun hx => hx.elim)) fuel now done w ldb ls)
  | lightStatus =>
    refine once_sends ?_
    have hs := h.send info w Cmd.lightStatusRequest [] (tell _ _ rfl (by voc) (fun _ => simple _ _ (by voc)))
    unfold Switch.status
    rcases h1 : Device.send info (record io) w Cmd.lightStatusRequest [] with ⟨w1, ⟨v, _ | e⟩ | e | _⟩ <;> rw [h1] at hs <;> exact hs
  | switchConfig =>
    refine waits_sends ?_
    have hs := h.query info fuel w Cmd.extendedGetSet [0x01#8, 0x00#8] Cmd.extendedGetSet (tell _ _ rfl (by voc) (fun _ => ext _ _ (by voc) rfl))
    unfold Switch.config
    rcases h1 : Device.query info (record io) fuel w Cmd.extendedGetSet [0x01#8, 0x00#8] Cmd.extendedGetSet with _ | ⟨w1, (e | v) | e | _⟩
    · exact .nothing
    all_goals (have h2 := hs _ h1; exact .of h2)
  | operatingFlags =>
    refine once_sends ?_
    have hs := h.askAll info [Cmd.getOperatingFlags.subCommand 0x01#64, Cmd.getOperatingFlags.subCommand 0x02#64,
      Cmd.getOperatingFlags.subCommand 0x04#64, Cmd.getOperatingFlags.subCommand 0x10#64, Cmd.getOperatingFlags.subCommand 0x20#64] (by
        intro c hc
        simp only [List.mem_cons, List.not_mem_nil, or_false] at hc
        rcases hc with rfl | rfl | rfl | rfl | rfl <;> exact tell _ _ rfl (by rw [sub_opcode]; voc) (fun _ => simple _ _ (by rw [sub_opcode]; voc))) w
    unfold Switch.operatingFlags
    rcases h1 : Device.askAll info (record io) [Cmd.getOperatingFlags.subCommand 0x01#64, Cmd.getOperatingFlags.subCommand 0x02#64,
      Cmd.getOperatingFlags.subCommand 0x04#64, Cmd.getOperatingFlags.subCommand 0x10#64, Cmd.getOperatingFlags.subCommand 0x20#64] w with
      ⟨w1, ⟨v, e⟩ | e | _⟩ <;> rw [h1] at hs <;> exact hs
  | setLoadSense b => cases b <;> exact sc _ _ rfl (by voc) id
  | setBacklight b => cases b <;> exact sc _ _ rfl (by voc) id
  | turnOff => exact sc _ _ rfl (by voc) id
  | turnOn l => exact sc _ _ rfl (by rw [sub_opcode]; voc) id
  | dimmerConfig =>
    refine waits_sends ?_
    have hs := h.query info fuel w Cmd.extendedGetSet [0x01#8, 0x00#8] Cmd.extendedGetSet (tell _ _ rfl (by voc) (fun _ => ext _ _ (by voc) rfl))
    unfold Dimmer.config
    rcases h1 : Device.query info (record io) fuel w Cmd.extendedGetSet [0x01#8, 0x00#8] Cmd.extendedGetSet with _ | ⟨w1, (e | v) | e | _⟩
    · exact .nothing
    all_goals (have h2 := hs _ h1; exact .of h2)
  | brighten => exact sc _ _ rfl (by voc) id
  | dim => exact sc _ _ rfl (by voc) id
  | startBrighten => exact sc _ _ rfl (by voc) id
  | startDim => exact sc _ _ rfl (by voc) id
  | stopManualChange => exact sc _ _ rfl (by voc) id
  | onFast => exact sc _ _ rfl (by voc) id
  | instantChange l => exact sc _ _ rfl (by rw [sub_opcode]; voc) id
  | setStatus l => exact sc _ _ rfl (by rw [sub_opcode]; voc) id
  | onAtRamp l r => exact sc _ _ rfl (by rw [sub_opcode]; split_ifs <;> voc) id
  | offAtRamp r => exact sc _ _ rfl (by rw [sub_opcode]; split_ifs <;> voc) id
  | increaseTemp d => exact sc _ _ rfl (by rw [sub_opcode]; voc) id
  | decreaseTemp d => exact sc _ _ rfl (by rw [sub_opcode]; voc) id
  | zoneInfo z => exact once_sends (h.zone info w z (fun b => tell _ _ rfl (by rw [sub_opcode]; voc) (fun _ => simple _ _ (by rw [sub_opcode]; voc))))
  | getMode => exact once_sends (h.thermMode info w (tell _ _ rfl (by voc) (fun _ => therm _ _ (by voc) (by voc))))
  | ambientTemp => exact once_sends (h.ask info w _ (tell _ _ rfl (by voc) (fun _ => therm _ _ (by voc) (by voc))))
  | equipmentState => exact once_sends (h.equipment info w (tell _ _ rfl (by voc) (fun _ => therm _ _ (by voc) (by voc))))
  | fanSpeed => exact once_sends (h.ask info w _ (tell _ _ rfl (by voc) (fun _ => therm _ _ (by voc) (by voc))))
  | setMode m =>
    show SendsLate _ 1 w (DeviceCall.once (Thermostat.setMode info (record io) w m))
    unfold Thermostat.setMode
    rcases hm : Thermostat.modeCommand m with _ | c
    · exact once_sends ((Sends.refl w).mono (by omega))
    · refine sc _ _ rfl ?_ id
      unfold Thermostat.modeCommand at hm
      split_ifs at hm <;> first | (simp only [Option.some.injEq] at hm; subst hm; simp [DeviceCall.vocabulary]) | (exact absurd hm (by simp))
  | thermostatInfo => exact waits_sends (h.thermInfo info fuel w (fun i => tell _ _ rfl (by voc) (fun _ => ext _ _ (by voc) rfl)))
  | getTempUnit => exact waits_sends (h.tempUnit info fuel w (fun i => tell _ _ rfl (by voc) (fun _ => ext _ _ (by voc) rfl)))
  | setTempUnit u =>
    show SendsLate _ 1 w (DeviceCall.once (Thermostat.setTempUnit info (record io) w u))
    unfold Thermostat.setTempUnit
    split_ifs
    · exact sc _ _ rfl (by voc) id
    · exact sc _ _ rfl (by voc) id
    · exact once_sends ((Sends.refl w).mono (by omega))
  | setFanSpeed u =>
    show SendsLate _ 1 w (DeviceCall.once (Thermostat.setFanSpeed info (record io) w u))
    unfold Thermostat.setFanSpeed
    split_ifs
    · exact sc _ _ rfl (by voc) id
    · exact sc _ _ rfl (by voc) id
    · exact sc _ _ rfl (by voc) id
    · exact once_sends ((Sends.refl w).mono (by omega))
  | thermostatStatus =>
    exact waits_sends (h.thermStatus info fuel w (fun b => tell _ _ rfl (by rw [sub_opcode]; voc) (fun _ => simple _ _ (by rw [sub_opcode]; voc)))
      (fun i => tell _ _ rfl (by voc) (fun _ => ext _ _ (by voc) rfl))
      (tell _ _ rfl (by voc) (fun _ => therm _ _ (by voc) (by voc))) (tell _ _ rfl (by voc) (fun _ => therm _ _ (by voc) (by voc))))
  | setStatusMessage b => cases b <;> exact sc _ _ rfl (by voc) id
  | setCoolSetpoint z t => exact sc _ _ rfl (by rw [sub_opcode]; voc) id
  | setHeatSetpoint z t => exact sc _ _ rfl (by rw [sub_opcode]; voc) id
  | increaseZoneTemp z t => exact sc _ _ rfl (by rw [sub_opcode]; voc) id
  | decreaseZoneTemp z t => exact sc _ _ rfl (by rw [sub_opcode]; voc) id
  | setZoneCoolSetpoint z t d => exact sc _ _ rfl (by rw [sub_opcode]; voc) id
  | setZoneHeatSetpoint z t d => exact sc _ _ rfl (by rw [sub_opcode]; voc) id

end

/-- C199: whatever the message writer does, a call on a device sends messages to that device only, with the commands documented for the call and no others, and at most
so many; the calls that only ask send nothing but questions. -/
theorem call_traffic {σ : Type} (io : MsgIO σ) (info : DeviceInfo) (fuel : Nat) (s : σ) (c : DeviceCall) (w : Recorded σ) (e : Ended)
    (h : c.run info (record io) fuel ⟨s, []⟩ = some (w, e)) :
    w.sent.length ≤ c.most ∧ ∀ m ∈ w.sent, m.dst = c.target info ∧ opcode m ∈ c.vocabulary ∧ (c.Asks → IsQuestion m) := by
  obtain ⟨ms, h1, h2, h3⟩ := call_sends io info fuel ⟨s, []⟩ c _ h
  simp only [List.nil_append] at h1
  rw [h1]
  exact ⟨h2, h3⟩

/-- The hypotheses can be met, and the bounds are reached: a thermostat that answers everything is asked eight questions for its status, and one link takes two messages. -/
def answersAll : MsgIO Unit where
  read s := (s, .ret (some ⟨0x010203#32, 0, 0x2b#8, Cmd.extendedGetSet, List.replicate 14 0#8⟩) none)
  write s m := (s, .ret (some m) none)

example : ∃ w, DeviceCall.run ⟨0x010203#32, (5, 0), 0, 2⟩ (record answersAll) 5 ⟨(), []⟩ .thermostatStatus = some (w, .returned) ∧
    w.sent.map opcode = [0x6a, 0x6a, 0x6a, 0x6a, 0x2e, 0x2e, 0x6b, 0x6b] := ⟨_, rfl, by decide⟩

example : ∃ w, DeviceCall.run ⟨0x010203#32, (1, 0), 0, 1⟩ (record answersAll) 5 ⟨(), []⟩ (.writeLinks ⟨0, [], []⟩ 1 [⟨0xe2#8, 1#8, 0x010204#32, 1, 2, 3⟩]) = some (w, .returned) ∧
    w.sent.map opcode = [0x2f, 0x2f] := ⟨_, rfl, by decide⟩

end Insteon
