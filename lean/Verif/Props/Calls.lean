import Verif.Spec.Calls
import Verif.Props.Live

/-
Property C193: calls on devices return.
-/

namespace Insteon
open Spec

/-! ### Message writers that keep order -/

/-- A message writer that never panics, gives a message with every success, and has fewer and fewer messages left to give. -/
structure Orderly {σ : Type} (io : MsgIO σ) (ok : σ → Prop) (left : σ → Nat) (Hears : Message → Prop) : Prop where
  read : ∀ s, ok s → ∃ s' m e, io.read s = (s', .ret m e) ∧ ok s' ∧ left s' ≤ left s ∧
    (e = none → (∃ x, m = some x ∧ Hears x) ∧ left s' < left s)
  write : ∀ s m, ok s → ∃ s' a e, io.write s m = (s', .ret a e) ∧ ok s' ∧ left s' ≤ left s ∧
    (e = none ∨ e = some .devNak → a ≠ none)

/-- A call that returned. -/
def Fine {σ α : Type} (ok : σ → Prop) (left : σ → Nat) (s : σ) (r : σ × Out α) : Prop :=
  ∃ s' v, r = (s', .ok v) ∧ ok s' ∧ left s' ≤ left s

def FineW {σ α : Type} (ok : σ → Prop) (left : σ → Nat) (s : σ) (r : Option (σ × Out α)) : Prop :=
  ∃ s' v, r = some (s', .ok v) ∧ ok s' ∧ left s' ≤ left s

section
variable {σ : Type} {io : MsgIO σ} {ok : σ → Prop} {left : σ → Nat} {Hears : Message → Prop}

theorem Orderly.device (h : Orderly io ok left Hears) (info : DeviceInfo) : Orderly (Device.io info io) ok left Hears :=
  ⟨h.read, fun s m hs => h.write s (Device.prepare info m) hs⟩

theorem Orderly.devRead (h : Orderly io ok left Hears) (f : Matcher) (fuel : Nat) (s : σ) (hs : ok s) (hl : left s < fuel) :
    ∃ s' m e, Dev.read io f fuel s = some (s', .ret m e) ∧ ok s' ∧ left s' ≤ left s ∧
      (e = none → (∃ x, m = some x ∧ Hears x ∧ f x = true) ∧ left s' < left s) := by
  induction fuel generalizing s with
  | zero => omega
  | succ fuel ih =>
    obtain ⟨s1, m, e, h1, h2, h3, h4⟩ := h.read s hs
    rw [Dev.read, h1]
    rcases e with _ | e
    · obtain ⟨⟨x, rfl, hx⟩, hlt⟩ := h4 rfl
      dsimp only
      by_cases hf : f x = true
      · rw [if_pos hf]; exact ⟨_, _, _, rfl, h2, h3, fun _ => ⟨⟨x, rfl, hx, hf⟩, hlt⟩⟩
      · rw [if_neg hf]
        obtain ⟨s2, m, e, g1, g2, g3, g4⟩ := ih s1 h2 (by omega)
        exact ⟨s2, m, e, g1, g2, by omega, fun he => ⟨(g4 he).1, by have := (g4 he).2; omega⟩⟩
    · exact ⟨_, _, _, rfl, h2, h3, by simp⟩

theorem Orderly.send (h : Orderly io ok left Hears) (info : DeviceInfo) (s : σ) (hs : ok s) (c : Command) (p : Bytes) :
    Fine ok left s (Device.send info io s c p) := by
  obtain ⟨s1, a, e, h1, h2, h3, h4⟩ := (h.device info).write s ⟨0, 0, 0, c, p⟩ hs
  have h1' : Device.write info io s ⟨0, 0, 0, c, p⟩ = (s1, .ret a e) := h1
  unfold Device.send
  rw [h1']
  rcases e with _ | e
  · rcases a with _ | a
    · exact absurd rfl (h4 (Or.inl rfl))
    · exact ⟨_, _, rfl, h2, h3⟩
  · exact ⟨_, _, rfl, h2, h3⟩

theorem Orderly.sendCommand (h : Orderly io ok left Hears) (info : DeviceInfo) (s : σ) (hs : ok s) (c : Command) (p : Bytes) :
    Fine ok left s (Device.sendCommand info io s c p) := by
  obtain ⟨s1, v, h1, h2, h3⟩ := h.send info s hs c p
  unfold Device.sendCommand
  rw [h1]
  exact ⟨_, _, rfl, h2, h3⟩

theorem Orderly.query (h : Orderly io ok left Hears) (info : DeviceInfo) (fuel : Nat) (s : σ) (hs : ok s) (hl : left s < fuel)
    (c : Command) (p : Bytes) (a : Command) : FineW ok left s (Device.query info io fuel s c p a) := by
  obtain ⟨s1, m, e, h1, h2, h3, -⟩ := (h.device info).write s ⟨0, 0, 0, c, p⟩ hs
  have h1' : Device.write info io s ⟨0, 0, 0, c, p⟩ = (s1, .ret m e) := h1
  unfold Device.query
  rw [h1']
  rcases e with _ | e
  · obtain ⟨s2, m, e, g1, g2, g3, g4⟩ := (h.device info).devRead (Matcher.cmd a) fuel s1 h2 (by omega)
    dsimp only
    rw [g1]
    rcases e with _ | e
    · obtain ⟨⟨x, rfl, -⟩, -⟩ := g4 rfl
      exact ⟨_, _, rfl, g2, by omega⟩
    · exact ⟨_, _, rfl, g2, by omega⟩
  · exact ⟨_, _, rfl, h2, h3⟩

theorem Orderly.askAll (h : Orderly io ok left Hears) (info : DeviceInfo) (cs : List Command) (s : σ) (hs : ok s) :
    Fine ok left s (Device.askAll info io cs s) := by
  induction cs generalizing s with
  | nil => exact ⟨_, _, rfl, hs, Nat.le_refl _⟩
  | cons c cs ih =>
    obtain ⟨s1, a, e, h1, h2, h3, h4⟩ := (h.device info).write s ⟨0, 0, 0, c, []⟩ hs
    have h1' : Device.write info io s ⟨0, 0, 0, c, []⟩ = (s1, .ret a e) := h1
    rw [Device.askAll, h1']
    rcases e with _ | e
    · rcases a with _ | a
      · exact absurd rfl (h4 (Or.inl rfl))
      · obtain ⟨s2, v, g1, g2, g3⟩ := ih s1 h2
        dsimp only
        rw [g1]
        exact ⟨_, _, rfl, g2, by omega⟩
    · exact ⟨_, _, rfl, h2, h3⟩

theorem Orderly.engine (h : Orderly io ok left Hears) (s : σ) (hs : ok s) (dst : Address) :
    Fine ok left s (getEngineVersion io s dst) := by
  obtain ⟨s1, a, e, h1, h2, h3, h4⟩ := h.write s ⟨0, dst, Flags.standardDirectMessage, Cmd.getEngineVersion, []⟩ hs
  unfold getEngineVersion
  rw [h1]
  rcases e with _ | e
  · rcases a with _ | a
    · exact absurd rfl (h4 (Or.inl rfl))
    · exact ⟨_, _, rfl, h2, h3⟩
  · by_cases he : e = .devNak
    · subst he
      rcases a with _ | a
      · exact absurd rfl (h4 (Or.inr rfl))
      · dsimp only
        split_ifs <;> exact ⟨_, _, rfl, h2, h3⟩
    · rcases a with _ | a <;> (dsimp only; rw [if_neg he]; exact ⟨_, _, rfl, h2, h3⟩)

theorem Orderly.ident (h : Orderly io ok left Hears) (fuel : Nat) (s : σ) (hs : ok s) (hl : left s < fuel) (dst : Address) :
    FineW ok left s (idRequest io fuel s dst) := by
  obtain ⟨s1, a, e, h1, h2, h3, -⟩ := h.write s ⟨0, dst, Flags.standardDirectMessage, Cmd.idRequest, []⟩ hs
  unfold idRequest
  rw [h1]
  rcases e with _ | e
  · obtain ⟨s2, m, e, g1, g2, g3, g4⟩ := h.devRead (Matcher.or [Matcher.cmd Cmd.setButtonPressedResponder,
      Matcher.cmd Cmd.setButtonPressedController]) fuel s1 h2 (by omega)
    dsimp only
    rw [g1]
    rcases e with _ | e
    · obtain ⟨⟨x, rfl, -⟩, -⟩ := g4 rfl
      exact ⟨_, _, rfl, g2, by omega⟩
    · exact ⟨_, _, rfl, g2, by omega⟩
  · exact ⟨_, _, rfl, h2, h3⟩

theorem Orderly.opens (h : Orderly io ok left Hears) (fuel : Nat) (s : σ) (hs : ok s) (hl : left s < fuel) (dst : Address) :
    FineW ok left s (Dev.open io fuel s dst) := by
  obtain ⟨s1, ⟨v, e⟩, h1, h2, h3⟩ := h.engine s hs dst
  unfold Dev.open
  rw [h1]
  rcases e with _ | e
  · obtain ⟨s2, ⟨fw, cat, e⟩, g1, g2, g3⟩ := h.ident fuel s1 h2 (by omega) dst
    dsimp only
    rw [g1]
    rcases e with _ | e <;> exact ⟨_, _, rfl, g2, by omega⟩
  · exact ⟨_, _, rfl, h2, h3⟩

theorem Orderly.extendedGet (h : Orderly io ok left Hears) (info : DeviceInfo) (fuel : Nat) (s : σ) (hs : ok s) (hl : left s < fuel)
    (d : Bytes) : FineW ok left s (Device.extendedGet info io fuel s d) := by
  obtain ⟨s1, v, h1, h2, h3⟩ := h.query info fuel s hs hl Cmd.extendedGetSet d Cmd.extendedGetSet
  unfold Device.extendedGet
  rw [h1]
  rcases v with e | v <;> exact ⟨_, _, rfl, h2, h3⟩

theorem Orderly.ask (h : Orderly io ok left Hears) (info : DeviceInfo) (s : σ) (hs : ok s) (c : Command) :
    Fine ok left s (Thermostat.ask info io s c) := by
  obtain ⟨s1, v, h1, h2, h3⟩ := h.send info s hs c []
  unfold Thermostat.ask
  rw [h1]
  exact ⟨_, _, rfl, h2, h3⟩

theorem Orderly.infoStep (h : Orderly io ok left Hears) (info : DeviceInfo) (fuel : Nat) (s : σ) (hs : ok s) (hl : left s < fuel)
    (ti : ThermostatInfo) (i : Byte) : FineW ok left s (Thermostat.getInfoStep info io fuel s ti i) := by
  obtain ⟨s1, ⟨v, e⟩, h1, h2, h3⟩ := h.extendedGet info fuel s hs hl [0x00#8, 0x00#8, i]
  unfold Thermostat.getInfoStep
  rw [h1]
  rcases e with _ | e <;> exact ⟨_, _, rfl, h2, h3⟩

theorem Orderly.thermInfo (h : Orderly io ok left Hears) (info : DeviceInfo) (fuel : Nat) (s : σ) (hs : ok s) (hl : left s < fuel) :
    FineW ok left s (Thermostat.getInfo info io fuel s) := by
  obtain ⟨s1, ⟨v, e⟩, h1, h2, h3⟩ := h.infoStep info fuel s hs hl .zero 0#8
  unfold Thermostat.getInfo
  rw [h1]
  rcases e with _ | e
  · dsimp only
    obtain ⟨s2, v2, g1, g2, g3⟩ := h.infoStep info fuel s1 h2 (by omega) v 1#8
    exact ⟨s2, v2, g1, g2, by omega⟩
  · exact ⟨_, _, rfl, h2, h3⟩

theorem Orderly.tempUnit (h : Orderly io ok left Hears) (info : DeviceInfo) (fuel : Nat) (s : σ) (hs : ok s) (hl : left s < fuel) :
    FineW ok left s (Thermostat.getTempUnit info io fuel s) := by
  obtain ⟨s1, ⟨v, e⟩, h1, h2, h3⟩ := h.thermInfo info fuel s hs hl
  unfold Thermostat.getTempUnit
  rw [h1]
  exact ⟨_, _, rfl, h2, h3⟩

theorem Orderly.zone (h : Orderly io ok left Hears) (info : DeviceInfo) (s : σ) (hs : ok s) (z : Int) :
    Fine ok left s (Thermostat.getZoneInfo info io s z) := by
  unfold Thermostat.getZoneInfo
  dsimp only
  obtain ⟨s1, v, h1, h2, h3⟩ := h.askAll info [Cmd.getZoneInfo.subCommand (BitVec.ofInt 64 z &&& 0x0f#64),
    Cmd.getZoneInfo.subCommand (0x10#64 ||| BitVec.ofInt 64 z &&& 0x0f#64),
    Cmd.getZoneInfo.subCommand (0x20#64 ||| BitVec.ofInt 64 z &&& 0x0f#64),
    Cmd.getZoneInfo.subCommand (0x30#64 ||| BitVec.ofInt 64 z &&& 0x0f#64)] s hs
  rw [h1]
  exact ⟨_, _, rfl, h2, h3⟩

theorem Orderly.thermMode (h : Orderly io ok left Hears) (info : DeviceInfo) (s : σ) (hs : ok s) :
    Fine ok left s (Thermostat.getMode info io s) := by
  obtain ⟨s1, v, h1, h2, h3⟩ := h.ask info s hs Cmd.getThermostatMode
  unfold Thermostat.getMode
  rw [h1]
  exact ⟨_, _, rfl, h2, h3⟩

theorem Orderly.equipment (h : Orderly io ok left Hears) (info : DeviceInfo) (s : σ) (hs : ok s) :
    Fine ok left s (Thermostat.getEquipmentState info io s) := by
  obtain ⟨s1, v, h1, h2, h3⟩ := h.ask info s hs Cmd.getEquipmentState
  unfold Thermostat.getEquipmentState
  rw [h1]
  exact ⟨_, _, rfl, h2, h3⟩

theorem Orderly.thermStatus (h : Orderly io ok left Hears) (info : DeviceInfo) (fuel : Nat) (s : σ) (hs : ok s) (hl : left s < fuel) :
    FineW ok left s (Thermostat.status info io fuel s) := by
  obtain ⟨s1, ⟨v, e⟩, h1, h2, h3⟩ := h.zone info s hs 0
  unfold Thermostat.status
  rw [h1]
  rcases e with _ | e
  · obtain ⟨s2, ⟨u, e⟩, g1, g2, g3⟩ := h.tempUnit info fuel s1 h2 (by omega)
    dsimp only
    rw [g1]
    rcases e with _ | e
    · obtain ⟨s3, ⟨m, e⟩, k1, k2, k3⟩ := h.thermMode info s2 g2
      dsimp only
      rw [k1]
      rcases e with _ | e
      · obtain ⟨s4, ⟨q, e⟩, j1, j2, j3⟩ := h.equipment info s3 k2
        dsimp only
        rw [j1]
        exact ⟨_, _, rfl, j2, by omega⟩
      · exact ⟨_, _, rfl, k2, by omega⟩
    · exact ⟨_, _, rfl, g2, by omega⟩
  · exact ⟨_, _, rfl, h2, h3⟩

/-! ### Links -/

/-- A call about links that returned. -/
def FineL {α : Type} (ok : σ → Prop) (left : σ → Nat) (s : σ) (good : Ldb → Prop) (r : σ × Ldb × Out α) : Prop :=
  ∃ s' l v, r = (s', l, .ok v) ∧ ok s' ∧ left s' ≤ left s ∧ good l

theorem Orderly.writeLink (h : Orderly io ok left Hears) (s : σ) (hs : ok s) (ldb : Ldb) (i : Int) (hi : 0 ≤ i) (l : LinkRecord) :
    FineL ok left s (fun d => d.index = ldb.index ∧ (l.flags.lastRecord = false → ldb.links.length ≤ d.links.length))
      (Ldb.writeLink io s ldb i l) := by
  unfold Ldb.writeLink
  by_cases hgt : i > ldb.links.length
  · rw [if_pos hgt]; exact ⟨_, _, _, rfl, hs, Nat.le_refl _, rfl, fun _ => Nat.le_refl _⟩
  · rw [if_neg hgt]
    have hm : (⟨LinkRequest.writeLink, Ldb.memAddressOf i, 0, some l⟩ : LinkRequest).marshalBinary =
        .ok ([0, LinkRequest.writeLink, (Ldb.memAddressOf i >>> 8).setWidth 8, (Ldb.memAddressOf i &&& 0xff#64).setWidth 8] ++ [0x08#8] ++
          copyPad 9 l.marshalBinary) := rfl
    rw [hm]
    dsimp only
    obtain ⟨s1, a, e, h1, h2, h3, -⟩ := h.write s ⟨0, 0, 0, Cmd.readWriteALDB, [0, LinkRequest.writeLink, (Ldb.memAddressOf i >>> 8).setWidth 8,
      (Ldb.memAddressOf i &&& 0xff#64).setWidth 8] ++ [0x08#8] ++ copyPad 9 l.marshalBinary⟩ hs
    rw [h1]
    rcases e with _ | e
    · dsimp only
      have hn : ¬ i < 0 := by omega
      split_ifs with g1 g2 g3
      · exact ⟨_, _, _, rfl, h2, h3, rfl, fun hh => by rw [hh] at g1; simp at g1⟩
      · exact ⟨_, _, _, rfl, h2, h3, rfl, fun _ => Nat.le_refl _⟩
      · exact ⟨_, _, _, rfl, h2, h3, rfl, fun _ => by simp⟩
      · exact ⟨_, _, _, rfl, h2, h3, rfl, fun _ => by simp⟩
    · exact ⟨_, _, _, rfl, h2, h3, rfl, fun _ => Nat.le_refl _⟩

theorem Orderly.writeLinksLoop (h : Orderly io ok left Hears) (ls : List LinkRecord) (i : Nat) (s : σ) (hs : ok s) (ldb : Ldb) :
    FineL ok left s (fun _ => True) (Ldb.writeLinksLoop io i ls s ldb) := by
  induction ls generalizing i s ldb with
  | nil => exact ⟨_, _, _, rfl, hs, Nat.le_refl _, trivial⟩
  | cons l ls ih =>
    obtain ⟨s1, d, e, h1, h2, h3, -⟩ := h.writeLink s hs ldb i (by omega) (Ldb.notLast l)
    rw [Ldb.writeLinksLoop, h1]
    rcases e with _ | e
    · obtain ⟨s2, d2, e2, g1, g2, g3, -⟩ := ih (i + 1) s1 h2 d
      exact ⟨s2, d2, e2, g1, g2, by omega, trivial⟩
    · exact ⟨_, _, _, rfl, h2, h3, trivial⟩

theorem Orderly.writeLinks (h : Orderly io ok left Hears) (done : Int) (ls : List LinkRecord) (s : σ) (hs : ok s) (ldb : Ldb) :
    FineL ok left s (fun _ => True) (Ldb.writeLinks io done s ldb ls) := by
  obtain ⟨s1, d, e, h1, h2, h3, -⟩ := h.writeLinksLoop ls 0 s hs ldb
  unfold Ldb.writeLinks
  rw [h1]
  rcases e with _ | e
  · obtain ⟨s2, d2, e2, g1, g2, g3, -⟩ := h.writeLink s1 h2 d d.links.length (by omega) Ldb.endRecord
    dsimp only
    rw [g1]
    rcases e2 with _ | e2 <;> exact ⟨_, _, _, rfl, g2, by omega, trivial⟩
  · exact ⟨_, _, _, rfl, h2, h3, trivial⟩

/-- What is heard does not ask for links. -/
def NoReadRequests (m : Message) : Prop := ¬ (Command.matches' Cmd.readWriteALDB m.command = true ∧ m.payload[1]? = some 0x00#8)

theorem readRequest_nil (buf : Bytes) (lr : LinkRequest) (h : LinkRequest.zero.unmarshalBinary buf = (lr, none)) (h0 : buf[1]? ≠ some 0x00#8) :
    lr.link ≠ none := by
  unfold LinkRequest.unmarshalBinary at h
  rcases buf with _ | ⟨b0, _ | ⟨b1, _ | ⟨b2, _ | ⟨b3, _ | ⟨b4, rest⟩⟩⟩⟩⟩
  any_goals (simp at h; done)
  have h1 : b1 ≠ 0x00#8 := by simpa using h0
  dsimp only at h
  rw [if_neg h1] at h
  split_ifs at h
  · simp only [Prod.mk.injEq] at h
    rw [← h.1]; simp
  · simp only [Prod.mk.injEq] at h
    rw [← h.1]; simp
  · simp [LinkRequest.zero] at h

theorem Orderly.refreshLoop (h : Orderly io ok left NoReadRequests) (fr fuel : Nat) (s : σ) (hs : ok s) (hr : left s < fr) (hf : left s < fuel)
    (ldb : Ldb) (hi : ∀ x ∈ ldb.index, x.2 < ldb.links.length) (last : MemAddress) :
    ∃ s' l v, Ldb.refreshLoop io fr fuel s ldb last = some (s', l, .ok v) ∧ ok s' ∧ left s' ≤ left s ∧ ∀ x ∈ l.index, x.2 < l.links.length := by
  induction fuel generalizing s ldb last with
  | zero => omega
  | succ fuel ih =>
    obtain ⟨s1, m, e, h1, h2, h3, h4⟩ := h.devRead (Matcher.cmd Cmd.readWriteALDB) fr s hs hr
    rw [Ldb.refreshLoop, h1]
    rcases e with _ | e
    · obtain ⟨⟨x, rfl, hx, hc⟩, hlt⟩ := h4 rfl
      dsimp only
      rcases hu : LinkRequest.zero.unmarshalBinary x.payload with ⟨lr, _ | e⟩
      · dsimp only
        have hl : lr.link ≠ none := readRequest_nil _ _ hu (fun h0 => hx ⟨hc, h0⟩)
        split_ifs with hm
        · rcases hll : lr.link with _ | l
          · exact absurd hll hl
          · dsimp only
            split_ifs with hlast
            · exact ⟨_, _, _, rfl, h2, h3, hi⟩
            · obtain ⟨s2, d, v, g1, g2, g3, g4⟩ := ih s1 h2 (by omega) (by omega)
                { ldb with links := ldb.links ++ [l], index := (l.id, ldb.links.length) :: ldb.index }
                (by
                  intro y hy
                  rcases List.mem_cons.mp hy with rfl | hy
                  · simp
                  · have := hi y hy; simp; omega) lr.memAddress
              exact ⟨s2, d, v, g1, g2, by omega, g4⟩
        · obtain ⟨s2, d, v, g1, g2, g3, g4⟩ := ih s1 h2 (by omega) (by omega) ldb hi last
          exact ⟨s2, d, v, g1, g2, by omega, g4⟩
      · exact ⟨_, _, _, rfl, h2, h3, hi⟩
    · exact ⟨_, _, _, rfl, h2, h3, hi⟩

theorem Orderly.refresh (h : Orderly io ok left NoReadRequests) (fuel : Nat) (now done : Int) (s : σ) (hs : ok s) (hf : left s < fuel) (ldb : Ldb) :
    ∃ s' l v, Ldb.refresh io fuel now done s ldb = some (s', l, .ok v) ∧ ok s' ∧ left s' ≤ left s ∧
      ((∀ x ∈ ldb.index, x.2 < ldb.links.length) → ∀ x ∈ l.index, x.2 < l.links.length) := by
  unfold Ldb.refresh
  by_cases ho : (!ldb.old now) = true
  · rw [if_pos ho]; exact ⟨_, _, _, rfl, hs, Nat.le_refl _, id⟩
  · rw [if_neg ho]
    dsimp only
    obtain ⟨s1, a, e, h1, h2, h3, -⟩ := h.write s Ldb.readRequest hs
    rw [h1]
    rcases e with _ | e
    · dsimp only
      obtain ⟨s2, d, v, g1, g2, g3, g4⟩ := h.refreshLoop fuel fuel s1 h2 (by omega) (by omega) { ldb with index := [], links := [] } (by simp) 0#64
      rw [g1]
      rcases v with _ | v <;> exact ⟨_, _, _, rfl, g2, by omega, fun _ => g4⟩
    · exact ⟨_, _, _, rfl, h2, h3, by simp⟩

theorem Orderly.getLinks (h : Orderly io ok left NoReadRequests) (fuel : Nat) (now done : Int) (s : σ) (hs : ok s) (hf : left s < fuel) (ldb : Ldb) :
    ∃ r, Ldb.getLinks io fuel now done s ldb = some r ∧ FineL ok left s (fun _ => True) r := by
  obtain ⟨s1, d, v, h1, h2, h3, -⟩ := h.refresh fuel now done s hs hf ldb
  unfold Ldb.getLinks
  rw [h1]
  rcases v with _ | v <;> exact ⟨_, rfl, _, _, _, rfl, h2, h3, trivial⟩

theorem lookup_mem (index : List (Bytes × Nat)) (id : Bytes) (j : Nat) (h : Ldb.lookup index id = some j) : ∃ x ∈ index, x.2 = j := by
  unfold Ldb.lookup at h
  rcases hf : index.find? (fun p => p.1 == id) with _ | x
  · rw [hf] at h; simp at h
  · rw [hf] at h
    exact ⟨x, List.mem_of_find?_eq_some hf, by simpa using h⟩

theorem Orderly.updateFound (h : Orderly io ok left Hears) (ls kept : List LinkRecord) (hl : ∀ l ∈ ls, l.flags.lastRecord = false) (s : σ) (hs : ok s)
    (ldb : Ldb) (hi : ∀ x ∈ ldb.index, x.2 < ldb.links.length) :
    FineL ok left s (fun _ => True) (Ldb.updateFound io kept ls s ldb) := by
  induction ls generalizing kept s ldb with
  | nil => exact ⟨_, _, _, rfl, hs, Nat.le_refl _, trivial⟩
  | cons l ls ih =>
    rw [Ldb.updateFound]
    rcases hk : Ldb.lookup ldb.index l.id with _ | j
    · exact ih (kept ++ [l]) (fun x hx => hl x (by simp [hx])) s hs ldb hi
    · dsimp only
      obtain ⟨x, hx, rfl⟩ := lookup_mem _ _ _ hk
      rw [List.getElem?_eq_getElem (hi x hx)]
      dsimp only
      split_ifs with hfl
      · obtain ⟨s1, d, e, h1, h2, h3, h4, h5⟩ := h.writeLink s hs ldb kept.length (by omega) l
        rw [h1]
        rcases e with _ | e
        · dsimp only
          obtain ⟨s2, d2, v, g1, g2, g3, -⟩ := ih kept (fun x hx => hl x (by simp [hx])) s1 h2 d
            (fun y hy => by rw [h4] at hy; have := hi y hy; have := h5 (hl l (by simp)); omega)
          exact ⟨s2, d2, v, g1, g2, by omega, trivial⟩
        · exact ⟨_, _, _, rfl, h2, h3, trivial⟩
      · exact ih kept (fun x hx => hl x (by simp [hx])) s hs ldb hi

theorem Orderly.updateAvailable (h : Orderly io ok left Hears) (fuel i : Nat) (ls : List LinkRecord) (s : σ) (hs : ok s) (ldb : Ldb) :
    FineL ok left s (fun _ => True) (Ldb.updateAvailable io fuel i ls s ldb) := by
  induction fuel generalizing i ls s ldb with
  | zero => exact ⟨_, _, _, rfl, hs, Nat.le_refl _, trivial⟩
  | succ fuel ih =>
    rw [Ldb.updateAvailable.eq_def]
    dsimp only
    rcases hg : ldb.links[i]? with _ | r
    · exact ⟨_, _, _, rfl, hs, Nat.le_refl _, trivial⟩
    · rcases ls with _ | ⟨l, ls⟩
      · exact ih (i + 1) [] s hs ldb
      · dsimp only
        split_ifs with hav
        · obtain ⟨s1, d, e, h1, h2, h3, -⟩ := h.writeLink s hs ldb i (by omega) (Ldb.notLast l)
          rw [h1]
          rcases e with _ | e
          · obtain ⟨s2, d2, v, g1, g2, g3, -⟩ := ih (i + 1) ls s1 h2 d
            exact ⟨s2, d2, v, g1, g2, by omega, trivial⟩
          · exact ⟨_, _, _, rfl, h2, h3, trivial⟩
        · exact ih (i + 1) (l :: ls) s hs ldb

theorem Orderly.updateAppend (h : Orderly io ok left Hears) (ls : List LinkRecord) (i : Nat) (e : Option Err) (s : σ) (hs : ok s) (ldb : Ldb) :
    FineL ok left s (fun _ => True) (Ldb.updateAppend io i ls e s ldb) := by
  induction ls generalizing i e s ldb with
  | nil => exact ⟨_, _, _, rfl, hs, Nat.le_refl _, trivial⟩
  | cons l ls ih =>
    obtain ⟨s1, d, e1, h1, h2, h3, -⟩ := h.writeLink s hs ldb i (by omega) (Ldb.notLast l)
    rw [Ldb.updateAppend, h1]
    dsimp only
    obtain ⟨s2, d2, v, g1, g2, g3, -⟩ := ih (i + 1) e1 s1 h2 d
    exact ⟨s2, d2, v, g1, g2, by omega, trivial⟩

theorem Orderly.updateLinks (h : Orderly io ok left NoReadRequests) (fuel : Nat) (now done : Int) (s : σ) (hs : ok s) (hf : left s < fuel) (ldb : Ldb)
    (hi : ∀ x ∈ ldb.index, x.2 < ldb.links.length) (ls : List LinkRecord) (hl : ∀ l ∈ ls, l.flags.lastRecord = false) :
    ∃ r, Ldb.updateLinks io fuel now done s ldb ls = some r ∧ FineL ok left s (fun _ => True) r := by
  obtain ⟨s1, d, v, h1, h2, h3, h4⟩ := h.refresh fuel now done s hs hf ldb
  unfold Ldb.updateLinks
  rw [h1]
  rcases v with _ | v
  · dsimp only
    obtain ⟨s2, d2, ⟨l2, e2⟩, g1, g2, g3, -⟩ := h.updateFound ls [] hl s1 h2 d (h4 hi)
    rw [g1]
    rcases e2 with _ | e2
    · dsimp only
      obtain ⟨s3, d3, ⟨l3, e3⟩, k1, k2, k3, -⟩ := h.updateAvailable d2.links.length 0 l2 s2 g2 d2
      rw [k1]
      rcases e3 with _ | e3
      · rcases l3 with _ | ⟨x, l3⟩
        · exact ⟨_, rfl, _, _, _, rfl, k2, by omega, trivial⟩
        · dsimp only
          obtain ⟨s4, d4, e4, j1, j2, j3, -⟩ := h.updateAppend (x :: l3) d3.links.length none s3 k2 d3
          rw [j1]
          rcases e4 with _ | e4
          · dsimp only
            obtain ⟨s5, d5, e5, i1, i2, i3, -⟩ := h.writeLink s4 j2 d4 (d3.links.length + (x :: l3).length : Nat) (by omega) Ldb.endRecord
            exact ⟨_, rfl, s5, d5, e5, i1, i2, by omega, trivial⟩
          · exact ⟨_, rfl, _, _, _, rfl, j2, by omega, trivial⟩
      · rcases l3 with _ | ⟨x, l3⟩ <;> exact ⟨_, rfl, _, _, _, rfl, k2, by omega, trivial⟩
    · exact ⟨_, rfl, _, _, _, rfl, g2, by omega, trivial⟩
  · exact ⟨_, rfl, _, _, _, rfl, h2, h3, trivial⟩

theorem Orderly.addLoop (h : Orderly io ok left Hears) (rest : List LinkRecord) (i : Nat) (adds : List LinkRecord) (s : σ) (hs : ok s) (ldb : Ldb) :
    FineL ok left s (fun _ => True) (Ldb.addLoop io i rest adds s ldb) := by
  induction rest generalizing i adds s ldb with
  | nil => exact ⟨_, _, _, rfl, hs, Nat.le_refl _, trivial⟩
  | cons l rest ih =>
    rw [Ldb.addLoop.eq_def]
    rcases adds with _ | ⟨a, as⟩
    · exact ⟨_, _, _, rfl, hs, Nat.le_refl _, trivial⟩
    · dsimp only
      split_ifs with hav
      · obtain ⟨s1, d, e, h1, h2, h3, -⟩ := h.writeLink s hs ldb i (by omega) l
        rw [h1]
        rcases e with _ | e
        · dsimp only
          obtain ⟨s2, d2, v, g1, g2, g3, -⟩ := ih (i + 1) as s1 h2
            { d with links := d.links.set i { a with flags := a.flags.setInUse.clearLastRecord } }
          exact ⟨s2, d2, v, g1, g2, by omega, trivial⟩
        · exact ⟨_, _, _, rfl, h2, h3, trivial⟩
      · exact ih (i + 1) as s hs ldb

theorem Orderly.addAppend (h : Orderly io ok left Hears) (ls : List LinkRecord) (s : σ) (hs : ok s) (ldb : Ldb) :
    FineL ok left s (fun _ => True) (Ldb.addAppend io ls s ldb) := by
  induction ls generalizing s ldb with
  | nil => exact ⟨_, _, _, rfl, hs, Nat.le_refl _, trivial⟩
  | cons l ls ih =>
    obtain ⟨s1, d, e, h1, h2, h3, -⟩ := h.writeLink s hs ldb ldb.links.length (by omega) (Ldb.notLast l)
    rw [Ldb.addAppend, h1]
    rcases e with _ | e
    · dsimp only
      obtain ⟨s2, d2, v, g1, g2, g3, -⟩ := ih s1 h2 d
      exact ⟨s2, d2, v, g1, g2, by omega, trivial⟩
    · exact ⟨_, _, _, rfl, h2, h3, trivial⟩

theorem Orderly.addLinks (h : Orderly io ok left NoReadRequests) (fuel : Nat) (now done : Int) (s : σ) (hs : ok s) (hf : left s < fuel) (ldb : Ldb)
    (ls : List LinkRecord) :
    ∃ r, Ldb.addLinks io fuel now done s ldb ls = some r ∧ FineL ok left s (fun _ => True) r := by
  unfold Ldb.addLinks
  by_cases h0 : ls.length = 0
  · rw [if_pos h0]; exact ⟨_, rfl, _, _, _, rfl, hs, Nat.le_refl _, trivial⟩
  · rw [if_neg h0]
    obtain ⟨s1, d, v, h1, h2, h3, -⟩ := h.refresh fuel now done s hs hf ldb
    rw [h1]
    rcases v with _ | v
    · dsimp only
      obtain ⟨s2, d2, ⟨l2, e2⟩, g1, g2, g3, -⟩ := h.addLoop d.links 0 ls s1 h2 d
      rw [g1]
      rcases e2 with _ | e2
      · dsimp only
        obtain ⟨s3, d3, e3, k1, k2, k3, -⟩ := h.addAppend l2 s2 g2 d2
        exact ⟨_, rfl, s3, d3, e3, k1, k2, by omega, trivial⟩
      · exact ⟨_, rfl, _, _, _, rfl, g2, by omega, trivial⟩
    · exact ⟨_, rfl, _, _, _, rfl, h2, h3, trivial⟩

/-! ### Every call -/

theorem once_fine {α : Type} {s : σ} {r : σ × Out α} (h : Fine ok left s r) :
    ∃ s', DeviceCall.once r = some (s', .returned) ∧ ok s' ∧ left s' ≤ left s := by
  obtain ⟨s', v, rfl, h2, h3⟩ := h
  exact ⟨s', rfl, h2, h3⟩

theorem waits_fine {α : Type} {s : σ} {r : Option (σ × Out α)} (h : FineW ok left s r) :
    ∃ s', DeviceCall.waits r = some (s', .returned) ∧ ok s' ∧ left s' ≤ left s := by
  obtain ⟨s', v, rfl, h2, h3⟩ := h
  exact ⟨s', rfl, h2, h3⟩

theorem keeps_fine {α : Type} {s : σ} {r : Option (σ × Ldb × Out α)} {g : Ldb → Prop} (h : ∃ x, r = some x ∧ FineL ok left s g x) :
    ∃ s', DeviceCall.keeps r = some (s', .returned) ∧ ok s' ∧ left s' ≤ left s := by
  obtain ⟨x, rfl, s', l, v, rfl, h2, h3, -⟩ := h
  exact ⟨s', rfl, h2, h3⟩

theorem not_last (f : Byte) : f.toNat / 2 % 2 = 1 → RecordControlFlags.lastRecord f = false := by revert f; decide +kernel

theorem call_returns (h : Orderly io ok left Hears) (info : DeviceInfo) (fuel : Nat) (s : σ) (hs : ok s) (hl : left s < fuel) (c : DeviceCall)
    (hc : c.Sensible) (hd : c.Downloads → Orderly io ok left NoReadRequests) :
    ∃ s', c.run info io fuel s = some (s', .returned) ∧ ok s' ∧ left s' ≤ left s := by
  have hx : Fine ok left s (Thermostat.getAmbientTemp info io s) := h.ask info s hs _
  cases c with
  | openDevice dst => exact waits_fine (h.opens fuel s hs hl dst)
  | engineVersion dst => exact once_fine (h.engine s hs dst)
  | identification dst => exact waits_fine (h.ident fuel s hs hl dst)
  | send c p => exact once_fine (h.send info s hs c p)
  | sendCommand c p => exact once_fine (h.sendCommand info s hs c p)
  | productData =>
    refine waits_fine ?_
    obtain ⟨s1, v, h1, h2, h3⟩ := h.query info fuel s hs hl Cmd.productDataReq [] Cmd.productDataResp
    unfold Device.productData
    rw [h1]
    rcases v with e | v <;> exact ⟨_, _, rfl, h2, h3⟩
  | extendedGet d => exact waits_fine (h.extendedGet info fuel s hs hl d)
  | enterLinkingMode g =>
    refine once_fine ?_
    unfold Device.enterLinkingMode
    split_ifs <;> exact h.sendCommand info s hs _ _
  | enterUnlinkingMode g => exact once_fine (h.sendCommand info s hs _ _)
  | exitLinkingMode => exact once_fine (h.sendCommand info s hs _ _)
  | links ldb now done => exact keeps_fine (((hd trivial).device info).getLinks fuel now done s hs hl ldb)
  | writeLink ldb i l => exact keeps_fine ⟨_, rfl, (h.device info).writeLink s hs ldb i hc l⟩
  | writeLinks ldb done ls => exact keeps_fine ⟨_, rfl, (h.device info).writeLinks done ls s hs ldb⟩
  | updateLinks ldb now done ls =>
    exact keeps_fine (((hd trivial).device info).updateLinks fuel now done s hs hl ldb hc.1.1 ls (fun l hx => not_last _ (hc.2 l hx)))
  | addLinks ldb now done ls => exact keeps_fine (((hd trivial).device info).addLinks fuel now done s hs hl ldb ls)
  | lightStatus =>
    refine once_fine ?_
    obtain ⟨s1, ⟨v, e⟩, h1, h2, h3⟩ := h.send info s hs Cmd.lightStatusRequest []
    unfold Switch.status
    rw [h1]
    rcases e with _ | e <;> exact ⟨_, _, rfl, h2, h3⟩
  | switchConfig =>
    refine waits_fine ?_
    obtain ⟨s1, v, h1, h2, h3⟩ := h.query info fuel s hs hl Cmd.extendedGetSet [0x01#8, 0x00#8] Cmd.extendedGetSet
    unfold Switch.config
    rw [h1]
    rcases v with e | v <;> exact ⟨_, _, rfl, h2, h3⟩
  | operatingFlags =>
    refine once_fine ?_
    obtain ⟨s1, v, h1, h2, h3⟩ := h.askAll info [Cmd.getOperatingFlags.subCommand 0x01#64, Cmd.getOperatingFlags.subCommand 0x02#64,
      Cmd.getOperatingFlags.subCommand 0x04#64, Cmd.getOperatingFlags.subCommand 0x10#64, Cmd.getOperatingFlags.subCommand 0x20#64] s hs
    unfold Switch.operatingFlags
    rw [h1]
    exact ⟨_, _, rfl, h2, h3⟩
  | setLoadSense b => refine once_fine ?_; cases b <;> exact h.sendCommand info s hs _ _
  | setBacklight b => refine once_fine ?_; cases b <;> exact h.sendCommand info s hs _ _
  | turnOff => exact once_fine (h.sendCommand info s hs _ _)
  | turnOn l => exact once_fine (h.sendCommand info s hs _ _)
  | dimmerConfig =>
    refine waits_fine ?_
    obtain ⟨s1, v, h1, h2, h3⟩ := h.query info fuel s hs hl Cmd.extendedGetSet [0x01#8, 0x00#8] Cmd.extendedGetSet
    unfold Dimmer.config
    rw [h1]
    rcases v with e | v <;> exact ⟨_, _, rfl, h2, h3⟩
  | brighten => exact once_fine (h.sendCommand info s hs _ _)
  | dim => exact once_fine (h.sendCommand info s hs _ _)
  | startBrighten => exact once_fine (h.sendCommand info s hs _ _)
  | startDim => exact once_fine (h.sendCommand info s hs _ _)
  | stopManualChange => exact once_fine (h.sendCommand info s hs _ _)
  | onFast => exact once_fine (h.sendCommand info s hs _ _)
  | instantChange l => exact once_fine (h.sendCommand info s hs _ _)
  | setStatus l => exact once_fine (h.sendCommand info s hs _ _)
  | onAtRamp l r => exact once_fine (h.sendCommand info s hs _ _)
  | offAtRamp r => exact once_fine (h.sendCommand info s hs _ _)
  | increaseTemp d => exact once_fine (h.sendCommand info s hs _ _)
  | decreaseTemp d => exact once_fine (h.sendCommand info s hs _ _)
  | zoneInfo z => exact once_fine (h.zone info s hs z)
  | getMode => exact once_fine (h.thermMode info s hs)
  | ambientTemp => exact once_fine hx
  | equipmentState => exact once_fine (h.equipment info s hs)
  | fanSpeed => exact once_fine (h.ask info s hs _)
  | setMode m =>
    refine once_fine ?_
    unfold Thermostat.setMode
    rcases Thermostat.modeCommand m with _ | c
    · exact ⟨_, _, rfl, hs, Nat.le_refl _⟩
    · exact h.sendCommand info s hs _ _
  | thermostatInfo => exact waits_fine (h.thermInfo info fuel s hs hl)
  | getTempUnit => exact waits_fine (h.tempUnit info fuel s hs hl)
  | setTempUnit u =>
    refine once_fine ?_
    unfold Thermostat.setTempUnit
    split_ifs
    · exact h.sendCommand info s hs _ _
    · exact h.sendCommand info s hs _ _
    · exact ⟨_, _, rfl, hs, Nat.le_refl _⟩
  | setFanSpeed u =>
    refine once_fine ?_
    unfold Thermostat.setFanSpeed
    split_ifs
    · exact h.sendCommand info s hs _ _
    · exact h.sendCommand info s hs _ _
    · exact h.sendCommand info s hs _ _
    · exact ⟨_, _, rfl, hs, Nat.le_refl _⟩
  | thermostatStatus => exact waits_fine (h.thermStatus info fuel s hs hl)
  | setStatusMessage b => refine once_fine ?_; cases b <;> exact h.sendCommand info s hs _ _
  | setCoolSetpoint z t => exact once_fine (h.sendCommand info s hs _ _)
  | setHeatSetpoint z t => exact once_fine (h.sendCommand info s hs _ _)
  | increaseZoneTemp z t => exact once_fine (h.sendCommand info s hs _ _)
  | decreaseZoneTemp z t => exact once_fine (h.sendCommand info s hs _ _)
  | setZoneCoolSetpoint z t d => exact once_fine (h.sendCommand info s hs _ _)
  | setZoneHeatSetpoint z t d => exact once_fine (h.sendCommand info s hs _ _)

theorem calls_returned (fuel : Nat) (h : Orderly io ok left Hears) (cs : List (DeviceInfo × DeviceCall)) (s : σ) (hs : ok s) (hl : left s < fuel)
    (hc : ∀ c ∈ cs, c.2.Sensible) (hd : (∃ c ∈ cs, c.2.Downloads) → Orderly io ok left NoReadRequests) :
    ∃ s', DeviceCall.runAll io fuel cs s = some (s', cs.map fun _ => .returned) := by
  induction cs generalizing s with
  | nil => exact ⟨s, rfl⟩
  | cons c cs ih =>
    obtain ⟨s1, h1, h2, h3⟩ := call_returns h c.1 fuel s hs hl c.2 (hc c (by simp)) (fun hx => hd ⟨c, by simp, hx⟩)
    obtain ⟨s2, g⟩ := ih s1 h2 (by omega) (fun x hx => hc x (by simp [hx])) (fun ⟨x, hx, hy⟩ => hd ⟨x, by simp [hx], hy⟩)
    refine ⟨s2, ?_⟩
    rw [DeviceCall.runAll, h1]
    dsimp only
    rw [g]
    rfl

end

/-! ### A running PLM -/

/-- What a running PLM still has to give: its queue holds ten messages, and so much can arrive before each receive. -/
def messagesLeft (s : Live) : Nat := 11 * s.slots.length + s.port.msgQ.length

/-- The state between calls: `G` holds of every packet that is there or will come. -/
structure Steady (G : Packet → Prop) (s : Live) : Prop where
  sane : Sane s
  room : s.port.msgQ.length ≤ 10
  queued : ∀ p ∈ s.port.msgQ, G p
  coming : ∀ b ∈ s.slots, ∀ p ∈ Live.arrivals b, G p

theorem run_queue (G : Packet → Prop) (ps : List Packet) (s : PortSt) (hr : s.msgQ.length ≤ 10) (hq : ∀ p ∈ s.msgQ, G p) (hp : ∀ p ∈ ps, G p) :
    (Port.run s (ps.map .arrive)).1.msgQ.length ≤ 10 ∧ ∀ p ∈ (Port.run s (ps.map .arrive)).1.msgQ, G p := by
  induction ps generalizing s with
  | nil => exact ⟨hr, hq⟩
  | cons p ps ih =>
    simp only [List.map_cons, Port.run]
    have hcap : Port.cap = 10 := rfl
    apply ih
    · simp only [Port.step]
      split_ifs <;> simp <;> omega
    · simp only [Port.step]
      split_ifs
      · exact hq
      · intro q hm
        simp only [List.mem_append, List.mem_singleton] at hm
        rcases hm with hm | rfl
        · exact hq q hm
        · exact hp _ (by simp)
      · exact hq
      · exact hq
      · exact hq
    · exact fun q hq => hp q (by simp [hq])

theorem feed_steady (G : Packet → Prop) (s : Live) (h : Steady G s) :
    Steady G s.feed ∧ messagesLeft s.feed ≤ messagesLeft s ∧ (s.slots ≠ [] → messagesLeft s.feed < messagesLeft s) := by
  obtain ⟨h1, -, h2, h3⟩ := feed_sane s h.sane
  rcases hs : s.slots with _ | ⟨b, rest⟩
  · rw [h3 hs]; exact ⟨h, Nat.le_refl _, by simp⟩
  · have hrun := run_queue G (Live.arrivals b) s.port h.room h.queued (h.coming b (by rw [hs]; simp))
    have hf : s.feed = { s with port := (Port.run s.port ((Live.arrivals b).map .arrive)).1, slots := rest } := by
      unfold Live.feed; rw [hs]
    have hm : messagesLeft s.feed < messagesLeft s := by
      unfold messagesLeft
      rw [hf, hs]
      simp only [List.length_cons]
      have := hrun.1
      omega
    refine ⟨⟨h1, ?_, ?_, ?_⟩, by omega, fun _ => hm⟩
    · rw [hf]; exact hrun.1
    · rw [hf]; exact hrun.2
    · rw [hf]; exact fun c hc => h.coming c (by rw [hs]; simp [hc])

/-- Messages read from packets of which `G` holds. -/
def FromPacket (G : Packet → Prop) (m : Message) : Prop := ∃ p, G p ∧ Message.zero.unmarshalBinary p.payload = (m, none)

section
variable {fails : List Bytes → Option Nat}

theorem read_steady (G : Packet → Prop) (s : Live) (h : Steady G s) :
    ∃ s' m e, Plm.read (Live.faulty fails) s = (s', .ret m e) ∧ Steady G s' ∧ messagesLeft s' ≤ messagesLeft s ∧ e ≠ some .devNak ∧
      (e = none → (∃ x, m = some x ∧ FromPacket G x) ∧ messagesLeft s' < messagesLeft s) := by
  obtain ⟨hf, hle, -⟩ := feed_steady G s h
  rcases recv_open s.feed.port.msgQ with ⟨p, t, hq, hr⟩ | ⟨hq, hr⟩
  · have hrx : (Live.faulty fails).rxMsg s = ({ s.feed with port := { s.feed.port with msgQ := t } }, .packet p) := by
      simp only [Live.faulty, hf.sane.1, hr]
    have hlt : messagesLeft { s.feed with port := { s.feed.port with msgQ := t } } < messagesLeft s := by
      have : messagesLeft { s.feed with port := { s.feed.port with msgQ := t } } + 1 = messagesLeft s.feed := by
        unfold messagesLeft; rw [hq]; simp; omega
      omega
    refine ⟨{ s.feed with port := { s.feed.port with msgQ := t } }, some (Message.zero.unmarshalBinary p.payload).1,
      (Message.zero.unmarshalBinary p.payload).2, by unfold Plm.read; rw [hrx], ⟨hf.sane, ?_, ?_, hf.coming⟩, by omega, ?_, ?_⟩
    · have := hf.room; rw [hq] at this; simp at this ⊢; omega
    · exact fun q hx => hf.queued q (by rw [hq]; simp only [List.mem_cons]; exact Or.inr hx)
    · unfold Message.unmarshalBinary
      split
      · dsimp only; split_ifs <;> simp
      · simp
    · exact fun he => ⟨⟨_, rfl, p, hf.queued p (by rw [hq]; simp), by rw [← he]⟩, hlt⟩
  · have hrx : (Live.faulty fails).rxMsg s = ({ s.feed with port := { s.feed.port with msgQ := [] } }, .timeout) := by
      simp only [Live.faulty, hf.sane.1, hr]
    refine ⟨{ s.feed with port := { s.feed.port with msgQ := [] } }, none, some (.wrapped .insReadTimeout), by unfold Plm.read; rw [hrx],
      ⟨hf.sane, by simp, by simp, hf.coming⟩, ?_, by simp, by simp⟩
    have : messagesLeft { s.feed with port := { s.feed.port with msgQ := [] } } = messagesLeft s.feed := by
      unfold messagesLeft; rw [hq]
    omega

theorem await_steady (G : Packet → Prop) (dst : Address) (fuel : Nat) (s : Live) (h : Steady G s) (hl : messagesLeft s < fuel) :
    ∃ s' m e, Plm.awaitAck (Live.faulty fails) dst fuel s = some (s', .ret m e) ∧ Steady G s' ∧ messagesLeft s' ≤ messagesLeft s ∧
      (e = none ∨ e = some .devNak → m ≠ none) := by
  induction fuel generalizing s with
  | zero => omega
  | succ fuel ih =>
    obtain ⟨s1, m, e, h1, h2, h3, h4, h5⟩ := read_steady G s h
    rw [Plm.awaitAck, h1]
    rcases e with _ | e
    · obtain ⟨⟨x, rfl, -⟩, hlt⟩ := h5 rfl
      dsimp only
      split_ifs with hm hn
      · exact ⟨_, _, _, rfl, h2, h3, by simp⟩
      · exact ⟨_, _, _, rfl, h2, h3, by simp⟩
      · obtain ⟨s2, m, e, g1, g2, g3, g4⟩ := ih s1 h2 (by omega)
        exact ⟨s2, m, e, g1, g2, by omega, g4⟩
    · refine ⟨_, _, _, rfl, h2, h3, ?_⟩
      rintro (h | h)
      · simp at h
      · exact absurd h h4

theorem writePacket_steady (G : Packet → Prop) (s : Live) (h : Steady G s) (pkt : Packet) :
    ∃ s' a e, Plm.writePacket (Live.faulty fails) s pkt = (s', .ret a e) ∧ Steady G s' ∧ messagesLeft s' ≤ messagesLeft s ∧ e ≠ some .devNak := by
  have hs1 : Steady G { s with sent := s.sent ++ [0x02#8 :: pkt.command :: pkt.payload] } := ⟨h.sane, h.room, h.queued, h.coming⟩
  obtain ⟨hf, hle, -⟩ := feed_steady G _ hs1
  have htx : (Live.faulty fails).tx s pkt.marshalBinary = ({ s with sent := s.sent ++ [0x02#8 :: pkt.command :: pkt.payload] },
      (fails (s.sent ++ [0x02#8 :: pkt.command :: pkt.payload])).map .other) := rfl
  have hm0 : messagesLeft { s with sent := s.sent ++ [0x02#8 :: pkt.command :: pkt.payload] } = messagesLeft s := rfl
  rw [hm0] at hle
  unfold Plm.writePacket
  rw [htx]
  rcases fails (s.sent ++ [0x02#8 :: pkt.command :: pkt.payload]) with _ | k
  case some => exact ⟨_, _, _, rfl, hs1, Nat.le_refl _, by simp⟩
  dsimp only [Option.map_none]
  generalize hg : ({ s with sent := s.sent ++ [0x02#8 :: pkt.command :: pkt.payload] } : Live).feed = g at hf hle
  rcases recv_open g.port.pktQ with ⟨p, t, hq, hr⟩ | ⟨hq, hr⟩
  · have hrx : (Live.faulty fails).rxPacket { s with sent := s.sent ++ [0x02#8 :: pkt.command :: pkt.payload] } =
        ({ g with port := { g.port with pktQ := t } }, .packet p) := by
      simp only [Live.faulty, hg, hf.sane.1, hr]
    rw [hrx]
    obtain ⟨e, he⟩ := checkAck_sane pkt p (hf.sane.2 p (by rw [hq]; simp))
    dsimp only
    rw [he]
    refine ⟨_, _, _, rfl, ⟨⟨hf.sane.1, fun q hq' => hf.sane.2 q (by rw [hq]; exact List.mem_cons_of_mem _ hq')⟩, hf.room, hf.queued, hf.coming⟩, hle, ?_⟩
    unfold Plm.checkAck at he
    dsimp only at he
    split_ifs at he <;> simp at he <;> subst he <;> simp
  · have hrx : (Live.faulty fails).rxPacket { s with sent := s.sent ++ [0x02#8 :: pkt.command :: pkt.payload] } =
        ({ g with port := { g.port with pktQ := [] } }, .timeout) := by
      simp only [Live.faulty, hg, hf.sane.1, hr]
    rw [hrx]
    exact ⟨_, _, _, rfl, ⟨⟨hf.sane.1, by simp⟩, hf.room, hf.queued, hf.coming⟩, hle, by simp⟩

theorem retry_steady (G : Packet → Prop) (pkt : Packet) (n : Nat) (s : Live) (h : Steady G s) (a : Option Packet) (e : Option Err)
    (hd : e ≠ some .devNak) :
    ∃ s' a' e', retryLoop (Plm.writePacket (Live.faulty fails)) true pkt n s (.ret a e) = (s', .ret a' e') ∧ Steady G s' ∧
      messagesLeft s' ≤ messagesLeft s ∧ e' ≠ some .devNak := by
  induction n generalizing s a e with
  | zero => exact ⟨_, _, _, rfl, h, Nat.le_refl _, hd⟩
  | succ n ih =>
    obtain ⟨s1, a1, e1, h1, h2, h3, h4⟩ := writePacket_steady G s h pkt
    rw [retryLoop, h1]
    dsimp only
    split_ifs
    · obtain ⟨s2, a2, e2, g1, g2, g3, g4⟩ := ih s1 h2 a1 e1 h4
      exact ⟨s2, a2, e2, g1, g2, by omega, g4⟩
    · exact ⟨_, _, _, rfl, h2, h3, h4⟩

theorem live_orderly (G : Packet → Prop) (retries : Int) (fuel : Nat) :
    Orderly (Live.faultyMsgIO fails retries fuel) (fun s => Steady G s ∧ messagesLeft s < fuel) messagesLeft (FromPacket G) where
  read := by
    rintro s ⟨hs, hl⟩
    obtain ⟨s1, m, e, h1, h2, h3, -, h5⟩ := read_steady G s hs
    exact ⟨s1, m, e, h1, ⟨h2, by omega⟩, h3, h5⟩
  write := by
    rintro s msg ⟨hs, hl⟩
    obtain ⟨s1, a, e, h1, h2, h3, h4⟩ := retry_steady G ⟨PCmd.sendInsteonMsg, msg.marshalBinary.drop 3, 0#8⟩ (retries + 1).toNat s hs none none (by simp)
    obtain ⟨s2, m, e2, g1, g2, g3, g4⟩ := await_steady G msg.dst fuel s1 h2 (by omega)
    have hw : (Live.faultyMsgIO fails retries fuel).write s msg = match Plm.write (Live.faulty fails) retries fuel s msg with
      | some r => r
      | none => (s, .panic) := rfl
    rcases e with _ | e
    · refine ⟨s2, m, e2, ?_, ⟨g2, by omega⟩, by omega, g4⟩
      rw [hw]
      unfold Plm.write retryWrite
      rw [h1]
      dsimp only
      rw [g1]
    · refine ⟨s1, none, some e, ?_, ⟨h2, by omega⟩, h3, ?_⟩
      · rw [hw]
        unfold Plm.write retryWrite
        rw [h1]
      · rintro (h | h)
        · simp at h
        · exact absurd h h4

end

theorem ofWire_matches (f c1 c2 : Byte) (h : Command.matches' Cmd.readWriteALDB (Command.ofWire f c1 c2) = true) : c1 = 0x2f#8 := by
  unfold Command.matches' at h
  have h1 := congrArg BitVec.toNat (beq_iff_eq.mp h)
  rw [command1_toNat, command1_toNat, ofWire_value] at h1
  have h2 : Cmd.readWriteALDB.toNat / 256 % 256 = 0x2f := by decide
  have := c1.isLt
  have := c2.isLt
  apply BitVec.eq_of_toNat_eq
  simp only [BitVec.toNat_ofNat]
  omega

theorem from_packet_quiet (m : Message) (h : FromPacket (fun p => ¬ AsksForLinks p) m) : NoReadRequests m := by
  obtain ⟨p, hp, hu⟩ := h
  rintro ⟨hc, h0⟩
  apply hp
  unfold Message.unmarshalBinary at hu
  split at hu
  · rename_i s0 s1 s2 d0 d1 d2 f c1 c2 rest hd
    dsimp only at hu
    split_ifs at hu with he hl
    · simp at hu
    · simp only [Prod.mk.injEq, and_true] at hu
      subst hu
      dsimp only at hc h0
      have := ofWire_matches _ _ _ hc
      subst this
      refine ⟨by rw [hd]; rfl, ?_⟩
      rw [hd]
      rw [hd] at hl
      rcases rest with _ | ⟨r0, _ | ⟨r1, rest⟩⟩
      · simp at hl
      · simp at hl
      · simp [copyPad] at h0
        simp [h0]
    · simp only [Prod.mk.injEq, and_true] at hu
      subst hu
      simp [Message.zero] at h0
  · simp at hu

/-- C193: whatever bytes the serial line brings, in whatever portions, and whichever writes to it fail, every call on a device returns once the line is silent: with a result or an error, never by
crashing the program, and never by waiting for ever (`fuel` is any bound on the messages waited for, larger than what fits the line). This is so for any sequence of
calls, on any devices, after whatever the calls before did. Not so without what `Sensible` excludes, nor if a message that asks for links arrives during a call that
reads them, see `calls_crash_refuted`. -/
theorem calls_return_partial (fails : List Bytes → Option Nat) (slots : List Bytes) (retries : Int) (fuel : Nat) (hf : 11 * slots.length < fuel) (calls : List (DeviceInfo × DeviceCall))
    (hs : ∀ c ∈ calls, c.2.Sensible)
    (hr : (∃ c ∈ calls, c.2.Downloads) → ∀ b ∈ slots, ∀ p ∈ packetsIn false b, ¬ AsksForLinks p) :
    ∃ live', DeviceCall.runAll (Live.faultyMsgIO fails retries fuel) fuel calls (Live.init slots) = some (live', calls.map fun _ => .returned) := by
  by_cases hd : ∃ c ∈ calls, c.2.Downloads
  · have hq := live_orderly (fails := fails) (fun p => ¬ AsksForLinks p) retries fuel
    have hq' : Orderly (Live.faultyMsgIO fails retries fuel) (fun s => Steady (fun p => ¬ AsksForLinks p) s ∧ messagesLeft s < fuel) messagesLeft NoReadRequests :=
      ⟨fun s h => by
        obtain ⟨s1, m, e, h1, h2, h3, h4⟩ := hq.read s h
        exact ⟨s1, m, e, h1, h2, h3, fun he => ⟨(h4 he).1.imp fun x hx => ⟨hx.1, from_packet_quiet x hx.2⟩, (h4 he).2⟩⟩, hq.write⟩
    have hst : Steady (fun p => ¬ AsksForLinks p) (Live.init slots) := ⟨⟨rfl, by simp [Live.init, Port.init]⟩, by simp [Live.init, Port.init],
      by simp [Live.init, Port.init], hr hd⟩
    have hml : messagesLeft (Live.init slots) < fuel := by simpa [messagesLeft, Live.init, Port.init] using hf
    exact calls_returned fuel hq' calls _ ⟨hst, hml⟩ hml hs (fun _ => hq')
  · have hq := live_orderly (fails := fails) (fun _ => True) retries fuel
    have hst : Steady (fun _ => True) (Live.init slots) := ⟨⟨rfl, by simp [Live.init, Port.init]⟩, by simp [Live.init, Port.init],
      by simp [Live.init, Port.init], by simp⟩
    have hml : messagesLeft (Live.init slots) < fuel := by simpa [messagesLeft, Live.init, Port.init] using hf
    exact calls_returned fuel hq calls _ ⟨hst, hml⟩ hml hs (fun h => absurd h hd)

/-! ### What remains -/

/-- A dimmer at 01.02.03. -/
def exDimmer : DeviceInfo := ⟨0x010203#32, (1, 0x20), 0x43, 1⟩

/-- The modem's reply to the request for links, the device's acknowledgement, and somebody else's request for the links of the modem. -/
def exAsked : List Bytes :=
  [[0x02, 0x62, 0x01, 0x02, 0x03, 0x1a, 0x2f, 0x00] ++ List.replicate 14 0x00 ++ [0x06],
    [0x02, 0x50, 0x01, 0x02, 0x03, 0x04, 0x05, 0x06, 0x2f, 0x2f, 0x00],
    [0x02, 0x51, 0x09, 0x09, 0x09, 0x04, 0x05, 0x06, 0x1a, 0x2f, 0x00] ++ [0x00, 0x00, 0x0f, 0xff, 0x01] ++ List.replicate 9 0x00]

/-- The modem's reply to the record that makes the list of links end after its first entry, and the device's acknowledgement. -/
def exCut : List Bytes :=
  [[0x02, 0x62, 0x01, 0x02, 0x03, 0x1a, 0x2f, 0x00] ++ [0x00, 0x02, 0x0f, 0xf7, 0x08] ++ List.replicate 9 0x00 ++ [0x06],
    [0x02, 0x50, 0x01, 0x02, 0x03, 0x04, 0x05, 0x06, 0x2f, 0x2f, 0x00]]

/-- A controller link and a responder link as kept by a device. -/
def exControl : LinkRecord := ⟨0xe2, 1, 0x040506, 0, 0, 0⟩
def exRespond : LinkRecord := ⟨0xa2, 1, 0x040506, 0, 0, 0⟩

/-- C193: reading the links of a device crashes the program if meanwhile any device asks the modem for its links. Writing a link to a place before the first crashes it.
Updating links crashes it if the list was cut short since it was read, by a record written through the same device. -/
theorem calls_crash_refuted :
    (∃ live, DeviceCall.runAll (Live.msgIO 3 100) 100 [(exDimmer, .links ⟨0, [], []⟩ 4000 4001)] (Live.init exAsked) = some (live, [.crashed])) ∧
    (∃ live, DeviceCall.runAll (Live.msgIO 3 100) 100 [(exDimmer, .writeLink ⟨4000, [exControl, exRespond], []⟩ (-1) exControl)]
      (Live.init [[0x02, 0x62, 0x01, 0x02, 0x03, 0x1a, 0x2f, 0x00] ++ [0x00, 0x02, 0x10, 0x07, 0x08, 0xe2, 0x01, 0x04, 0x05, 0x06, 0x00, 0x00, 0x00, 0x00] ++ [0x06],
        [0x02, 0x50, 0x01, 0x02, 0x03, 0x04, 0x05, 0x06, 0x2f, 0x2f, 0x00]]) = some (live, [.crashed])) ∧
    ∃ live ldb, Ldb.writeLink (Device.io exDimmer (Live.msgIO 3 100)) (Live.init exCut)
        ⟨4000, [exControl, exRespond], [(exRespond.id, 1), (exControl.id, 0)]⟩ 1 Ldb.endRecord = (live, ldb, .ok none) ∧
      ∃ live', DeviceCall.runAll (Live.msgIO 3 100) 100 [(exDimmer, .updateLinks ldb 4000 4001 [exRespond])] live = some (live', [.crashed]) := by
  refine ⟨⟨_, rfl⟩, ⟨_, rfl⟩, _, _, rfl, _, rfl⟩

/-- A conversation as in `calls_return_partial`: opening a dimmer and reading its links on a line full of fragments. -/
example : ∃ live', DeviceCall.runAll (Live.msgIO 3 100) 100 [(exDimmer, .openDevice 0x010203), (exDimmer, .links ⟨0, [], []⟩ 4000 4001),
      (exDimmer, .turnOn 255), (exDimmer, .updateLinks ⟨4000, [exControl], [(exControl.id, 0)]⟩ 4000 4001 [exRespond])]
      (Live.init [[0x02, 0x62], [0x50, 0x02, 0x02], [0x02, 0x50, 0x01, 0x02, 0x03, 0x04, 0x05, 0x06, 0x2f, 0x2f, 0x00]]) =
    some (live', [.returned, .returned, .returned, .returned]) := by
  refine calls_return_partial (fun _ => none) _ 3 100 (by decide) _ ?_ (fun _ => by unfold AsksForLinks; decide)
  intro c hc
  simp only [List.mem_cons, List.not_mem_nil, or_false] at hc
  rcases hc with rfl | rfl | rfl | rfl
  · trivial
  · trivial
  · trivial
  · exact ⟨⟨by decide, by decide⟩, by decide⟩

/-- The same with a port that breaks down while the links are being asked for: the calls that follow return with the error of the port. -/
def exBreaks (sent : List Bytes) : Option Nat := if 2 ≤ sent.length then some 5 else none

example : (DeviceCall.runAll (Live.faultyMsgIO exBreaks 0 100) 100 [(exDimmer, .turnOn 255), (exDimmer, .links ⟨0, [], []⟩ 4000 4001), (exDimmer, .turnOn 0)]
    (Live.init [[0x02, 0x62, 0x01, 0x02, 0x03, 0x0a, 0x11, 0xff, 0x06], [0x02, 0x50, 0x01, 0x02, 0x03, 0x04, 0x05, 0x06, 0x2f, 0x11, 0xff]])).map (·.2) =
    some [.returned, .returned, .returned] := by decide +kernel

example : (Switch.turnOn exDimmer (Live.faultyMsgIO exBreaks 0 100) ⟨Port.init, [[]], []⟩ 255).2 = .ok (some (.other 5)) := rfl

/-- A port that does not fail is the one of the other theorems. -/
example : Live.faulty (fun _ => none) = Live.io ∧ ∀ retries fuel, Live.faultyMsgIO (fun _ => none) retries fuel = Live.msgIO retries fuel := ⟨rfl, fun _ _ => rfl⟩

end Insteon
