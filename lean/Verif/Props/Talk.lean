import Verif.Spec.Talk
import Verif.Spec.Results
import Verif.Spec.Failures
import Verif.Spec.Traffic
import Verif.Props.Traffic
import Mathlib.Tactic.SplitIfs

/-
Every call on a device is a conversation (used by C203 and C204).
-/

namespace Insteon
open Spec

namespace Spec.Talk
variable {α β : Type}

/-- One conversation after another. -/
def bind : Talk α → (α → Talk β) → Talk β
  | .ret a, f => f a
  | .read k, f => .read fun r => bind (k r) f
  | .write m k, f => .write m fun r => bind (k r) f

theorem run_bind {σ : Type} (io : MsgIO σ) (P : Talk α) (f : α → Talk β) (s : σ) : (P.bind f).run io s = (f (P.run io s).2).run io (P.run io s).1 := by
  induction P generalizing s with
  | ret a => rfl
  | read k ih => exact ih _ _
  | write m k ih => exact ih _ _

theorem says_bind {Q : Message → Prop} (P : Talk α) (f : α → Talk β) (hP : P.Says Q) (hf : ∀ a, (f a).Says Q) : (P.bind f).Says Q := by
  induction P with
  | ret a => exact hf a
  | read k ih => exact fun r => ih r (hP r)
  | write m k ih => exact ⟨hP.1, fun r => ih r (hP.2 r)⟩

/-- The conversation of a device (`Device.io`) is one of its message writer. -/
def prepared (info : DeviceInfo) : Talk α → Talk α
  | .ret a => .ret a
  | .read k => .read fun r => prepared info (k r)
  | .write m k => .write (Device.prepare info m) fun r => prepared info (k r)

theorem run_prepared {σ : Type} (info : DeviceInfo) (io : MsgIO σ) (P : Talk α) (s : σ) : (P.prepared info).run io s = P.run (Device.io info io) s := by
  induction P generalizing s with
  | ret a => rfl
  | read k ih => exact ih _ _
  | write m k ih => exact ih _ _

theorem says_prepared {Q : Message → Prop} (info : DeviceInfo) (P : Talk α) (h : P.Says fun m => Q (Device.prepare info m)) : (P.prepared info).Says Q := by
  induction P with
  | ret a => trivial
  | read k ih => exact fun r => ih r (h r)
  | write m k ih => exact ⟨h.1, fun r => ih r (h.2 r)⟩

end Spec.Talk

section
variable {α β : Type} {Q : Message → Prop}

theorem Spec.Talk.unwinds_bind [Crash α] [Crash β] (P : Talk α) (f : α → Talk β) (hP : P.Unwinds) (hf : ∀ a, (f a).Unwinds)
    (hc : ∀ a, Crash.crash a → ∃ b, f a = .ret b ∧ Crash.crash b) : (P.bind f).Unwinds := by
  induction P with
  | ret a => exact hf a
  | read k ih =>
    obtain ⟨⟨a, h1, h2⟩, h3⟩ := hP
    refine ⟨?_, fun r => ih r (h3 r)⟩
    obtain ⟨b, h4, h5⟩ := hc a h2
    exact ⟨b, by dsimp only; rw [h1]; exact h4, h5⟩
  | write m k ih =>
    obtain ⟨⟨a, h1, h2⟩, h3⟩ := hP
    refine ⟨?_, fun r => ih r (h3 r)⟩
    obtain ⟨b, h4, h5⟩ := hc a h2
    exact ⟨b, by dsimp only; rw [h1]; exact h4, h5⟩

theorem Spec.Talk.unwinds_prepared [Crash α] (info : DeviceInfo) (P : Talk α) (h : P.Unwinds) : (P.prepared info).Unwinds := by
  induction P with
  | ret a => trivial
  | read k ih =>
    obtain ⟨⟨a, h1, h2⟩, h3⟩ := h
    exact ⟨⟨a, by dsimp only; rw [h1]; rfl, h2⟩, fun r => ih r (h3 r)⟩
  | write m k ih =>
    obtain ⟨⟨a, h1, h2⟩, h3⟩ := h
    exact ⟨⟨a, by dsimp only; rw [h1]; rfl, h2⟩, fun r => ih r (h3 r)⟩

variable [Crash α] [Crash β]

theorem talk_ret (a : α) : IsTalk Q fun _ _ s => (s, a) := ⟨.ret a, trivial, trivial, fun _ _ _ => rfl⟩
theorem talk_read : IsTalk Q fun _ io s => io.read s := ⟨.read .ret, fun _ => trivial, ⟨⟨_, rfl, trivial⟩, fun _ => trivial⟩, fun _ _ _ => rfl⟩
theorem talk_write (m : Message) (h : Q m) : IsTalk Q fun _ io s => io.write s m :=
  ⟨.write m .ret, ⟨h, fun _ => trivial⟩, ⟨⟨_, rfl, trivial⟩, fun _ => trivial⟩, fun _ _ _ => rfl⟩

/-- A call that goes on after another one with what that came to. -/
theorem talk_step {f : (σ : Type) → MsgIO σ → σ → σ × α} {F : (σ : Type) → MsgIO σ → σ → σ × β} (hf : IsTalk Q f)
    (h : ∀ a, ∃ g : (σ : Type) → MsgIO σ → σ → σ × β, IsTalk Q g ∧ (∀ σ io s s1, f σ io s = (s1, a) → F σ io s = g σ io s1) ∧
      (Crash.crash a → ∃ b, Crash.crash b ∧ g = fun _ _ s => (s, b))) : IsTalk Q F := by
  classical
  obtain ⟨P, hP, hu, hr⟩ := hf
  have h' : ∀ a, ∃ R : Talk β, R.Says Q ∧ R.Unwinds ∧ (∀ σ io s s1, f σ io s = (s1, a) → F σ io s = R.run io s1) ∧
      (Crash.crash a → ∃ b, R = .ret b ∧ Crash.crash b) := by
    intro a
    obtain ⟨g, ⟨R, hR, hRu, hRr⟩, he, hc⟩ := h a
    by_cases ha : Crash.crash a
    · obtain ⟨b, hb, hg⟩ := hc ha
      exact ⟨.ret b, trivial, trivial, fun σ io s s1 hx => by rw [he σ io s s1 hx, hg]; rfl, fun _ => ⟨b, rfl, hb⟩⟩
    · exact ⟨R, hR, hRu, fun σ io s s1 hx => by rw [he σ io s s1 hx, hRr], fun hx => absurd hx ha⟩
  choose R hR hRu hRr hRc using h'
  refine ⟨P.bind R, Talk.says_bind P R hP hR, Talk.unwinds_bind P R hu hRu hRc, fun σ io s => ?_⟩
  rw [Talk.run_bind, hr, hRr (f σ io s).2 σ io s (f σ io s).1 rfl]

theorem talk_done {f : (σ : Type) → MsgIO σ → σ → σ × α} {F : (σ : Type) → MsgIO σ → σ → σ × β} {a : α} {b : β}
    (h : ∀ σ io s s1, f σ io s = (s1, a) → F σ io s = (s1, b)) (hc : Crash.crash a → Crash.crash b := by first | exact fun _ => trivial | exact fun h => False.elim h) :
    ∃ g : (σ : Type) → MsgIO σ → σ → σ × β, IsTalk Q g ∧ (∀ σ io s s1, f σ io s = (s1, a) → F σ io s = g σ io s1) ∧
      (Crash.crash a → ∃ b, Crash.crash b ∧ g = fun _ _ s => (s, b)) := ⟨_, talk_ret b, h, fun hx => ⟨b, hc hx, rfl⟩⟩

theorem talk_map {f : (σ : Type) → MsgIO σ → σ → σ × α} (g : α → β) (hf : IsTalk Q f) (hc : ∀ a, Crash.crash a → Crash.crash (g a)) :
    IsTalk Q fun σ io s => ((f σ io s).1, g (f σ io s).2) :=
  talk_step hf fun a => talk_done (b := g a) (fun σ io s s1 h => by rw [h]) (hc a)

theorem talk_congr {f g : (σ : Type) → MsgIO σ → σ → σ × α} (hf : IsTalk Q f) (h : ∀ σ io s, f σ io s = g σ io s) : IsTalk Q g := by
  obtain ⟨P, hP, hu, hr⟩ := hf
  exact ⟨P, hP, hu, fun σ io s => by rw [hr, h]⟩

theorem talk_device (info : DeviceInfo) {f : (σ : Type) → MsgIO σ → σ → σ × α} (hf : IsTalk (fun m => Q (Device.prepare info m)) f) :
    IsTalk Q fun σ io s => f σ (Device.io info io) s := by
  obtain ⟨P, hP, hu, hr⟩ := hf
  exact ⟨P.prepared info, Talk.says_prepared info P hP, Talk.unwinds_prepared info P hu, fun σ io s => by rw [Talk.run_prepared, hr]⟩

/-! ### With loops -/

theorem long_none : IsLongTalk (α := α) Q fun _ _ _ => none := ⟨.ret none, trivial, trivial, fun _ _ _ => ⟨fun _ _ h => by simp at h, fun _ => rfl⟩⟩

theorem long_of {f : (σ : Type) → MsgIO σ → σ → σ × α} (hf : IsTalk Q f) : IsLongTalk Q fun σ io s => some (f σ io s) := by
  obtain ⟨P, hP, hu, hr⟩ := talk_map (some : α → Option α) hf fun _ h => h
  refine ⟨P, hP, hu, fun σ io s => ⟨fun s' a h => ?_, fun h => by simp at h⟩⟩
  simp only [Option.some.injEq] at h
  rw [hr]; dsimp only; rw [h]

theorem long_ret (a : α) : IsLongTalk Q fun _ _ s => some (s, a) := long_of (talk_ret a)

theorem long_step {f : (σ : Type) → MsgIO σ → σ → σ × α} {F : (σ : Type) → MsgIO σ → σ → Option (σ × β)} (hf : IsTalk Q f)
    (h : ∀ a, ∃ g : (σ : Type) → MsgIO σ → σ → Option (σ × β), IsLongTalk Q g ∧ (∀ σ io s s1, f σ io s = (s1, a) → F σ io s = g σ io s1) ∧
      (Crash.crash a → ∃ b, Crash.crash b ∧ g = fun _ _ s => some (s, b))) : IsLongTalk Q F := by
  classical
  obtain ⟨P, hP, hu, hr⟩ := hf
  have h' : ∀ a, ∃ R : Talk (Option β), R.Says Q ∧ R.Unwinds ∧ (∀ σ io s s1, f σ io s = (s1, a) →
      (∀ s' b, F σ io s = some (s', b) → R.run io s1 = (s', some b)) ∧ (F σ io s = none → (R.run io s1).2 = none)) ∧
      (Crash.crash a → ∃ b, R = .ret b ∧ Crash.crash b) := by
    intro a
    obtain ⟨g, ⟨R, hR, hRu, hRr⟩, he, hc⟩ := h a
    by_cases ha : Crash.crash a
    · obtain ⟨b, hb, hg⟩ := hc ha
      refine ⟨.ret (some b), trivial, trivial, fun σ io s s1 hx => ?_, fun _ => ⟨some b, rfl, hb⟩⟩
      rw [he σ io s s1 hx, hg]
      refine ⟨fun s' x hy => ?_, fun hy => by simp at hy⟩
      simp only [Option.some.injEq, Prod.mk.injEq] at hy
      rw [← hy.1, ← hy.2]; rfl
    · exact ⟨R, hR, hRu, fun σ io s s1 hx => by rw [he σ io s s1 hx]; exact hRr σ io s1, fun hx => absurd hx ha⟩
  choose R hR hRu hRr hRc using h'
  refine ⟨P.bind R, Talk.says_bind P R hP hR, Talk.unwinds_bind P R hu hRu hRc, fun σ io s => ?_⟩
  rw [Talk.run_bind, hr]
  exact hRr (f σ io s).2 σ io s (f σ io s).1 rfl

theorem long_wait {f : (σ : Type) → MsgIO σ → σ → Option (σ × α)} {F : (σ : Type) → MsgIO σ → σ → Option (σ × β)} (hf : IsLongTalk Q f)
    (h0 : ∀ σ io s, f σ io s = none → F σ io s = none)
    (h : ∀ a, ∃ g : (σ : Type) → MsgIO σ → σ → Option (σ × β), IsLongTalk Q g ∧ (∀ σ io s s1, f σ io s = some (s1, a) → F σ io s = g σ io s1) ∧
      (Crash.crash a → ∃ b, Crash.crash b ∧ g = fun _ _ s => some (s, b))) : IsLongTalk Q F := by
  classical
  obtain ⟨P, hP, hu, hr⟩ := hf
  have h' : ∀ a, ∃ R : Talk (Option β), R.Says Q ∧ R.Unwinds ∧ (∀ σ io s s1, f σ io s = some (s1, a) →
      (∀ s' b, F σ io s = some (s', b) → R.run io s1 = (s', some b)) ∧ (F σ io s = none → (R.run io s1).2 = none)) ∧
      (Crash.crash a → ∃ b, R = .ret b ∧ Crash.crash b) := by
    intro a
    obtain ⟨g, ⟨R, hR, hRu, hRr⟩, he, hc⟩ := h a
    by_cases ha : Crash.crash a
    · obtain ⟨b, hb, hg⟩ := hc ha
      refine ⟨.ret (some b), trivial, trivial, fun σ io s s1 hx => ?_, fun _ => ⟨some b, rfl, hb⟩⟩
      rw [he σ io s s1 hx, hg]
      refine ⟨fun s' x hy => ?_, fun hy => by simp at hy⟩
      simp only [Option.some.injEq, Prod.mk.injEq] at hy
      rw [← hy.1, ← hy.2]; rfl
    · exact ⟨R, hR, hRu, fun σ io s s1 hx => by rw [he σ io s s1 hx]; exact hRr σ io s1, fun hx => absurd hx ha⟩
  choose R hR hRu hRr hRc using h'
  refine ⟨P.bind fun | none => .ret none | some a => R a, Talk.says_bind P _ hP (fun a => by cases a with | none => trivial | some a => exact hR a),
    Talk.unwinds_bind P _ hu (fun a => by cases a with | none => trivial | some a => exact hRu a)
      (fun a ha => by cases a with | none => exact False.elim ha | some a => exact hRc a ha), fun σ io s => ?_⟩
  rw [Talk.run_bind]
  rcases hx : f σ io s with _ | ⟨s1, a⟩
  · rw [(hr σ io s).2 hx, h0 σ io s hx]
    exact ⟨fun s' a h => by simp at h, fun _ => rfl⟩
  · rw [(hr σ io s).1 _ _ hx]
    exact hRr a σ io s s1 hx

theorem long_done {f : (σ : Type) → MsgIO σ → σ → σ × α} {F : (σ : Type) → MsgIO σ → σ → Option (σ × β)} {a : α} {b : β}
    (h : ∀ σ io s s1, f σ io s = (s1, a) → F σ io s = some (s1, b)) (hc : Crash.crash a → Crash.crash b := by first | exact fun _ => trivial | exact fun h => False.elim h) :
    ∃ g : (σ : Type) → MsgIO σ → σ → Option (σ × β), IsLongTalk Q g ∧ (∀ σ io s s1, f σ io s = (s1, a) → F σ io s = g σ io s1) ∧
      (Crash.crash a → ∃ b, Crash.crash b ∧ g = fun _ _ s => some (s, b)) := ⟨_, long_ret b, h, fun hx => ⟨b, hc hx, rfl⟩⟩

theorem wait_done {f : (σ : Type) → MsgIO σ → σ → Option (σ × α)} {F : (σ : Type) → MsgIO σ → σ → Option (σ × β)} {a : α} {b : β}
    (h : ∀ σ io s s1, f σ io s = some (s1, a) → F σ io s = some (s1, b)) (hc : Crash.crash a → Crash.crash b := by first | exact fun _ => trivial | exact fun h => False.elim h) :
    ∃ g : (σ : Type) → MsgIO σ → σ → Option (σ × β), IsLongTalk Q g ∧ (∀ σ io s s1, f σ io s = some (s1, a) → F σ io s = g σ io s1) ∧
      (Crash.crash a → ∃ b, Crash.crash b ∧ g = fun _ _ s => some (s, b)) := ⟨_, long_ret b, h, fun hx => ⟨b, hc hx, rfl⟩⟩

theorem long_map {f : (σ : Type) → MsgIO σ → σ → Option (σ × α)} (g : α → β) (hf : IsLongTalk Q f) (hc : ∀ a, Crash.crash a → Crash.crash (g a)) :
    IsLongTalk Q fun σ io s => (f σ io s).map fun r => (r.1, g r.2) :=
  long_wait hf (fun σ io s h => by rw [h]; rfl) fun a => wait_done (b := g a) (fun σ io s s1 h => by rw [h]; rfl) (hc a)

theorem long_congr {f g : (σ : Type) → MsgIO σ → σ → Option (σ × α)} (hf : IsLongTalk Q f) (h : ∀ σ io s, f σ io s = g σ io s) : IsLongTalk Q g := by
  obtain ⟨P, hP, hu, hr⟩ := hf
  exact ⟨P, hP, hu, fun σ io s => by rw [← h]; exact hr σ io s⟩

theorem long_device (info : DeviceInfo) {f : (σ : Type) → MsgIO σ → σ → Option (σ × α)} (hf : IsLongTalk (fun m => Q (Device.prepare info m)) f) :
    IsLongTalk Q fun σ io s => f σ (Device.io info io) s := by
  obtain ⟨P, hP, hu, hr⟩ := hf
  exact ⟨P.prepared info, Talk.says_prepared info P hP, Talk.unwinds_prepared info P hu, fun σ io s => by rw [Talk.run_prepared]; exact hr _ _ _⟩

end

section
variable {Q : Message → Prop}

/-! ### The calls -/

theorem talk_deviceWrite (info : DeviceInfo) (m : Message) (h : Q (Device.prepare info m)) : IsTalk Q fun _ io s => Device.write info io s m :=
  talk_write _ h

theorem long_devRead (f : Matcher) (fuel : Nat) : IsLongTalk Q fun _ io s => Dev.read io f fuel s := by
  induction fuel with
  | zero => exact long_none
  | succ fuel ih =>
    refine long_step talk_read fun r => ?_
    rcases r with ⟨_ | x, _ | e1⟩ | _
    · exact long_done fun σ io s s1 h => by rw [Dev.read, h]
    · exact long_done fun σ io s s1 h => by rw [Dev.read, h]
    · by_cases hm : f x = true
      · exact long_done fun σ io s s1 h => by rw [Dev.read, h]; dsimp only; rw [if_pos hm]
      · exact ⟨_, ih, fun σ io s s1 h => by rw [Dev.read, h]; dsimp only; rw [if_neg hm], fun h => False.elim h⟩
    · exact long_done fun σ io s s1 h => by rw [Dev.read, h]
    · exact long_done fun σ io s s1 h => by rw [Dev.read, h]

theorem talk_send (info : DeviceInfo) (c : Command) (p : Bytes) (h : Q (Device.prepare info ⟨0, 0, 0, c, p⟩)) :
    IsTalk Q fun _ io s => Device.send info io s c p := by
  refine talk_step (talk_deviceWrite info _ h) fun r => ?_
  rcases r with ⟨_ | x, _ | e1⟩ | _ <;> exact talk_done fun σ io s s1 h => by unfold Device.send; rw [h]

theorem talk_sendCommand (info : DeviceInfo) (c : Command) (p : Bytes) (h : Q (Device.prepare info ⟨0, 0, 0, c, p⟩)) :
    IsTalk Q fun _ io s => Device.sendCommand info io s c p := by
  refine talk_step (talk_send info c p h) fun r => ?_
  rcases r with ⟨v, e⟩ | e | _ <;> exact talk_done fun σ io s s1 h => by unfold Device.sendCommand; rw [h]

theorem long_query (info : DeviceInfo) (fuel : Nat) (c : Command) (p : Bytes) (a : Command) (h : Q (Device.prepare info ⟨0, 0, 0, c, p⟩)) :
    IsLongTalk Q fun _ io s => Device.query info io fuel s c p a := by
  refine long_step (talk_deviceWrite info _ h) fun r => ?_
  rcases r with ⟨x, _ | e1⟩ | _
  · refine ⟨_, ?_, fun σ io s s1 h => by unfold Device.query; rw [h], fun h => False.elim h⟩
    refine long_wait (long_device info (long_devRead (Matcher.cmd a) fuel)) (fun σ io s h => by dsimp only; rw [h]) fun r => ?_
    rcases r with ⟨_ | x, _ | e1⟩ | _ <;> exact wait_done fun σ io s s1 h => by dsimp only; rw [h]
  all_goals exact long_done fun σ io s s1 h => by unfold Device.query; rw [h]

theorem talk_askAll (info : DeviceInfo) (cs : List Command) (h : ∀ c ∈ cs, Q (Device.prepare info ⟨0, 0, 0, c, []⟩)) :
    IsTalk Q fun _ io s => Device.askAll info io cs s := by
  induction cs with
  | nil => exact talk_ret _
  | cons c cs ih =>
    refine talk_step (talk_deviceWrite info _ (h c (by simp))) fun r => ?_
    rcases r with ⟨_ | x, _ | e1⟩ | _
    · exact talk_done fun σ io s s1 h => by rw [Device.askAll, h]
    · exact talk_done fun σ io s s1 h => by rw [Device.askAll, h]
    · refine ⟨_, ?_, fun σ io s s1 h => by rw [Device.askAll, h], fun h => False.elim h⟩
      refine talk_step (ih fun x hx => h x (by simp [hx])) fun r => ?_
      rcases r with ⟨v, e⟩ | e | _ <;> exact talk_done fun σ io s s1 h => by dsimp only; rw [h]
    · exact talk_done fun σ io s s1 h => by rw [Device.askAll, h]
    · exact talk_done fun σ io s s1 h => by rw [Device.askAll, h]

theorem talk_engine (dst : Address) (h : Q ⟨0, dst, Flags.standardDirectMessage, Cmd.getEngineVersion, []⟩) : IsTalk Q fun _ io s => getEngineVersion io s dst := by
  refine talk_step (talk_write _ h) fun r => ?_
  rcases r with ⟨_ | x, _ | e⟩ | _
  · exact talk_done fun σ io s s1 h => by unfold getEngineVersion; rw [h]
  · by_cases he : e = .devNak
    · exact talk_done fun σ io s s1 h => by unfold getEngineVersion; rw [h]; dsimp only; rw [if_pos he]
    · exact talk_done fun σ io s s1 h => by unfold getEngineVersion; rw [h]; dsimp only; rw [if_neg he]
  · exact talk_done fun σ io s s1 h => by unfold getEngineVersion; rw [h]
  · by_cases he : e = .devNak
    · by_cases hx : x.command.command2 = 0xff#64
      · exact talk_done fun σ io s s1 h => by unfold getEngineVersion; rw [h]; dsimp only; rw [if_pos he, if_pos hx]
      · exact talk_done fun σ io s s1 h => by unfold getEngineVersion; rw [h]; dsimp only; rw [if_pos he, if_neg hx]
    · exact talk_done fun σ io s s1 h => by unfold getEngineVersion; rw [h]; dsimp only; rw [if_neg he]
  · exact talk_done fun σ io s s1 h => by unfold getEngineVersion; rw [h]

theorem long_ident (fuel : Nat) (dst : Address) (h : Q ⟨0, dst, Flags.standardDirectMessage, Cmd.idRequest, []⟩) : IsLongTalk Q fun _ io s => idRequest io fuel s dst := by
  refine long_step (talk_write _ h) fun r => ?_
  rcases r with ⟨x, _ | e1⟩ | _
  · refine ⟨_, ?_, fun σ io s s1 h => by unfold idRequest; rw [h], fun h => False.elim h⟩
    refine long_wait (long_devRead _ fuel) (fun σ io s h => by dsimp only; rw [h]) fun r => ?_
    rcases r with ⟨_ | x, _ | e1⟩ | _ <;> exact wait_done fun σ io s s1 h => by dsimp only; rw [h]
  all_goals exact long_done fun σ io s s1 h => by unfold idRequest; rw [h]

theorem long_open (fuel : Nat) (dst : Address) (h1 : Q ⟨0, dst, Flags.standardDirectMessage, Cmd.getEngineVersion, []⟩)
    (h2 : Q ⟨0, dst, Flags.standardDirectMessage, Cmd.idRequest, []⟩) : IsLongTalk Q fun _ io s => Dev.open io fuel s dst := by
  refine long_step (talk_engine dst h1) fun r => ?_
  rcases r with ⟨v, _ | e⟩ | e | _
  · refine ⟨_, ?_, fun σ io s s1 h => by unfold Dev.open; rw [h], fun h => False.elim h⟩
    refine long_wait (long_ident fuel dst h2) (fun σ io s h => by dsimp only; rw [h]) fun r => ?_
    rcases r with ⟨fw, cat, _ | e⟩ | e | _ <;> exact wait_done fun σ io s s1 h => by dsimp only; rw [h]
  all_goals exact long_done fun σ io s s1 h => by unfold Dev.open; rw [h]

theorem long_productData (info : DeviceInfo) (fuel : Nat) (h : Q (Device.prepare info ⟨0, 0, 0, Cmd.productDataReq, []⟩)) :
    IsLongTalk Q fun _ io s => Device.productData info io fuel s := by
  refine long_wait (long_query info fuel _ _ _ h) (fun σ io s h => by unfold Device.productData; rw [h]) fun r => ?_
  rcases r with (e | v) | e | _ <;> exact wait_done fun σ io s s1 h => by unfold Device.productData; rw [h]

theorem long_extendedGet (info : DeviceInfo) (fuel : Nat) (d : Bytes) (h : Q (Device.prepare info ⟨0, 0, 0, Cmd.extendedGetSet, d⟩)) :
    IsLongTalk Q fun _ io s => Device.extendedGet info io fuel s d := by
  refine long_wait (long_query info fuel _ _ _ h) (fun σ io s h => by unfold Device.extendedGet; rw [h]) fun r => ?_
  rcases r with (e | v) | e | _ <;> exact wait_done fun σ io s s1 h => by unfold Device.extendedGet; rw [h]

theorem talk_status (info : DeviceInfo) (h : Q (Device.prepare info ⟨0, 0, 0, Cmd.lightStatusRequest, []⟩)) : IsTalk Q fun _ io s => Switch.status info io s := by
  refine talk_step (talk_send info _ _ h) fun r => ?_
  rcases r with ⟨v, _ | e⟩ | e | _ <;> exact talk_done fun σ io s s1 h => by unfold Switch.status; rw [h]

theorem long_switchConfig (info : DeviceInfo) (fuel : Nat) (h : Q (Device.prepare info ⟨0, 0, 0, Cmd.extendedGetSet, [0x01#8, 0x00#8]⟩)) :
    IsLongTalk Q fun _ io s => Switch.config info io fuel s := by
  refine long_wait (long_query info fuel _ _ _ h) (fun σ io s h => by unfold Switch.config; rw [h]) fun r => ?_
  rcases r with (e | v) | e | _ <;> exact wait_done fun σ io s s1 h => by unfold Switch.config; rw [h]

theorem long_dimmerConfig (info : DeviceInfo) (fuel : Nat) (h : Q (Device.prepare info ⟨0, 0, 0, Cmd.extendedGetSet, [0x01#8, 0x00#8]⟩)) :
    IsLongTalk Q fun _ io s => Dimmer.config info io fuel s := by
  refine long_wait (long_query info fuel _ _ _ h) (fun σ io s h => by unfold Dimmer.config; rw [h]) fun r => ?_
  rcases r with (e | v) | e | _ <;> exact wait_done fun σ io s s1 h => by unfold Dimmer.config; rw [h]

theorem talk_operatingFlags (info : DeviceInfo) (h : ∀ b, Q (Device.prepare info ⟨0, 0, 0, Cmd.getOperatingFlags.subCommand b, []⟩)) :
    IsTalk Q fun _ io s => Switch.operatingFlags info io s := by
  refine talk_step (talk_askAll info [Cmd.getOperatingFlags.subCommand 0x01#64, Cmd.getOperatingFlags.subCommand 0x02#64,
      Cmd.getOperatingFlags.subCommand 0x04#64, Cmd.getOperatingFlags.subCommand 0x10#64, Cmd.getOperatingFlags.subCommand 0x20#64] (by
        intro c hc
        simp only [List.mem_cons, List.not_mem_nil, or_false] at hc
        rcases hc with rfl | rfl | rfl | rfl | rfl <;> exact h _)) fun r => ?_
  rcases r with ⟨v, e⟩ | e | _ <;> exact talk_done fun σ io s s1 h => by unfold Switch.operatingFlags; rw [h]

theorem talk_zone (info : DeviceInfo) (z : Int) (h : ∀ b, Q (Device.prepare info ⟨0, 0, 0, Cmd.getZoneInfo.subCommand b, []⟩)) :
    IsTalk Q fun _ io s => Thermostat.getZoneInfo info io s z := by
  refine talk_step (talk_askAll info [Cmd.getZoneInfo.subCommand (BitVec.ofInt 64 z &&& 0x0f#64),
    Cmd.getZoneInfo.subCommand (0x10#64 ||| BitVec.ofInt 64 z &&& 0x0f#64),
    Cmd.getZoneInfo.subCommand (0x20#64 ||| BitVec.ofInt 64 z &&& 0x0f#64),
    Cmd.getZoneInfo.subCommand (0x30#64 ||| BitVec.ofInt 64 z &&& 0x0f#64)] (by
      intro c hc
      simp only [List.mem_cons, List.not_mem_nil, or_false] at hc
      rcases hc with rfl | rfl | rfl | rfl <;> exact h _)) fun r => ?_
  rcases r with ⟨v, e⟩ | e | _ <;> exact talk_done fun σ io s s1 h => by unfold Thermostat.getZoneInfo; dsimp only; rw [h]

theorem talk_ask (info : DeviceInfo) (c : Command) (h : Q (Device.prepare info ⟨0, 0, 0, c, []⟩)) : IsTalk Q fun _ io s => Thermostat.ask info io s c := by
  refine talk_step (talk_send info _ _ h) fun r => ?_
  rcases r with ⟨v, e⟩ | e | _ <;> exact talk_done fun σ io s s1 h => by unfold Thermostat.ask; rw [h]

theorem talk_getMode (info : DeviceInfo) (h : Q (Device.prepare info ⟨0, 0, 0, Cmd.getThermostatMode, []⟩)) : IsTalk Q fun _ io s => Thermostat.getMode info io s := by
  refine talk_step (talk_ask info _ h) fun r => ?_
  rcases r with ⟨v, e⟩ | e | _ <;> exact talk_done fun σ io s s1 h => by unfold Thermostat.getMode; rw [h]

theorem talk_equipment (info : DeviceInfo) (h : Q (Device.prepare info ⟨0, 0, 0, Cmd.getEquipmentState, []⟩)) :
    IsTalk Q fun _ io s => Thermostat.getEquipmentState info io s := by
  refine talk_step (talk_ask info _ h) fun r => ?_
  rcases r with ⟨v, e⟩ | e | _ <;> exact talk_done fun σ io s s1 h => by unfold Thermostat.getEquipmentState; rw [h]

theorem long_infoStep (info : DeviceInfo) (fuel : Nat) (ti : ThermostatInfo) (i : Byte)
    (h : Q (Device.prepare info ⟨0, 0, 0, Cmd.extendedGetSet, [0x00#8, 0x00#8, i]⟩)) : IsLongTalk Q fun _ io s => Thermostat.getInfoStep info io fuel s ti i := by
  refine long_wait (long_extendedGet info fuel _ h) (fun σ io s h => by unfold Thermostat.getInfoStep; rw [h]) fun r => ?_
  rcases r with ⟨v, _ | e⟩ | e | _ <;> exact wait_done fun σ io s s1 h => by unfold Thermostat.getInfoStep; rw [h]

theorem long_info (info : DeviceInfo) (fuel : Nat) (h : ∀ i, Q (Device.prepare info ⟨0, 0, 0, Cmd.extendedGetSet, [0x00#8, 0x00#8, i]⟩)) :
    IsLongTalk Q fun _ io s => Thermostat.getInfo info io fuel s := by
  refine long_wait (long_infoStep info fuel .zero 0#8 (h _)) (fun σ io s h => by unfold Thermostat.getInfo; rw [h]) fun r => ?_
  rcases r with ⟨v, _ | e⟩ | e | _
  · exact ⟨_, long_infoStep info fuel v 1#8 (h _), fun σ io s s1 h => by unfold Thermostat.getInfo; rw [h], fun h => False.elim h⟩
  all_goals exact wait_done fun σ io s s1 h => by unfold Thermostat.getInfo; rw [h]

theorem long_tempUnit (info : DeviceInfo) (fuel : Nat) (h : ∀ i, Q (Device.prepare info ⟨0, 0, 0, Cmd.extendedGetSet, [0x00#8, 0x00#8, i]⟩)) :
    IsLongTalk Q fun _ io s => Thermostat.getTempUnit info io fuel s := by
  refine long_wait (long_info info fuel h) (fun σ io s h => by unfold Thermostat.getTempUnit; rw [h]) fun r => ?_
  rcases r with ⟨v, e⟩ | e | _ <;> exact wait_done fun σ io s s1 h => by unfold Thermostat.getTempUnit; rw [h]

theorem long_thermStatus (info : DeviceInfo) (fuel : Nat)
    (h1 : ∀ b, Q (Device.prepare info ⟨0, 0, 0, Cmd.getZoneInfo.subCommand b, []⟩))
    (h2 : ∀ i, Q (Device.prepare info ⟨0, 0, 0, Cmd.extendedGetSet, [0x00#8, 0x00#8, i]⟩))
    (h3 : Q (Device.prepare info ⟨0, 0, 0, Cmd.getThermostatMode, []⟩)) (h4 : Q (Device.prepare info ⟨0, 0, 0, Cmd.getEquipmentState, []⟩)) :
    IsLongTalk Q fun _ io s => Thermostat.status info io fuel s := by
  refine long_step (talk_zone info 0 h1) fun r => ?_
  rcases r with ⟨v, _ | e⟩ | e | _
  · refine ⟨_, ?_, fun σ io s s1 h => by unfold Thermostat.status; rw [h], fun h => False.elim h⟩
    refine long_wait (long_tempUnit info fuel h2) (fun σ io s h => by dsimp only; rw [h]) fun r => ?_
    rcases r with ⟨u, _ | e⟩ | e | _
    · refine ⟨_, ?_, fun σ io s s1 h => by dsimp only; rw [h], fun h => False.elim h⟩
      refine long_step (talk_getMode info h3) fun r => ?_
      rcases r with ⟨m, _ | e⟩ | e | _
      · refine ⟨_, ?_, fun σ io s s1 h => by dsimp only; rw [h], fun h => False.elim h⟩
        refine long_step (talk_equipment info h4) fun r => ?_
        rcases r with ⟨q, e⟩ | e | _ <;> exact long_done fun σ io s s1 h => by dsimp only; rw [h]
      all_goals exact long_done fun σ io s s1 h => by dsimp only; rw [h]
    all_goals exact wait_done fun σ io s s1 h => by dsimp only; rw [h]
  all_goals exact long_done fun σ io s s1 h => by unfold Thermostat.status; rw [h]

/-! ### Links -/

theorem talk_writeLink (h : ∀ p, Q ⟨0, 0, 0, Cmd.readWriteALDB, p⟩) (ldb : Ldb) (i : Int) (l : LinkRecord) : IsTalk Q fun _ io s => Ldb.writeLink io s ldb i l := by
  by_cases hgt : i > ldb.links.length
  · exact talk_congr (talk_ret _) fun σ io s => by unfold Ldb.writeLink; rw [if_pos hgt]
  · have hm : (⟨LinkRequest.writeLink, Ldb.memAddressOf i, 0, some l⟩ : LinkRequest).marshalBinary =
        .ok ([0, LinkRequest.writeLink, (Ldb.memAddressOf i >>> 8).setWidth 8, (Ldb.memAddressOf i &&& 0xff#64).setWidth 8] ++ [0x08#8] ++
          copyPad 9 l.marshalBinary) := rfl
    refine talk_step (talk_write _ (h ([0, LinkRequest.writeLink, (Ldb.memAddressOf i >>> 8).setWidth 8,
      (Ldb.memAddressOf i &&& 0xff#64).setWidth 8] ++ [0x08#8] ++ copyPad 9 l.marshalBinary))) fun r => ?_
    rcases r with ⟨x, _ | e⟩ | _
    · refine ⟨fun σ io s => if l.flags.lastRecord then
          if i < ldb.links.length then
            if i < 0 then (s, ldb, .panic) else (s, { ldb with links := ldb.links.take i.toNat }, .ok none)
          else (s, ldb, .ok none)
        else if i = ldb.links.length then (s, { ldb with links := ldb.links ++ [l] }, .ok none)
        else if i < 0 then (s, ldb, .panic)
        else (s, { ldb with links := ldb.links.set i.toNat l }, .ok none), ?_, fun σ io s s1 h => by
          unfold Ldb.writeLink; rw [if_neg hgt, hm]; dsimp only; rw [h], fun h => False.elim h⟩
      split_ifs <;> exact talk_ret _
    all_goals exact talk_done fun σ io s s1 h => by unfold Ldb.writeLink; rw [if_neg hgt, hm]; dsimp only; rw [h]

theorem talk_writeLinksLoop (h : ∀ p, Q ⟨0, 0, 0, Cmd.readWriteALDB, p⟩) (ls : List LinkRecord) : ∀ (i : Nat) (ldb : Ldb),
    IsTalk Q fun _ io s => Ldb.writeLinksLoop io i ls s ldb := by
  induction ls with
  | nil => exact fun i ldb => talk_congr (talk_ret (ldb, .ok none)) fun σ io s => by rw [Ldb.writeLinksLoop]
  | cons l ls ih =>
    intro i ldb
    refine talk_step (talk_writeLink h ldb i (Ldb.notLast l)) fun r => ?_
    rcases r with ⟨d, (_ | e) | e | _⟩
    · exact ⟨_, ih (i + 1) d, fun σ io s s1 h => by rw [Ldb.writeLinksLoop, h], fun h => False.elim h⟩
    all_goals exact talk_done fun σ io s s1 h => by rw [Ldb.writeLinksLoop, h]

theorem talk_writeLinks (h : ∀ p, Q ⟨0, 0, 0, Cmd.readWriteALDB, p⟩) (done : Int) (ls : List LinkRecord) (ldb : Ldb) :
    IsTalk Q fun _ io s => Ldb.writeLinks io done s ldb ls := by
  refine talk_step (talk_writeLinksLoop h ls 0 ldb) fun r => ?_
  rcases r with ⟨d, (_ | e) | e | _⟩
  · refine ⟨_, ?_, fun σ io s s1 h => by unfold Ldb.writeLinks; rw [h], fun h => False.elim h⟩
    refine talk_step (talk_writeLink h d d.links.length Ldb.endRecord) fun r => ?_
    rcases r with ⟨d2, (_ | e) | e | _⟩ <;> exact talk_done fun σ io s s1 h => by dsimp only; rw [h]
  all_goals exact talk_done fun σ io s s1 h => by unfold Ldb.writeLinks; rw [h]

theorem long_refreshLoop (fr fuel : Nat) : ∀ (ldb : Ldb) (last : MemAddress), IsLongTalk Q fun _ io s => Ldb.refreshLoop io fr fuel s ldb last := by
  induction fuel with
  | zero => exact fun ldb last => long_congr long_none fun σ io s => by rw [Ldb.refreshLoop]
  | succ fuel ih =>
    intro ldb last
    refine long_wait (long_devRead _ fr) (fun σ io s h => by rw [Ldb.refreshLoop, h]) fun r => ?_
    rcases r with ⟨_ | x, _ | e1⟩ | _
    · exact wait_done fun σ io s s1 h => by rw [Ldb.refreshLoop, h]
    · exact wait_done fun σ io s s1 h => by rw [Ldb.refreshLoop, h]
    · refine ⟨_, ?_, fun σ io s s1 h => by rw [Ldb.refreshLoop, h], fun h => False.elim h⟩
      rcases hu : LinkRequest.zero.unmarshalBinary x.payload with ⟨lr, _ | e⟩ <;> simp only [hu]
      · split_ifs
        · rcases lr.link with _ | l
          · exact long_ret _
          · dsimp only
            split_ifs
            · exact long_ret _
            · exact ih _ _
        · exact ih _ _
      · exact long_ret _
    · exact wait_done fun σ io s s1 h => by rw [Ldb.refreshLoop, h]
    · exact wait_done fun σ io s s1 h => by rw [Ldb.refreshLoop, h]

theorem long_refresh (h : Q Ldb.readRequest) (fuel : Nat) (now done : Int) (ldb : Ldb) : IsLongTalk Q fun _ io s => Ldb.refresh io fuel now done s ldb := by
  by_cases ho : (!ldb.old now) = true
  · exact long_congr (long_ret (ldb, .ok none)) fun σ io s => by unfold Ldb.refresh; rw [if_pos ho]
  · refine long_step (talk_write _ h) fun r => ?_
    rcases r with ⟨x, _ | e⟩ | _
    · refine ⟨_, ?_, fun σ io s s1 h => by unfold Ldb.refresh; rw [if_neg ho]; dsimp only; rw [h], fun h => False.elim h⟩
      refine long_wait (long_refreshLoop fuel fuel { ldb with index := [], links := [] } 0#64) (fun σ io s h => by dsimp only; rw [h]) fun r => ?_
      rcases r with ⟨d, (_ | e) | e | _⟩ <;> exact wait_done fun σ io s s1 h => by dsimp only; rw [h]
    all_goals exact long_done fun σ io s s1 h => by unfold Ldb.refresh; rw [if_neg ho]; dsimp only; rw [h]

theorem long_getLinks (h : Q Ldb.readRequest) (fuel : Nat) (now done : Int) (ldb : Ldb) : IsLongTalk Q fun _ io s => Ldb.getLinks io fuel now done s ldb := by
  refine long_wait (long_refresh h fuel now done ldb) (fun σ io s h => by unfold Ldb.getLinks; rw [h]) fun r => ?_
  rcases r with ⟨d, (_ | e) | e | _⟩ <;> exact wait_done fun σ io s s1 h => by unfold Ldb.getLinks; rw [h]

theorem talk_addLoop (h : ∀ p, Q ⟨0, 0, 0, Cmd.readWriteALDB, p⟩) (rest : List LinkRecord) : ∀ (i : Nat) (adds : List LinkRecord) (ldb : Ldb),
    IsTalk Q fun _ io s => Ldb.addLoop io i rest adds s ldb := by
  induction rest with
  | nil => exact fun i adds ldb => talk_congr (talk_ret (ldb, .ok (adds, none))) fun σ io s => by rw [Ldb.addLoop]
  | cons l rest ih =>
    intro i adds ldb
    rcases adds with _ | ⟨a, as⟩
    · exact talk_congr (talk_ret (ldb, .ok ([], none))) fun σ io s => by rw [Ldb.addLoop]
    · by_cases hav : l.flags.available = true
      · refine talk_step (talk_writeLink h ldb i l) fun r => ?_
        rcases r with ⟨d, (_ | e) | e | _⟩
        · exact ⟨_, ih (i + 1) as _, fun σ io s s1 h => by rw [Ldb.addLoop]; dsimp only; rw [if_pos hav, h], fun h => False.elim h⟩
        all_goals exact talk_done fun σ io s s1 h => by rw [Ldb.addLoop]; dsimp only; rw [if_pos hav, h]
      · exact talk_congr (ih (i + 1) as ldb) fun σ io s => by rw [Ldb.addLoop]; dsimp only; rw [if_neg hav]

theorem talk_addAppend (h : ∀ p, Q ⟨0, 0, 0, Cmd.readWriteALDB, p⟩) (ls : List LinkRecord) : ∀ (ldb : Ldb), IsTalk Q fun _ io s => Ldb.addAppend io ls s ldb := by
  induction ls with
  | nil => exact fun ldb => talk_congr (talk_ret (ldb, .ok none)) fun σ io s => by rw [Ldb.addAppend]
  | cons l ls ih =>
    intro ldb
    refine talk_step (talk_writeLink h ldb ldb.links.length (Ldb.notLast l)) fun r => ?_
    rcases r with ⟨d, (_ | e) | e | _⟩
    · exact ⟨_, ih d, fun σ io s s1 h => by rw [Ldb.addAppend, h], fun h => False.elim h⟩
    all_goals exact talk_done fun σ io s s1 h => by rw [Ldb.addAppend, h]

theorem long_addLinks (h : ∀ p, Q ⟨0, 0, 0, Cmd.readWriteALDB, p⟩) (fuel : Nat) (now done : Int) (ldb : Ldb) (ls : List LinkRecord) :
    IsLongTalk Q fun _ io s => Ldb.addLinks io fuel now done s ldb ls := by
  by_cases hl : ls.length = 0
  · exact long_congr (long_ret (ldb, .ok none)) fun σ io s => by unfold Ldb.addLinks; rw [if_pos hl]
  · refine long_wait (long_refresh (h _) fuel now done ldb) (fun σ io s h => by unfold Ldb.addLinks; rw [if_neg hl, h]) fun r => ?_
    rcases r with ⟨d, (_ | e) | e | _⟩
    · refine ⟨_, ?_, fun σ io s s1 h => by unfold Ldb.addLinks; rw [if_neg hl, h], fun h => False.elim h⟩
      refine long_step (talk_addLoop h d.links 0 ls d) fun r => ?_
      rcases r with ⟨d2, ⟨l2, _ | e⟩ | e | _⟩
      · exact ⟨_, long_of (talk_addAppend h l2 d2), fun σ io s s1 h => by dsimp only; rw [h], fun h => False.elim h⟩
      all_goals exact long_done fun σ io s s1 h => by dsimp only; rw [h]
    all_goals exact wait_done fun σ io s s1 h => by unfold Ldb.addLinks; rw [if_neg hl, h]

theorem talk_updateFound (h : ∀ p, Q ⟨0, 0, 0, Cmd.readWriteALDB, p⟩) (ls : List LinkRecord) : ∀ (kept : List LinkRecord) (ldb : Ldb),
    IsTalk Q fun _ io s => Ldb.updateFound io kept ls s ldb := by
  induction ls with
  | nil => exact fun kept ldb => talk_congr (talk_ret (ldb, .ok (kept, none))) fun σ io s => by rw [Ldb.updateFound]
  | cons l ls ih =>
    intro kept ldb
    rcases hl : Ldb.lookup ldb.index l.id with _ | j
    · exact talk_congr (ih (kept ++ [l]) ldb) fun σ io s => by rw [Ldb.updateFound, hl]
    · rcases hj : ldb.links[j]? with _ | old
      · exact talk_congr (talk_ret (ldb, .panic)) fun σ io s => by rw [Ldb.updateFound, hl]; dsimp only; rw [hj]
      · by_cases hf : old.flags ≠ l.flags
        · refine talk_step (talk_writeLink h ldb kept.length l) fun r => ?_
          rcases r with ⟨d, (_ | e) | e | _⟩
          · exact ⟨_, ih kept d, fun σ io s s1 h => by rw [Ldb.updateFound, hl]; dsimp only; rw [hj]; dsimp only; rw [if_pos hf, h], fun h => False.elim h⟩
          all_goals exact talk_done fun σ io s s1 h => by rw [Ldb.updateFound, hl]; dsimp only; rw [hj]; dsimp only; rw [if_pos hf, h]
        · exact talk_congr (ih kept ldb) fun σ io s => by rw [Ldb.updateFound, hl]; dsimp only; rw [hj]; dsimp only; rw [if_neg hf]

theorem talk_updateAvailable (h : ∀ p, Q ⟨0, 0, 0, Cmd.readWriteALDB, p⟩) (fuel : Nat) : ∀ (i : Nat) (ls : List LinkRecord) (ldb : Ldb),
    IsTalk Q fun _ io s => Ldb.updateAvailable io fuel i ls s ldb := by
  induction fuel with
  | zero => exact fun i ls ldb => talk_congr (talk_ret (ldb, .ok (ls, none))) fun σ io s => by rw [Ldb.updateAvailable]
  | succ fuel ih =>
    intro i ls ldb
    rcases hr : ldb.links[i]? with _ | r
    · exact talk_congr (talk_ret (ldb, .ok (ls, none))) fun σ io s => by rw [Ldb.updateAvailable.eq_def]; dsimp only; rw [hr]
    · rcases ls with _ | ⟨l, ls⟩
      · exact talk_congr (ih (i + 1) [] ldb) fun σ io s => by
          conv_rhs => rw [Ldb.updateAvailable.eq_def]
          dsimp only; rw [hr]
      · by_cases ha : r.flags.available = true
        · refine talk_step (talk_writeLink h ldb i (Ldb.notLast l)) fun r => ?_
          rcases r with ⟨d, (_ | e) | e | _⟩
          · exact ⟨_, ih (i + 1) ls d, fun σ io s s1 h => by rw [Ldb.updateAvailable.eq_def]; dsimp only; rw [hr]; dsimp only; rw [if_pos ha, h], fun h => False.elim h⟩
          all_goals exact talk_done fun σ io s s1 h => by rw [Ldb.updateAvailable.eq_def]; dsimp only; rw [hr]; dsimp only; rw [if_pos ha, h]
        · exact talk_congr (ih (i + 1) (l :: ls) ldb) fun σ io s => by
            conv_rhs => rw [Ldb.updateAvailable.eq_def]
            dsimp only; rw [hr]; dsimp only; rw [if_neg ha]

theorem talk_updateAppend (h : ∀ p, Q ⟨0, 0, 0, Cmd.readWriteALDB, p⟩) (ls : List LinkRecord) : ∀ (i : Nat) (e : Option Err) (ldb : Ldb),
    IsTalk Q fun _ io s => Ldb.updateAppend io i ls e s ldb := by
  induction ls with
  | nil => exact fun i e ldb => talk_congr (talk_ret (ldb, .ok e)) fun σ io s => by rw [Ldb.updateAppend]
  | cons l ls ih =>
    intro i e ldb
    refine talk_step (talk_writeLink h ldb i (Ldb.notLast l)) fun r => ?_
    rcases r with ⟨d, x | x | _⟩
    · exact ⟨_, ih (i + 1) x d, fun σ io s s1 h => by rw [Ldb.updateAppend, h], fun h => False.elim h⟩
    all_goals exact talk_done fun σ io s s1 h => by rw [Ldb.updateAppend, h]

theorem long_updateLinks (h : ∀ p, Q ⟨0, 0, 0, Cmd.readWriteALDB, p⟩) (fuel : Nat) (now done : Int) (ldb : Ldb) (ls : List LinkRecord) :
    IsLongTalk Q fun _ io s => Ldb.updateLinks io fuel now done s ldb ls := by
  refine long_wait (long_refresh (h _) fuel now done ldb) (fun σ io s h => by unfold Ldb.updateLinks; rw [h]) fun r => ?_
  rcases r with ⟨d, (_ | e) | e | _⟩
  · refine ⟨_, ?_, fun σ io s s1 h => by unfold Ldb.updateLinks; rw [h], fun h => False.elim h⟩
    refine long_step (talk_updateFound h ls [] d) fun r => ?_
    rcases r with ⟨d2, ⟨l2, _ | e⟩ | e | _⟩
    · refine ⟨_, ?_, fun σ io s s1 h => by dsimp only; rw [h], fun h => False.elim h⟩
      refine long_step (talk_updateAvailable h d2.links.length 0 l2 d2) fun r => ?_
      rcases r with ⟨d3, ⟨l3, _ | e⟩ | e | _⟩
      · rcases l3 with _ | ⟨a, l3⟩
        · exact long_done fun σ io s s1 h => by dsimp only; rw [h]
        · refine ⟨_, ?_, fun σ io s s1 h => by dsimp only; rw [h], fun h => False.elim h⟩
          refine long_step (talk_updateAppend h (a :: l3) d3.links.length none d3) fun r => ?_
          rcases r with ⟨d4, (_ | e) | e | _⟩
          · exact ⟨_, long_of (talk_writeLink h d4 (d3.links.length + (a :: l3).length : Nat) Ldb.endRecord), fun σ io s s1 h => by dsimp only; rw [h], fun h => False.elim h⟩
          all_goals exact long_done fun σ io s s1 h => by dsimp only; rw [h]
      · rcases l3 with _ | ⟨a, l3⟩ <;> exact long_done fun σ io s s1 h => by dsimp only; rw [h]
      all_goals exact long_done fun σ io s s1 h => by dsimp only; rw [h]
    all_goals exact long_done fun σ io s s1 h => by dsimp only; rw [h]
  all_goals exact wait_done fun σ io s s1 h => by unfold Ldb.updateLinks; rw [h]

/-! ### All calls -/

theorem says_tells {β : Type} {f : (σ : Type) → MsgIO σ → σ → σ × Out β} (err : β → Option Err) (hf : IsTalk Q f) :
    IsLongTalk Q fun σ io s => DeviceCall.tells err (f σ io s) := long_of (talk_map (errorAmong err) hf fun a h => by rcases a with _ | _ | _ <;> first | exact trivial | exact False.elim h)

theorem says_tellsLate {β : Type} {f : (σ : Type) → MsgIO σ → σ → Option (σ × Out β)} (err : β → Option Err) (hf : IsLongTalk Q f) :
    IsLongTalk Q fun σ io s => DeviceCall.tellsLate err (f σ io s) := long_map (errorAmong err) hf fun a h => by rcases a with _ | _ | _ <;> first | exact trivial | exact False.elim h

theorem says_tellsOf {β : Type} {f : (σ : Type) → MsgIO σ → σ → Option (σ × Ldb × Out β)} (err : β → Option Err) (hf : IsLongTalk Q f) :
    IsLongTalk Q fun σ io s => DeviceCall.tellsOf err (f σ io s) := long_map (fun r : Ldb × Out β => errorAmong err r.2) hf fun a h => by
    rcases a with ⟨d, _ | _ | _⟩ <;> first | exact trivial | exact False.elim h

theorem says_full {β : Type} {f : (σ : Type) → MsgIO σ → σ → σ × Out β} (hf : IsTalk Q f) :
    IsLongTalk Q fun σ io s => DeviceCall.full (f σ io s) := long_of (talk_map (fun r => ((none : Option Ldb), r)) hf fun _ h => h)

theorem says_fullLate {β : Type} {f : (σ : Type) → MsgIO σ → σ → Option (σ × Out β)} (hf : IsLongTalk Q f) :
    IsLongTalk Q fun σ io s => DeviceCall.fullLate (f σ io s) := long_map (fun r => ((none : Option Ldb), r)) hf fun _ h => h

theorem says_fullOf {β : Type} {f : (σ : Type) → MsgIO σ → σ → Option (σ × Ldb × Out β)} (hf : IsLongTalk Q f) :
    IsLongTalk Q fun σ io s => DeviceCall.fullOf (f σ io s) := long_map (fun r : Ldb × Out β => (some r.1, r.2)) hf fun _ h => h

local macro "voc" : tactic => `(tactic| first | decide | simp [DeviceCall.vocabulary])

/-- Every call on a device is a conversation with all it returns, with messages such as C199 says. -/
theorem results_are_talks (info : DeviceInfo) (fuel : Nat) (c : DeviceCall) : IsLongTalk (Allowed info c) fun _ io s => c.result info io fuel s := by
  have tell : ∀ cmd p, c.target info = info.address → cmd.toNat / 256 % 256 ∈ c.vocabulary → (c.Asks → IsQuestion (Device.prepare info ⟨0, 0, 0, cmd, p⟩)) →
      Allowed info c (Device.prepare info ⟨0, 0, 0, cmd, p⟩) :=
    fun cmd p ht hv ha => ⟨by rw [ht]; exact (prepare_addressed info _).1, by rw [opcode_prepare]; exact hv, ha⟩
  have sc : ∀ cmd p, c.target info = info.address → cmd.toNat / 256 % 256 ∈ c.vocabulary → ¬ c.Asks →
      IsLongTalk (Allowed info c) fun _ io s => DeviceCall.full (Device.sendCommand info io s cmd p) :=
    fun cmd p ht hv ha => says_full (talk_sendCommand info cmd p (tell cmd p ht hv (fun hx => absurd hx ha)))
  have simple : ∀ cmd p, cmd.toNat / 256 % 256 ∈ [0x03, 0x0d, 0x10, 0x19, 0x1f, 0x6a] → IsQuestion (Device.prepare info ⟨0, 0, 0, cmd, p⟩) :=
    fun cmd p hx => Or.inl (by rw [opcode_prepare]; exact hx)
  have therm : ∀ cmd p, cmd.toNat / 256 % 256 = 0x6b → cmd.toNat % 256 ∈ [0x02, 0x03, 0x0d, 0x12] → IsQuestion (Device.prepare info ⟨0, 0, 0, cmd, p⟩) :=
    fun cmd p hx hy => Or.inr (Or.inl ⟨by rw [opcode_prepare]; exact hx, by rw [operand_prepare]; exact hy⟩)
  have ext : ∀ cmd p, cmd.toNat / 256 % 256 ∈ [0x2e, 0x2f] → p[1]? = some 0x00#8 → IsQuestion (Device.prepare info ⟨0, 0, 0, cmd, p⟩) :=
    fun cmd p hx hy => Or.inr (Or.inr ⟨by rw [opcode_prepare]; exact hx, prepare_second info _ _ hy⟩)
  cases c with
  | openDevice dst =>
    exact says_fullLate (long_open fuel dst ⟨rfl, by simp [DeviceCall.vocabulary, opcode], fun _ => Or.inl (by simp [opcode])⟩
      ⟨rfl, by simp [DeviceCall.vocabulary, opcode], fun _ => Or.inl (by simp [opcode])⟩)
  | engineVersion dst => exact says_full (talk_engine dst ⟨rfl, by simp [DeviceCall.vocabulary, opcode], fun _ => Or.inl (by simp [opcode])⟩)
  | identification dst => exact says_fullLate (long_ident fuel dst ⟨rfl, by simp [DeviceCall.vocabulary, opcode], fun _ => Or.inl (by simp [opcode])⟩)
  | send c p => exact says_full (talk_send info c p (tell c p rfl (by simp [DeviceCall.vocabulary]) (fun hx => hx.elim)))
  | sendCommand c p => exact sc c p rfl (by simp [DeviceCall.vocabulary]) id
  | productData => exact says_fullLate (long_productData info fuel (tell _ _ rfl (by voc) (fun _ => simple _ _ (by voc))))
  | extendedGet d => exact says_fullLate (long_extendedGet info fuel d (tell _ _ rfl (by voc) (fun hx => hx.elim)))
  | enterLinkingMode g =>
    by_cases hv : info.engineVersion = verI2Cs
    · exact long_congr (sc (Cmd.enterLinkingModeExt.subCommand (g.setWidth 64)) (List.replicate 14 0#8) rfl (by rw [sub_opcode]; voc) id) fun σ io s => by
        show _ = DeviceCall.full (Device.enterLinkingMode info io s g)
        unfold Device.enterLinkingMode; rw [if_pos hv]
    · exact long_congr (sc (Cmd.enterLinkingMode.subCommand (g.setWidth 64)) [] rfl (by rw [sub_opcode]; voc) id) fun σ io s => by
        show _ = DeviceCall.full (Device.enterLinkingMode info io s g)
        unfold Device.enterLinkingMode; rw [if_neg hv]
  | enterUnlinkingMode g => exact sc _ _ rfl (by rw [sub_opcode]; voc) id
  | exitLinkingMode => exact sc _ _ rfl (by voc) id
  | links ldb now done => exact says_fullOf (long_device info (long_getLinks (tell _ _ rfl (by voc) (fun _ => ext _ _ (by voc) rfl)) fuel now done ldb))
  | writeLink ldb i l => exact says_fullOf (long_device info (long_of (talk_writeLink (fun p => tell _ _ rfl (by voc) (fun hx => hx.elim)) ldb i l)))
  | writeLinks ldb done ls => exact says_fullOf (long_device info (long_of (talk_writeLinks (fun p => tell _ _ rfl (by voc) (fun hx => hx.elim)) done ls ldb)))
  | updateLinks ldb now done ls => exact says_fullOf (long_device info (long_updateLinks (fun p => tell _ _ rfl (by voc) (fun hx => hx.elim)) fuel now done ldb ls))
  | addLinks ldb now done ls => exact says_fullOf (long_device info (long_addLinks (fun p => tell _ _ rfl (by voc) (fun hx => hx.elim)) fuel now done ldb ls))
  | lightStatus => exact says_full (talk_status info (tell _ _ rfl (by voc) (fun _ => simple _ _ (by voc))))
  | switchConfig => exact says_fullLate (long_switchConfig info fuel (tell _ _ rfl (by voc) (fun _ => ext _ _ (by voc) rfl)))
  | operatingFlags => exact says_full (talk_operatingFlags info (fun b => tell _ _ rfl (by rw [sub_opcode]; voc) (fun _ => simple _ _ (by rw [sub_opcode]; voc))))
  | setLoadSense b => cases b <;> exact sc _ _ rfl (by voc) id
  | setBacklight b => cases b <;> exact sc _ _ rfl (by voc) id
  | turnOff => exact sc _ _ rfl (by voc) id
  | turnOn l => exact sc _ _ rfl (by rw [sub_opcode]; voc) id
  | dimmerConfig => exact says_fullLate (long_dimmerConfig info fuel (tell _ _ rfl (by voc) (fun _ => ext _ _ (by voc) rfl)))
  | brighten => exact sc _ _ rfl (by voc) id
  | dim => exact sc _ _ rfl (by voc) id
  | startBrighten => exact sc _ _ rfl (by voc) id
  | startDim => exact sc _ _ rfl (by voc) id
  | stopManualChange => exact sc _ _ rfl (by voc) id
  | onFast => exact sc _ _ rfl (by voc) id
  | instantChange l => exact sc _ _ rfl (by rw [sub_opcode]; voc) id
  | setStatus l => exact sc _ _ rfl (by rw [sub_opcode]; voc) id
  | onAtRamp l r => exact sc _ _ rfl (by rw [sub_opcode]; split_ifs <;> voc) id
  | offAtRamp r => exact sc _ _ rfl (by rw [sub_opcode]; split_ifs <;> voc) id
  | increaseTemp d => exact sc _ _ rfl (by rw [sub_opcode]; voc) id
  | decreaseTemp d => exact sc _ _ rfl (by rw [sub_opcode]; voc) id
  | zoneInfo z => exact says_full (talk_zone info z (fun b => tell _ _ rfl (by rw [sub_opcode]; voc) (fun _ => simple _ _ (by rw [sub_opcode]; voc))))
  | getMode => exact says_full (talk_getMode info (tell _ _ rfl (by voc) (fun _ => therm _ _ (by voc) (by voc))))
  | ambientTemp => exact says_full (talk_ask info _ (tell _ _ rfl (by voc) (fun _ => therm _ _ (by voc) (by voc))))
  | equipmentState => exact says_full (talk_equipment info (tell _ _ rfl (by voc) (fun _ => therm _ _ (by voc) (by voc))))
  | fanSpeed => exact says_full (talk_ask info _ (tell _ _ rfl (by voc) (fun _ => therm _ _ (by voc) (by voc))))
  | setMode m =>
    rcases hm : Thermostat.modeCommand m with _ | c
    · exact long_congr (says_full (talk_ret (.ok (some .invalidThermostatMode)))) fun σ io s => by
        show _ = DeviceCall.full (Thermostat.setMode info io s m)
        unfold Thermostat.setMode; rw [hm]; rfl
    · refine long_congr (sc c [] rfl ?_ id) fun σ io s => by
        show _ = DeviceCall.full (Thermostat.setMode info io s m)
        unfold Thermostat.setMode; rw [hm]
      unfold Thermostat.modeCommand at hm
      split_ifs at hm <;> first | (simp only [Option.some.injEq] at hm; subst hm; simp [DeviceCall.vocabulary]) | (exact absurd hm (by simp))
  | thermostatInfo => exact says_fullLate (long_info info fuel (fun i => tell _ _ rfl (by voc) (fun _ => ext _ _ (by voc) rfl)))
  | getTempUnit => exact says_fullLate (long_tempUnit info fuel (fun i => tell _ _ rfl (by voc) (fun _ => ext _ _ (by voc) rfl)))
  | setTempUnit u =>
    by_cases h1 : u = 1
    · subst h1; exact sc _ _ rfl (by voc) id
    · by_cases h0 : u = 0
      · subst h0; exact sc _ _ rfl (by voc) id
      · exact long_congr (says_full (talk_ret (.ok (some .invalidUnit)))) fun σ io s => by
          show _ = DeviceCall.full (Thermostat.setTempUnit info io s u)
          unfold Thermostat.setTempUnit; rw [if_neg h1, if_neg h0]; rfl
  | setFanSpeed u =>
    by_cases h1 : u = 1
    · subst h1; exact sc _ _ rfl (by voc) id
    · by_cases h2 : u = 2
      · subst h2; exact sc _ _ rfl (by voc) id
      · by_cases h3 : u = 3
        · subst h3; exact sc _ _ rfl (by voc) id
        · exact long_congr (says_full (talk_ret (.ok (some .invalidFanSpeed)))) fun σ io s => by
            show _ = DeviceCall.full (Thermostat.setFanSpeed info io s u)
            unfold Thermostat.setFanSpeed; rw [if_neg h1, if_neg h2, if_neg h3]; rfl
  | thermostatStatus =>
    exact says_fullLate (long_thermStatus info fuel (fun b => tell _ _ rfl (by rw [sub_opcode]; voc) (fun _ => simple _ _ (by rw [sub_opcode]; voc)))
      (fun i => tell _ _ rfl (by voc) (fun _ => ext _ _ (by voc) rfl))
      (tell _ _ rfl (by voc) (fun _ => therm _ _ (by voc) (by voc))) (tell _ _ rfl (by voc) (fun _ => therm _ _ (by voc) (by voc))))
  | setStatusMessage b => cases b <;> exact sc _ _ rfl (by voc) id
  | setCoolSetpoint z t => exact sc _ _ rfl (by rw [sub_opcode]; voc) id
  | setHeatSetpoint z t => exact sc _ _ rfl (by rw [sub_opcode]; voc) id
  | increaseZoneTemp z t => exact sc _ _ rfl (by rw [sub_opcode]; voc) id
  | decreaseZoneTemp z t => exact sc _ _ rfl (by rw [sub_opcode]; voc) id
  | setZoneCoolSetpoint z t d => exact sc _ _ rfl (by rw [sub_opcode]; voc) id
  | setZoneHeatSetpoint z t d => exact sc _ _ rfl (by rw [sub_opcode]; voc) id


/-- The error is one of the results. -/
theorem report_result {σ : Type} (info : DeviceInfo) (io : MsgIO σ) (fuel : Nat) (s : σ) (c : DeviceCall) :
    c.report info io fuel s = (c.result info io fuel s).map fun r => (r.1, errorAmong c.fault r.2.2) := by
  cases c <;>
    simp only [DeviceCall.report, DeviceCall.result, DeviceCall.tells, DeviceCall.full, DeviceCall.tellsLate, DeviceCall.fullLate, DeviceCall.tellsOf, DeviceCall.fullOf,
      Option.map_map, Option.map_some, DeviceCall.fault, DeviceCall.Value, Function.comp_def]

/-- Every call on a device is a conversation, with messages such as C199 says. -/
theorem calls_are_talks (info : DeviceInfo) (fuel : Nat) (c : DeviceCall) : IsLongTalk (Allowed info c) fun _ io s => c.report info io fuel s :=
  long_congr (long_map (fun r : Option Ldb × Out c.Value => errorAmong c.fault r.2) (results_are_talks info fuel c)
    fun a h => by rcases a with ⟨d, _ | _ | _⟩ <;> first | exact trivial | exact False.elim h) fun σ io s => by rw [report_result]

end

end Insteon
