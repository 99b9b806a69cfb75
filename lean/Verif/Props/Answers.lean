import Verif.Props.Talk
import Verif.Props.Failures
import Verif.Spec.Answers

/-
C204: calls on devices depend on nothing but the answers.
-/

namespace Insteon
open Insteon.Spec

theorem talk_alike {σ τ α : Type} {Q : Message → Prop} {a : MsgIO σ} {b : MsgIO τ} {R : σ → τ → Prop} (h : AnswerAlike Q a b R) (T : Talk α) :
    ∀ s t, T.Says Q → R s t → (T.run a s).2 = (T.run b t).2 ∧ R (T.run a s).1 (T.run b t).1 := by
  induction T with
  | ret x => exact fun s t _ hr => ⟨rfl, hr⟩
  | read k ih =>
    intro s t hs hr
    obtain ⟨h1, h2⟩ := h.read s t hr
    simp only [Talk.run, h1]
    exact ih _ _ _ (hs _) h2
  | write m k ih =>
    intro s t hs hr
    obtain ⟨h1, h2⟩ := h.write s t m hr hs.1
    simp only [Talk.run, h1]
    exact ih _ _ _ (hs.2 _) h2

/-- C204: a call on a device over two message writers that give the same results, at least to messages for this device with the commands of the call: the call ends over
both or over none, returns the same, values and errors, knows the same about the device's links, and leaves corresponding states. So nothing else goes into what it does: no state of the program, no other
traffic, and not the kind of message writer. -/
theorem calls_same_answers {σ τ : Type} (info : DeviceInfo) (c : DeviceCall) (fuel : Nat) (a : MsgIO σ) (b : MsgIO τ) (R : σ → τ → Prop)
    (h : AnswerAlike (fun m => m.dst = c.target info ∧ opcode m ∈ c.vocabulary ∧ (c.Asks → IsQuestion m)) a b R) (s : σ) (t : τ) (hr : R s t) :
    match c.result info a fuel s, c.result info b fuel t with
    | some (s', x), some (t', y) => x = y ∧ R s' t'
    | none, none => True
    | _, _ => False := by
  obtain ⟨T, hs, -, hT⟩ := results_are_talks info fuel c
  obtain ⟨h1, h2⟩ := talk_alike h T s t hs hr
  have ha := hT σ a s
  have hb := hT τ b t
  rcases hx : c.result info a fuel s with _ | ⟨s', x⟩ <;> rcases hy : c.result info b fuel t with _ | ⟨t', y⟩ <;> dsimp only
  · have h3 := ha.2 hx
    have h4 := hb.1 _ _ hy
    rw [h3, h4] at h1; simp at h1
  · have h3 := ha.1 _ _ hx
    have h4 := hb.2 hy
    rw [h3, h4] at h1; simp at h1
  · have h3 := ha.1 _ _ hx
    have h4 := hb.1 _ _ hy
    rw [h3, h4] at h1 h2
    simp only [Option.some.injEq] at h1
    exact ⟨h1, h2⟩

/-- C204: a crash while a message is read or written is a crash of the call: calls on devices never go on after one. -/
theorem calls_crash {σ : Type} (info : DeviceInfo) (c : DeviceCall) (fuel : Nat) (io : MsgIO σ) (s : σ) (w : Bool × σ) (r : Out (Option Err))
    (h : c.report info (noteCrash io) fuel (false, s) = some (w, r)) (hp : w.1 = true) : r = .panic := by
  obtain ⟨T, -, hu, hT⟩ := calls_are_talks info fuel c
  have h1 := (hT _ _ _).1 _ _ h
  suffices hs : ∀ (T : Talk (Option (Out (Option Err)))) (s : σ), T.Unwinds → (T.run (noteCrash io) (false, s)).1.1 = true →
      Crash.crash (T.run (noteCrash io) (false, s)).2 by
    have h2 := hs T s hu
    rw [h1] at h2
    have h3 : Crash.crash r := h2 hp
    rcases r with _ | _ | _
    · exact False.elim h3
    · exact False.elim h3
    · rfl
  intro T
  induction T with
  | ret a => intro s _ h; simp [Talk.run] at h
  | read k ih =>
    intro s hu h
    simp only [Talk.run, noteCrash, Bool.false_or] at h ⊢
    by_cases hb : (io.read s).2 = .panic
    · obtain ⟨⟨a, h1, h2⟩, -⟩ := hu
      rw [hb, h1]; exact h2
    · rw [decide_eq_false hb] at h ⊢
      exact ih _ _ (hu.2 _) h
  | write m k ih =>
    intro s hu h
    simp only [Talk.run, noteCrash, Bool.false_or] at h ⊢
    by_cases hb : (io.write s m).2 = .panic
    · obtain ⟨⟨a, h1, h2⟩, -⟩ := hu
      rw [hb, h1]; exact h2
    · rw [decide_eq_false hb] at h ⊢
      exact ih _ _ (hu.2 _) h

/-- The hypotheses can be met by two quite different message writers: the one has a light whose level was set by hand before, the other makes up the same answers. -/
def fixedAnswers : MsgIO Unit where
  read s := (s, .ret none (some (.wrapped .insReadTimeout)))
  write s m := (s, .ret (some { m with src := m.dst, dst := 0x0a0b0c#32, flags := 0x2b#8, command := 0x1920#64 }) none)

def countedAnswers : MsgIO Nat where
  read n := (n + 1, .ret none (some (.wrapped .insReadTimeout)))
  write n m := (n + 1, if opcode m = 0x19 then .ret (some { m with src := m.dst, dst := 0x0a0b0c#32, flags := 0x2b#8, command := 0x1920#64 }) none else .ret none (some .plmNak))

example : AnswerAlike (fun m => m.dst = DeviceCall.target ⟨0x010203#32, (1, 0), 0, 2⟩ .lightStatus ∧ opcode m ∈ DeviceCall.lightStatus.vocabulary ∧
    (DeviceCall.lightStatus.Asks → IsQuestion m)) fixedAnswers countedAnswers (fun _ _ => True) where
  read := fun s t _ => ⟨rfl, trivial⟩
  write := fun s t m _ h => ⟨by
    have h1 : opcode m = 0x19 := by simpa [DeviceCall.vocabulary] using h.2.1
    simp only [fixedAnswers, countedAnswers, h1, if_true], trivial⟩

example : (DeviceCall.result ⟨0x010203#32, (1, 0), 0, 2⟩ fixedAnswers 5 () .lightStatus).map Prod.snd = some (none, .ok ((0x20#64, none) : BitVec 64 × Option Err)) := rfl

/-- A port that is closed under way. -/
def closedPort : MsgIO Nat where
  read n := (n + 1, .panic)
  write n m := (n + 1, if n = 0 then .ret (some m) none else .panic)

example : (DeviceCall.report ⟨0x010203#32, (1, 0), 0, 2⟩ (noteCrash closedPort) 5 (false, 0) .switchConfig) = some ((true, 2), .panic) := by decide +kernel

end Insteon
