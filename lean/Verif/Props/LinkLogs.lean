import Mathlib.Tactic.SplitIfs
import Verif.Model.LinkLogs
import Verif.Model.Plm
import Verif.Spec.LinkOps

/-
C166: debug logs change nothing that is sent.
-/

namespace Insteon

open Spec

theorem log_false {σ : Type} (d : Shown σ) (s : σ) : d.log false s = s := rfl

theorem log_quiet {σ : Type} (fmt : Bool) (d : Shown σ) (s : σ) (h : ∀ s, d.string s = s) : d.log fmt s = s := by
  unfold Shown.log
  split_ifs
  · exact h s
  · rfl

theorem forceLink_quiet {σ : Type} (fmt : Bool) (g : Group) (c r : Shown σ) (s : σ) (hc : fmt = true → ∀ s, c.string s = s) :
    LinkLogs.forceLink fmt g c r s = LinkOps.forceLink g c.dev r.dev s := by
  have : c.log fmt s = s := by
    cases fmt
    · rfl
    · exact log_quiet true c s (hc rfl)
  unfold LinkLogs.forceLink LinkOps.forceLink
  rw [this]
  rfl

theorem unlink_quiet {σ : Type} (fmt : Bool) (g : Group) (c r : Shown σ) (s : σ) (hc : fmt = true → ∀ s, c.string s = s)
    (hr : fmt = true → ∀ s, r.string s = s) : LinkLogs.unlink fmt g c r s = LinkOps.unlink g c.dev r.dev s := by
  have e1 : ∀ s, c.log fmt s = s := by
    intro s
    cases fmt
    · rfl
    · exact log_quiet true c s (hc rfl)
  have e2 : ∀ s, r.log fmt s = s := by
    intro s
    cases fmt
    · rfl
    · exact log_quiet true r s (hr rfl)
  unfold LinkLogs.unlink LinkOps.unlink
  simp only [e1, e2]
  rfl

theorem link_quiet {σ : Type} (fmt : Bool) (g : Group) (c r : Shown σ) (s : σ) (hc : fmt = true → ∀ s, c.string s = s) :
    LinkLogs.link fmt g c r s = LinkOps.link g c.dev r.dev s := by
  unfold LinkLogs.link LinkOps.link
  simp only [fun s => forceLink_quiet fmt g c r s hc]

/-- C166, what is proved: as long as showing the devices does nothing - debug logs are not formatted, or both are no modem, or their text
is known already - linking and unlinking do what they do without logs, for whatever devices. -/
theorem link_logs_silent_partial {σ : Type} (fmt : Bool) (c r : Shown σ) (hc : fmt = true → ∀ s, c.string s = s)
    (hr : fmt = true → ∀ s, r.string s = s) (g : Group) (s : σ) :
    LinkLogs.forceLink fmt g c r s = LinkOps.forceLink g c.dev r.dev s ∧
    LinkLogs.link fmt g c r s = LinkOps.link g c.dev r.dev s ∧
    LinkLogs.crossLink fmt g c r s = LinkOps.crossLink g c.dev r.dev s ∧
    LinkLogs.unlink fmt g c r s = LinkOps.unlink g c.dev r.dev s ∧
    LinkLogs.unlinkAll fmt c r s = LinkOps.unlinkAll c.dev r.dev s := by
  refine ⟨forceLink_quiet fmt g c r s hc, link_quiet fmt g c r s hc, ?_, unlink_quiet fmt g c r s hc hr, ?_⟩
  · unfold LinkLogs.crossLink LinkOps.crossLink
    simp only [fun s => link_quiet fmt g c r s hc, fun s => link_quiet fmt g r c s hr]
  · have hloop : ∀ ls e s, LinkLogs.unlinkLoop fmt c r ls e s = LinkOps.unlinkLoop c.dev r.dev ls e s := by
      intro ls
      induction ls with
      | nil => intros; rfl
      | cons l ls ih =>
        intro e s
        rw [LinkLogs.unlinkLoop, LinkOps.unlinkLoop]
        simp only [ih, fun g s => unlink_quiet fmt g c r s hc hr, fun g s => unlink_quiet fmt g r c s hr hc]
    unfold LinkLogs.unlinkAll LinkOps.unlinkAll
    simp only [hloop]
    rfl

/-- The modem's text asks it for its address exactly when that is not known: with a known address nothing is sent. -/
theorem modem_text_quiet {σ : Type} (io : PlmIO σ) (retries : Int) (s : σ) (cached : Address) (h : cached ≠ 0#32) :
    Plm.address io retries s cached = (s, .ok cached) := by
  unfold Plm.address
  rw [if_neg h]

/-- With an unknown address the modem is asked (command 0x60), and what happens then happens to the port. -/
theorem modem_text_asks {σ : Type} (io : PlmIO σ) (retries : Int) (s : σ) :
    (Plm.address io retries s 0#32).1 = (retryWrite (Plm.writePacket io) retries true s ⟨0x60#8, [], 0#8⟩).1 := by
  unfold Plm.address Plm.info
  rw [if_pos rfl]
  rcases retryWrite (Plm.writePacket io) retries true s ⟨PCmd.getInfo, [], 0#8⟩ with ⟨s1, ⟨_ | ack, _ | e⟩ | _⟩ <;> try rfl
  dsimp only
  rcases Info.unmarshalBinary ack.payload with i | e | _ <;> rfl

/-- Linking a device to the modem with formatted debug logs: what the devices are asked to do, exactly, in an environment that reports no errors. The
first call is there for the log. -/
theorem force_link_modem_calls (env : Hist → Call → Reply) (canWrite : Nat → Bool) (g : Group) (fmt : Bool)
    (henv : ∀ h c, (env h c).err = none) :
    LinkLogs.forceLink fmt g (.modem (anyDevice env canWrite 0)) (.device (anyDevice env canWrite 1)) [] =
      ((if fmt then [Call.address 0] else []) ++ [.enter 0 g, .enter 1 g, .exit 0, .exit 1], none) := by
  cases fmt <;> simp [LinkLogs.forceLink, Shown.modem, Shown.device, Shown.log, anyDevice, henv]

/-- Unlinking with formatted debug logs, the modem being the controller or the responder: what the devices are asked to do, exactly. As a
responder the modem is asked for its address between the two steps, while the controller waits. -/
theorem unlink_modem_calls (env : Hist → Call → Reply) (canWrite : Nat → Bool) (g : Group) (fmt : Bool)
    (henv : ∀ h c, (env h c).err = none) :
    LinkLogs.unlink fmt g (.modem (anyDevice env canWrite 0)) (.device (anyDevice env canWrite 1)) [] =
      ((if fmt then [Call.address 0] else []) ++ [.unlink 0 g, .enter 1 g, .exit 0, .exit 1], none) ∧
    LinkLogs.unlink fmt g (.device (anyDevice env canWrite 1)) (.modem (anyDevice env canWrite 0)) [] =
      ([Call.unlink 1 g] ++ (if fmt then [Call.address 0] else []) ++ [.enter 0 g, .exit 1, .exit 0], none) := by
  cases fmt <;> simp [LinkLogs.unlink, Shown.modem, Shown.device, Shown.log, anyDevice, henv]

/-- C166 in full is false of the code: whether debug logs are formatted decides whether the modem is asked for its address. -/
theorem link_logs_silent_refuted :
    ¬ ∀ (env : Hist → Call → Reply) (canWrite : Nat → Bool) (g : Group) (s : Hist),
      LinkLogs.forceLink true g (.modem (anyDevice env canWrite 0)) (.device (anyDevice env canWrite 1)) s =
        LinkLogs.forceLink false g (.modem (anyDevice env canWrite 0)) (.device (anyDevice env canWrite 1)) s := by
  intro h
  have := h (fun _ _ => ⟨none, [], 0⟩) (fun _ => false) 1 []
  rw [force_link_modem_calls _ _ _ _ (by simp), force_link_modem_calls _ _ _ _ (by simp)] at this
  simp at this

/-- The hypotheses of `link_logs_silent_partial` are met by two devices, with and without formatted logs, and by the modem without. -/
example (env : Hist → Call → Reply) (canWrite : Nat → Bool) :
    (true = true → ∀ s, (Shown.device (anyDevice env canWrite 1)).string s = s) ∧
    (false = true → ∀ s, (Shown.modem (anyDevice env canWrite 0)).string s = s) := ⟨fun _ _ => rfl, nofun⟩

end Insteon
