import Verif.Spec.ModemFailures
import Verif.Props.ModemCmd
import Verif.Props.PlmLinks

/-
C206 and C207: failures of calls on the modem, and what they write.
-/

namespace Insteon
open Insteon.Spec

section
variable {σ : Type}

/-! ### C206 -/

/-- Nothing that has to be reported has happened. -/
def StillFine (w : PortWatch σ) : Prop := w.failed = none ∨ ∃ e, ¬ Foreign e ∧ w.failed = some e

/-- A failure is the last thing that happened and is the error. -/
def Reported (w : PortWatch σ) (r : Option Err) : Prop := StillFine w ∨ ∃ e, Foreign e ∧ w.failed = some e ∧ w.more = false ∧ r = some e

/-- No failure, or it has been noted whether the port was used after it. -/
def Unspoilt (w : PortWatch σ) : Prop := w.failed = none → w.more = false

/-- The error of a result. -/
def perr : PRes → Option Err
  | .ret _ e => e
  | .panic => none

theorem fine_note (w : PortWatch σ) (s : σ) (e : Option Err) (h : StillFine w) (hf : Unspoilt w) :
    Reported ⟨s, w.failed.or e, w.more || w.failed.isSome⟩ e ∧ Unspoilt ⟨s, w.failed.or e, w.more || w.failed.isSome⟩ := by
  rcases h with h | ⟨e0, h0, h⟩
  · have hm := hf h
    rcases e with _ | e
    · exact ⟨Or.inl (Or.inl (by simp [h])), fun _ => by simp [h, hm]⟩
    · refine ⟨?_, fun hx => by simp [h] at hx⟩
      by_cases hF : Foreign e
      · exact Or.inr ⟨e, hF, by simp [h], by simp [h, hm], rfl⟩
      · exact Or.inl (Or.inr ⟨e, hF, by simp [h]⟩)
  · exact ⟨Or.inl (Or.inr ⟨e0, h0, by simp [h]⟩), fun hx => by simp [h] at hx⟩

theorem reported_none (w : PortWatch σ) (h : Reported w none) : StillFine w := by
  rcases h with h | ⟨e, -, -, -, h⟩
  · exact h
  · simp at h

theorem reported_known (w : PortWatch σ) (e : Err) (he : ¬ Foreign e) (h : Reported w (some e)) : StillFine w := by
  rcases h with h | ⟨e', h1, -, -, h⟩
  · exact h
  · simp only [Option.some.injEq] at h; rw [h] at he; exact absurd h1 he

variable (io : PlmIO σ)

theorem told_read (w : PortWatch σ) (h : StillFine w) (hf : Unspoilt w) :
    Reported (Plm.readPacket (watchPort io) w).1 (perr (Plm.readPacket (watchPort io) w).2) ∧ Unspoilt (Plm.readPacket (watchPort io) w).1 := by
  unfold Plm.readPacket
  simp only [watchPort]
  have key := fine_note w (io.rxPacket w.world).1 (lateness (.wrapped .plmReadTimeout) (io.rxPacket w.world).2) h hf
  rcases hx : (io.rxPacket w.world).2 with p | _ | _ <;> rw [hx] at key <;> exact key

theorem told_write (w : PortWatch σ) (pkt : Packet) (h : StillFine w) (hf : Unspoilt w) :
    Reported (Plm.writePacket (watchPort io) w pkt).1 (perr (Plm.writePacket (watchPort io) w pkt).2) ∧ Unspoilt (Plm.writePacket (watchPort io) w pkt).1 := by
  unfold Plm.writePacket
  have key := fine_note w (io.tx w.world pkt.marshalBinary).1 (io.tx w.world pkt.marshalBinary).2 h hf
  rcases hx : (watchPort io).tx w pkt.marshalBinary with ⟨w1, _ | e⟩
  · have h1 : w1 = ⟨(io.tx w.world pkt.marshalBinary).1, w.failed.or (io.tx w.world pkt.marshalBinary).2, w.more || w.failed.isSome⟩ := by
      rw [show (watchPort io).tx w pkt.marshalBinary = (_, _) from rfl] at hx
      exact (Prod.mk.inj hx).1.symm
    have h2 : (io.tx w.world pkt.marshalBinary).2 = none := (Prod.mk.inj hx).2
    rw [← h1] at key
    rw [h2] at key
    have h3 := reported_none _ key.1
    have key2 := fine_note w1 (io.rxPacket w1.world).1 (lateness (.wrapped .plmReadTimeout) (io.rxPacket w1.world).2) h3 key.2
    rcases hy : (watchPort io).rxPacket w1 with ⟨w2, p | _ | _⟩
    · have h4 := (Prod.mk.inj hy).1
      have h5 := (Prod.mk.inj hy).2
      rw [h4, h5] at key2
      have h6 := reported_none _ key2.1
      dsimp only
      rw [hy]
      dsimp only
      rcases Plm.checkAck pkt p with e | e | _
      · exact ⟨Or.inl h6, key2.2⟩
      · exact ⟨Or.inl h6, key2.2⟩
      · exact ⟨Or.inl h6, key2.2⟩
    · have h4 := (Prod.mk.inj hy).1
      have h5 := (Prod.mk.inj hy).2
      rw [h4, h5] at key2
      dsimp only
      rw [hy]
      exact key2
    · have h4 := (Prod.mk.inj hy).1
      have h5 := (Prod.mk.inj hy).2
      rw [h4, h5] at key2
      dsimp only
      rw [hy]
      exact key2
  · have h1 := (Prod.mk.inj hx).1
    have h2 := (Prod.mk.inj hx).2
    rw [h1, h2] at key
    exact key

theorem told_retryLoop (ig : Bool) (pkt : Packet) (n : Nat) : ∀ (w : PortWatch σ) (cur : PRes), StillFine w → Unspoilt w →
    Reported (retryLoop (Plm.writePacket (watchPort io)) ig pkt n w cur).1 (perr (retryLoop (Plm.writePacket (watchPort io)) ig pkt n w cur).2) ∧
      Unspoilt (retryLoop (Plm.writePacket (watchPort io)) ig pkt n w cur).1 := by
  induction n with
  | zero => intro w cur h hf; exact ⟨Or.inl h, hf⟩
  | succ n ih =>
    intro w cur h hf
    have key := told_write io w pkt h hf
    rw [retryLoop]
    rcases hx : Plm.writePacket (watchPort io) w pkt with ⟨w1, ⟨a, e⟩ | _⟩ <;> rw [hx] at key
    · dsimp only
      by_cases hr : retryable ig e = true
      · rw [if_pos hr]
        refine ih w1 _ ?_ key.2
        unfold retryable at hr
        rcases e with _ | e
        · simp at hr
        · refine reported_known w1 e (fun hF => ?_) key.1
          simp only [Bool.or_eq_true, Bool.and_eq_true, beq_iff_eq, Option.some.injEq] at hr
          rcases hr with ⟨hr, -⟩ | hr
          · exact hF.1 hr
          · exact hF.2.1 hr
      · rw [if_neg hr]; exact key
    · exact key

theorem told_retry (retries : Int) (ig : Bool) (w : PortWatch σ) (pkt : Packet) (h : StillFine w) (hf : Unspoilt w) :
    Reported (retryWrite (Plm.writePacket (watchPort io)) retries ig w pkt).1 (perr (retryWrite (Plm.writePacket (watchPort io)) retries ig w pkt).2) ∧
      Unspoilt (retryWrite (Plm.writePacket (watchPort io)) retries ig w pkt).1 := told_retryLoop io ig pkt _ w _ h hf

/-- The error of an outcome. -/
def oerr : Out (Option Err) → Option Err
  | .ok e => e
  | .err _ => none
  | .panic => none

/-- What is shown of every call. -/
def Tidy (r : PortWatch σ × Out (Option Err)) : Prop := Reported r.1 (oerr r.2) ∧ Unspoilt r.1

theorem tidy_fine {w : PortWatch σ} (r : Out (Option Err)) (h : StillFine w) (hf : Unspoilt w) : Tidy (w, r) := ⟨Or.inl h, hf⟩

theorem tidy_info (retries : Int) (w : PortWatch σ) (h : StillFine w) (hf : Unspoilt w) :
    Tidy ((Plm.info (watchPort io) retries w).1, (Plm.info (watchPort io) retries w).2.second) := by
  unfold Plm.info
  have key := told_retry io retries true w ⟨PCmd.getInfo, [], 0#8⟩ h hf
  rcases hx : retryWrite (Plm.writePacket (watchPort io)) retries true w ⟨PCmd.getInfo, [], 0#8⟩ with ⟨w1, ⟨_ | a, _ | e⟩ | _⟩ <;> rw [hx] at key <;> dsimp only
  · exact key
  · exact key
  · rcases Info.unmarshalBinary a.payload with i | e | _ <;> exact tidy_fine _ (reported_none _ key.1) key.2
  · exact key
  · exact key

theorem tidy_config (retries : Int) (w : PortWatch σ) (h : StillFine w) (hf : Unspoilt w) :
    Tidy ((Plm.config (watchPort io) retries w).1, (Plm.config (watchPort io) retries w).2.second) := by
  unfold Plm.config
  have key := told_retry io retries true w ⟨PCmd.getConfig, [], 0#8⟩ h hf
  rcases hx : retryWrite (Plm.writePacket (watchPort io)) retries true w ⟨PCmd.getConfig, [], 0#8⟩ with ⟨w1, ⟨_ | a, _ | e⟩ | _⟩ <;> rw [hx] at key <;> dsimp only
  · exact key
  · exact key
  · exact tidy_fine _ (reported_none _ key.1) key.2
  · exact key
  · exact key

theorem tidy_single (retries : Int) (w : PortWatch σ) (h : StillFine w) (hf : Unspoilt w) (c : ModemCall) : Tidy (c.exec (watchPort io) retries w) := by
  have plain : ∀ pkt, Tidy ((Plm.writePacket (watchPort io) w pkt).1, (Plm.writePacket (watchPort io) w pkt).2.error) := by
    intro pkt
    have key := told_write io w pkt h hf
    rcases hx : Plm.writePacket (watchPort io) w pkt with ⟨w1, ⟨a, e⟩ | _⟩ <;> rw [hx] at key <;> exact key
  cases c with
  | info => exact tidy_info io retries w h hf
  | config => exact tidy_config io retries w h hf
  | reset =>
    unfold ModemCall.exec Plm.reset
    have key := told_retry io retries true w ⟨PCmd.reset, [], 0#8⟩ h hf
    dsimp only
    rcases hx : retryWrite (Plm.writePacket (watchPort io)) retries true w ⟨PCmd.reset, [], 0#8⟩ with ⟨w1, ⟨a, e⟩ | _⟩ <;> rw [hx] at key <;> exact key
  | setConfig c =>
    unfold ModemCall.exec Plm.setConfig
    have key := told_retry io retries true w ⟨PCmd.setConfig, c.marshalBinary, 0#8⟩ h hf
    dsimp only
    rcases hx : retryWrite (Plm.writePacket (watchPort io)) retries true w ⟨PCmd.setConfig, c.marshalBinary, 0#8⟩ with ⟨w1, ⟨a, e⟩ | _⟩ <;> rw [hx] at key <;> exact key
  | enterLinking g => exact plain _
  | exitLinking => exact plain _
  | enterUnlinking g => exact plain _
  | setCategory c => exact tidy_fine _ h hf
  | rfSleep => exact tidy_fine _ h hf
  | updateLinks ls => exact tidy_fine _ h hf

theorem tidy_refreshLoop (retries : Int) (fuel : Nat) : ∀ (w : PortWatch σ) (acc : List LinkRecord), StillFine w → Unspoilt w →
    ∀ w' r, PlmLinks.refreshLoop (Plm.asWriter (watchPort io)) retries fuel w acc = some (w', r) →
      match r with | .ok (_, e) => Tidy (w', .ok (some e)) | _ => Tidy (w', .panic) := by
  induction fuel with
  | zero => intro w acc h hf w' r hx; simp [PlmLinks.refreshLoop] at hx
  | succ fuel ih =>
    intro w acc h hf w' r hx
    rw [PlmLinks.refreshLoop] at hx
    have key := told_read io w h hf
    rcases hy : Plm.readPacket (watchPort io) w with ⟨w1, ⟨a, _ | e⟩ | _⟩ <;> rw [hy] at key <;> simp only [Plm.asWriter, hy] at hx
    · have hfine := reported_none _ key.1
      rcases a with _ | pkt <;> dsimp only at hx
      · simp only [Option.some.injEq, Prod.mk.injEq] at hx
        rw [← hx.1, ← hx.2]; exact key
      · split at hx
        · rcases hl : LinkRecord.unmarshalBinary LinkRecord.zero pkt.payload with ⟨l, _ | e⟩ <;> rw [hl] at hx <;> dsimp only at hx
          · have key2 := told_retry io retries false w1 ⟨PCmd.getNextAllLink, [], 0#8⟩ hfine key.2
            rcases hz : retryWrite (Plm.writePacket (watchPort io)) retries false w1 ⟨PCmd.getNextAllLink, [], 0#8⟩ with ⟨w2, ⟨a, _ | e⟩ | _⟩ <;>
              rw [hz] at key2 hx <;> dsimp only at hx
            · exact ih w2 _ (reported_none _ key2.1) key2.2 w' r hx
            · simp only [Option.some.injEq, Prod.mk.injEq] at hx
              rw [← hx.1, ← hx.2]; exact key2
            · simp only [Option.some.injEq, Prod.mk.injEq] at hx
              rw [← hx.1, ← hx.2]; exact key2
          · simp only [Option.some.injEq, Prod.mk.injEq] at hx
            rw [← hx.1, ← hx.2]; exact tidy_fine _ hfine key.2
        · exact ih w1 _ hfine key.2 w' r hx
    · simp only [Option.some.injEq, Prod.mk.injEq] at hx
      rw [← hx.1, ← hx.2]; exact key
    · simp only [Option.some.injEq, Prod.mk.injEq] at hx
      rw [← hx.1, ← hx.2]; exact key

theorem tidy_links (retries : Int) (fuel : Nat) (w : PortWatch σ) (cached : List LinkRecord) (h : StillFine w) (hf : Unspoilt w) (w' : PortWatch σ) (r)
    (hx : PlmLinks.links (Plm.asWriter (watchPort io)) retries fuel w cached = some (w', r)) : Tidy (w', errorAmong Prod.snd r) := by
  unfold PlmLinks.links PlmLinks.refresh at hx
  have key := told_retry io retries true w ⟨PCmd.getFirstAllLink, [], 0#8⟩ h hf
  have nak : ¬ Foreign .plmNak := fun h => h.1 rfl
  have swap : ∀ (w1 : PortWatch σ) e (ls : List LinkRecord), Reported w1 (some e) → Unspoilt w1 →
      Tidy (w1, errorAmong Prod.snd (.ok (if e = .plmNak then (ls, none) else (cached, some e)))) := by
    intro w1 e ls h1 h2
    by_cases he : e = .plmNak
    · rw [he] at h1; rw [if_pos he]; exact tidy_fine _ (reported_known _ _ nak h1) h2
    · rw [if_neg he]; exact ⟨h1, h2⟩
  simp only [Plm.asWriter] at hx
  rcases hy : retryWrite (Plm.writePacket (watchPort io)) retries true w ⟨PCmd.getFirstAllLink, [], 0#8⟩ with ⟨w1, ⟨a, _ | e⟩ | _⟩ <;>
    rw [hy] at key hx <;> dsimp only at hx
  · rcases hz : PlmLinks.refreshLoop (Plm.asWriter (watchPort io)) retries fuel w1 [] with _ | ⟨w2, ⟨ls, e⟩ | e | _⟩ <;> simp only [Plm.asWriter] at hz <;> rw [hz] at hx <;> dsimp only at hx
    · simp at hx
    · have key2 := tidy_refreshLoop io retries fuel w1 [] (reported_none _ key.1) key.2 _ _ hz
      simp only [Option.some.injEq, Prod.mk.injEq] at hx
      rw [← hx.1, ← hx.2]; exact swap _ _ _ key2.1 key2.2
    · have key2 := tidy_refreshLoop io retries fuel w1 [] (reported_none _ key.1) key.2 _ _ hz
      simp only [Option.some.injEq, Prod.mk.injEq] at hx
      rw [← hx.1, ← hx.2]; exact key2
    · have key2 := tidy_refreshLoop io retries fuel w1 [] (reported_none _ key.1) key.2 _ _ hz
      simp only [Option.some.injEq, Prod.mk.injEq] at hx
      rw [← hx.1, ← hx.2]; exact key2
  · simp only [Option.some.injEq, Prod.mk.injEq] at hx
    rw [← hx.1, ← hx.2]; exact swap _ _ _ key.1 key.2
  · simp only [Option.some.injEq, Prod.mk.injEq] at hx
    rw [← hx.1, ← hx.2]; exact key

theorem tidy_deleteAll (ls : List LinkRecord) : ∀ w : PortWatch σ, StillFine w → Unspoilt w → Tidy (PlmLinks.deleteAll (Plm.asWriter (watchPort io)) w ls) := by
  induction ls with
  | nil => intro w h hf; exact tidy_fine _ h hf
  | cons l ls ih =>
    intro w h hf
    rw [PlmLinks.deleteAll]
    have key := told_retry io 3 true w ⟨PCmd.manageAllLinkRecord, ManageRecord.marshalBinary ⟨0x80#8, l⟩, 0#8⟩ h hf
    rcases hx : retryWrite (Plm.writePacket (watchPort io)) 3 true w ⟨PCmd.manageAllLinkRecord, ManageRecord.marshalBinary ⟨0x80#8, l⟩, 0#8⟩ with ⟨w1, ⟨a, _ | e⟩ | _⟩ <;>
      rw [hx] at key <;> simp only [PlmLinks.deleteLink, Plm.asWriter, hx]
    · exact ih w1 (reported_none _ key.1) key.2
    · exact key
    · exact key

theorem tidy_writeOne (w : PortWatch σ) (l : LinkRecord) (h : StillFine w) (hf : Unspoilt w) : Tidy (PlmLinks.writeOne (Plm.asWriter (watchPort io)) w l) := by
  unfold PlmLinks.writeOne
  have del : ∀ (w : PortWatch σ) (l : LinkRecord), StillFine w → Unspoilt w → Reported (PlmLinks.deleteLink (Plm.asWriter (watchPort io)) w l).1 (perr (PlmLinks.deleteLink (Plm.asWriter (watchPort io)) w l).2) ∧
      Unspoilt (PlmLinks.deleteLink (Plm.asWriter (watchPort io)) w l).1 := fun w l h hf => told_retry io 3 true w _ h hf
  have wr : ∀ (w : PortWatch σ) (l : LinkRecord), StillFine w → Unspoilt w → Reported (PlmLinks.writeLink (Plm.asWriter (watchPort io)) w l).1 (perr (PlmLinks.writeLink (Plm.asWriter (watchPort io)) w l).2) ∧
      Unspoilt (PlmLinks.writeLink (Plm.asWriter (watchPort io)) w l).1 := fun w l h hf => told_retry io 3 true w _ h hf
  have key := wr w l h hf
  rcases hx : PlmLinks.writeLink (Plm.asWriter (watchPort io)) w l with ⟨w1, ⟨a, _ | e⟩ | _⟩ <;> rw [hx] at key <;> dsimp only
  · exact key
  · by_cases he : e = .wrongPayload
    · rw [if_pos he]
      have hfine : StillFine w1 := reported_known _ e (fun hF => hF.2.2 he) key.1
      rcases a with _ | ack <;> dsimp only
      · exact tidy_fine _ hfine key.2
      · have key2 := del w1 (LinkRecord.unmarshalBinary LinkRecord.zero ack.payload).1 hfine key.2
        rcases hy : PlmLinks.deleteLink (Plm.asWriter (watchPort io)) w1 (LinkRecord.unmarshalBinary LinkRecord.zero ack.payload).1 with ⟨w2, ⟨a, _ | e⟩ | _⟩ <;>
          rw [hy] at key2 <;> dsimp only
        · have key3 := wr w2 l (reported_none _ key2.1) key2.2
          rcases hz : PlmLinks.writeLink (Plm.asWriter (watchPort io)) w2 l with ⟨w3, ⟨a, e⟩ | _⟩ <;> rw [hz] at key3 <;> exact key3
        · exact key2
        · exact key2
    · rw [if_neg he]; exact key
  · exact key

theorem tidy_writeAll (ls : List LinkRecord) : ∀ (w : PortWatch σ) (cached : List LinkRecord), StillFine w → Unspoilt w →
    Tidy ((PlmLinks.writeAll (Plm.asWriter (watchPort io)) w cached ls).1, errorAmong Prod.snd (PlmLinks.writeAll (Plm.asWriter (watchPort io)) w cached ls).2) := by
  induction ls with
  | nil => intro w cached h hf; exact tidy_fine _ h hf
  | cons l ls ih =>
    intro w cached h hf
    rw [PlmLinks.writeAll]
    have key := tidy_writeOne io w l h hf
    rcases hx : PlmLinks.writeOne (Plm.asWriter (watchPort io)) w l with ⟨w1, (_ | e) | e | _⟩ <;> rw [hx] at key <;> dsimp only
    · exact ih w1 _ (reported_none _ key.1) key.2
    · exact key
    · exfalso
      unfold PlmLinks.writeOne at hx
      repeat' split at hx
      all_goals simp at hx
    · exact key

theorem tidy_writeLinks (w : PortWatch σ) (cached given : List LinkRecord) (h : StillFine w) (hf : Unspoilt w) :
    Tidy ((PlmLinks.writeLinks (Plm.asWriter (watchPort io)) w cached given).1, errorAmong Prod.snd (PlmLinks.writeLinks (Plm.asWriter (watchPort io)) w cached given).2) := by
  unfold PlmLinks.writeLinks
  have key := tidy_deleteAll io cached w h hf
  have noerr : ∀ (ls : List LinkRecord) (w w' : PortWatch σ) e, PlmLinks.deleteAll (Plm.asWriter (watchPort io)) w ls ≠ (w', .err e) := by
    intro ls
    induction ls with
    | nil => intro w w' e hx; simp [PlmLinks.deleteAll] at hx
    | cons l ls ih =>
      intro w w' e hx
      rw [PlmLinks.deleteAll] at hx
      split at hx
      · simp at hx
      · simp at hx
      · exact ih _ _ _ hx
  rcases hx : PlmLinks.deleteAll (Plm.asWriter (watchPort io)) w cached with ⟨w1, (_ | e) | e | _⟩ <;> rw [hx] at key <;> dsimp only
  · exact tidy_writeAll io given w1 [] (reported_none _ key.1) key.2
  · exact key
  · exact absurd hx (noerr _ _ _ _)
  · exact key

theorem tidy_devices (retries : Int) (fuel : Nat) (w : PortWatch σ) (cached : List LinkRecord) (h : StillFine w) (hf : Unspoilt w) (w' : PortWatch σ) (r)
    (hx : PlmLinks.iterateDevices (Plm.asWriter (watchPort io)) retries fuel w cached = some (w', r)) : Tidy (w', errorAmong Prod.snd r) := by
  unfold PlmLinks.iterateDevices at hx
  rcases hy : PlmLinks.links (Plm.asWriter (watchPort io)) retries fuel w cached with _ | ⟨w1, ⟨ls, _ | e⟩ | e | _⟩ <;> rw [hy] at hx <;> dsimp only at hx
  · simp at hx
  all_goals
    have key := tidy_links io retries fuel w cached h hf _ _ hy
    simp only [Option.some.injEq, Prod.mk.injEq] at hx
    rw [← hx.1, ← hx.2]
  · exact key
  · exact key
  · exfalso
    unfold PlmLinks.links PlmLinks.refresh at hy
    repeat' split at hy
    all_goals simp at hy
  · exact key

theorem tidy_report (sort : List LinkRecord → List LinkRecord) (retries : Int) (fuel : Nat) (w : PortWatch σ) (cached : List LinkRecord) (h : StillFine w) (hf : Unspoilt w)
    (w' : PortWatch σ) (t r) (hx : plmInfoCmd sort (watchPort io) retries fuel w cached = some (w', t, r)) : Tidy (w', r) := by
  unfold plmInfoCmd at hx
  dsimp only at hx
  have key := tidy_info io retries w h hf
  rcases hy : Plm.info (watchPort io) retries w with ⟨w1, ⟨_ | i, _ | e⟩ | e | _⟩ <;> rw [hy] at key hx <;> dsimp only [Out.second] at hx key
  · simp only [Option.some.injEq, Prod.mk.injEq] at hx
    rw [← hx.1, ← hx.2.2]; exact key
  · simp only [Option.some.injEq, Prod.mk.injEq] at hx
    rw [← hx.1, ← hx.2.2]; exact key
  · have key2 := tidy_config io retries w1 (reported_none _ key.1) key.2
    rcases hz : Plm.config (watchPort io) retries w1 with ⟨w2, ⟨c, _ | e⟩ | e | _⟩ <;> rw [hz] at key2 hx <;> dsimp only [Out.second] at hx key2
    · rcases hl : PlmLinks.links (Plm.asWriter (watchPort io)) retries fuel w2 cached with _ | ⟨w3, ⟨ls, _ | e⟩ | e | _⟩ <;> rw [hl] at hx <;> dsimp only at hx
      · simp at hx
      all_goals
        have key3 := tidy_links io retries fuel w2 cached (reported_none _ key2.1) key2.2 _ _ hl
        simp only [Option.some.injEq, Prod.mk.injEq] at hx
        rw [← hx.1, ← hx.2.2]
      · exact key3
      · exact key3
      · exfalso
        unfold PlmLinks.links PlmLinks.refresh at hl
        repeat' split at hl
        all_goals simp at hl
      · exact key3
    · simp only [Option.some.injEq, Prod.mk.injEq] at hx
      rw [← hx.1, ← hx.2.2]; exact key2
    · exfalso
      unfold Plm.config at hz
      repeat' split at hz
      all_goals simp at hz
    · simp only [Option.some.injEq, Prod.mk.injEq] at hx
      rw [← hx.1, ← hx.2.2]; exact key2
  · simp only [Option.some.injEq, Prod.mk.injEq] at hx
    rw [← hx.1, ← hx.2.2]; exact key
  · exfalso
    unfold Plm.info at hy
    repeat' split at hy
    all_goals simp at hy
  · simp only [Option.some.injEq, Prod.mk.injEq] at hx
    rw [← hx.1, ← hx.2.2]; exact key

end

/-- C206: whatever the port does, a failure of the port (a write fails, or nothing comes in time) is the last thing that happens in a call on the modem, and the call returns
that error. Asking for the address or the text of the modem returns no error: see `address_failure_refuted`. -/
theorem modem_failure_partial {σ : Type} (io : PlmIO σ) (retries fuel : Nat) (s : σ) (u : ModemUse) (hu : u.Tells) (w : PortWatch σ) (r : Out (Option Err))
    (h : u.tell (watchPort io) retries fuel ⟨s, none, false⟩ = some (w, r)) (e : Err) (he : Foreign e) (hw : w.failed = some e) : r = .ok (some e) ∧ w.more = false := by
  have h0 : StillFine (⟨s, none, false⟩ : PortWatch σ) := Or.inl rfl
  have hf : Unspoilt (⟨s, none, false⟩ : PortWatch σ) := fun _ => rfl
  have key : Tidy (w, r) := by
    cases u with
    | single c =>
      simp only [ModemUse.tell, Option.some.injEq] at h
      rw [← h]; exact tidy_single io retries _ h0 hf c
    | address a => exact hu.elim
    | text a => exact hu.elim
    | readPacket =>
      simp only [ModemUse.tell, Option.some.injEq, Prod.mk.injEq] at h
      rw [← h.1, ← h.2]
      have key := told_read io _ h0 hf
      rcases hx : Plm.readPacket (watchPort io) ⟨s, none, false⟩ with ⟨w1, ⟨a, e⟩ | _⟩ <;> rw [hx] at key <;> exact key
    | links c =>
      simp only [ModemUse.tell, DeviceCall.tellsLate, Option.map_eq_some_iff, Prod.mk.injEq] at h
      obtain ⟨⟨w1, r1⟩, h1, h2, h3⟩ := h
      dsimp only at h2 h3
      rw [← h2, ← h3]
      exact tidy_links io retries fuel _ c h0 hf _ _ h1
    | writeLinks c g =>
      simp only [ModemUse.tell, DeviceCall.tells, Option.some.injEq] at h
      rw [← h]; exact tidy_writeLinks io _ c g h0 hf
    | linkedDevices c =>
      simp only [ModemUse.tell, DeviceCall.tellsLate, Option.map_eq_some_iff, Prod.mk.injEq] at h
      obtain ⟨⟨w1, r1⟩, h1, h2, h3⟩ := h
      dsimp only at h2 h3
      rw [← h2, ← h3]
      exact tidy_devices io retries fuel _ c h0 hf _ _ h1
    | report sort c =>
      simp only [ModemUse.tell, Option.map_eq_some_iff, Prod.mk.injEq] at h
      obtain ⟨⟨w1, t, r1⟩, h1, h2, h3⟩ := h
      dsimp only at h2 h3
      rw [← h2, ← h3]
      exact tidy_report io sort retries fuel _ c h0 hf _ _ _ h1
  rcases key.1 with (h1 | ⟨e', h1, h2⟩) | ⟨e', h1, h2, h3, h4⟩
  · rw [hw] at h1; simp at h1
  · rw [hw] at h2; simp only [Option.some.injEq] at h2; rw [← h2] at h1; exact absurd he h1
  · dsimp only at h2 h3 h4
    rw [hw] at h2
    simp only [Option.some.injEq] at h2
    rw [← h2] at h4
    refine ⟨?_, h3⟩
    rcases r with x | x | _
    · rw [show x = some e from h4]
    · simp [oerr] at h4
    · simp [oerr] at h4

/-- C206 is not the case for the address and the text of the modem: if the port fails while the modem is asked for its address, the call returns the address 00.00.00 and no
error. -/
theorem address_failure_refuted : ¬ ∀ (u : ModemUse) (io : PlmIO Unit) (retries fuel : Nat) (w : PortWatch Unit) (r : Out (Option Err)),
    u.tell (watchPort io) retries fuel ⟨(), none, false⟩ = some (w, r) → ∀ e, Foreign e → w.failed = some e → r = .ok (some e) := by
  intro h
  have := h (.address 0#32) ⟨fun s _ => (s, some (.other 9)), fun s => (s, .timeout), fun s => (s, .timeout)⟩ 3 9 ⟨(), some (.other 9), false⟩ (.ok none) rfl (.other 9)
    ⟨by decide, by decide, by decide⟩ rfl
  simp at this

/-- A modem that repeats what is written to it, on a port that fails after some writes. -/
def failingEcho : PlmIO (Nat × Bytes) where
  tx s b := match s.1 with
    | 0 => (s, some (.other 9))
    | n + 1 => ((n, b), none)
  rxPacket s := match s.2 with
    | _ :: c :: p => (s, .packet ⟨c, p, 0x06#8⟩)
    | _ => (s, .timeout)
  rxMsg s := (s, .timeout)

/-- Two links are known and the port fails at the second write: the second link is neither deleted nor the new one written, and the error is returned. -/
example : (ModemUse.writeLinks [⟨0xe2#8, 1#8, 0x111111#32, 0#8, 0#8, 0#8⟩, ⟨0xe2#8, 1#8, 0x222222#32, 0#8, 0#8, 0#8⟩] [⟨0xa2#8, 1#8, 0x333333#32, 0#8, 0#8, 0#8⟩]).tell
      (watchPort failingEcho) 3 9 ⟨(1, []), none, false⟩ =
    some (⟨(0, [0x02, 0x6f, 0x80, 0xe2, 0x01, 0x11, 0x11, 0x11, 0x00, 0x00, 0x00]), some (.other 9), false⟩, .ok (some (.other 9))) := rfl

/-- No answer at all: the time limit is a failure of the port, and the call returns it at once. -/
example : (ModemUse.single .reset).tell (watchPort (⟨fun s _ => (s + 1, none), fun s => (s, .timeout), fun s => (s, .timeout)⟩ : PlmIO Nat)) 3 9 ⟨0, none, false⟩ =
    some (⟨1, some (.wrapped .plmReadTimeout), false⟩, .ok (some (.wrapped .plmReadTimeout))) := rfl

/-! ### C207 -/

section
variable {σ : Type} (io : PlmIO σ)

theorem logged_read (s : σ) (log : List Bytes) : Plm.readPacket (logged io) (s, log) = (((Plm.readPacket io s).1, log), (Plm.readPacket io s).2) := by
  simp only [Plm.readPacket, logged]
  rcases io.rxPacket s with ⟨s2, p | _ | _⟩ <;> rfl

theorem logged_refreshLoop (retries fuel : Nat) : ∀ (s : σ) (log : List Bytes) (acc : List LinkRecord), ∃ b,
    PlmLinks.refreshLoop (Plm.asWriter (logged io)) retries fuel (s, log) acc =
      (PlmLinks.refreshLoop (Plm.asWriter io) retries fuel s acc).map fun r => ((r.1, log ++ List.replicate b [0x02#8, 0x6a#8]), r.2) := by
  induction fuel with
  | zero => intro s log acc; exact ⟨0, rfl⟩
  | succ fuel ih =>
    intro s log acc
    rw [PlmLinks.refreshLoop, PlmLinks.refreshLoop]
    simp only [Plm.asWriter, logged_read]
    rcases Plm.readPacket io s with ⟨s1, ⟨_ | pkt, _ | e⟩ | _⟩ <;> dsimp only
    · exact ⟨0, by simp⟩
    · exact ⟨0, by simp⟩
    case' succ.ret.some.some => exact ⟨0, by simp⟩
    case' succ.panic => exact ⟨0, by simp⟩
    split
    · rcases LinkRecord.unmarshalBinary LinkRecord.zero pkt.payload with ⟨l, _ | e⟩ <;> dsimp only
      case' some => exact ⟨0, by simp⟩
      obtain ⟨k, -, -, hk⟩ := logged_retry io retries false ⟨PCmd.getNextAllLink, [], 0#8⟩ s1 log
      rw [hk]
      rcases retryWrite (Plm.writePacket io) retries false s1 ⟨PCmd.getNextAllLink, [], 0#8⟩ with ⟨s2, ⟨a, _ | e⟩ | _⟩ <;> dsimp only
      · obtain ⟨b, hb⟩ := ih s2 (log ++ List.replicate k [0x02#8, 0x6a#8]) (acc ++ [l])
        refine ⟨k + b, ?_⟩
        rw [List.replicate_add, ← List.append_assoc]
        exact hb
      · exact ⟨k, rfl⟩
      · exact ⟨k, rfl⟩
    · exact ih s1 log acc

theorem logged_links (retries fuel : Nat) (s : σ) (log : List Bytes) (cached : List LinkRecord) : ∃ a b, 1 ≤ a ∧ a ≤ retries + 1 ∧
    PlmLinks.links (Plm.asWriter (logged io)) retries fuel (s, log) cached =
      (PlmLinks.links (Plm.asWriter io) retries fuel s cached).map fun r =>
        ((r.1, log ++ (List.replicate a [0x02#8, 0x69#8] ++ List.replicate b [0x02#8, 0x6a#8])), r.2) := by
  unfold PlmLinks.links PlmLinks.refresh
  obtain ⟨a, h1, h2, ha⟩ := logged_retry io retries true ⟨PCmd.getFirstAllLink, [], 0#8⟩ s log
  simp only [show (Plm.asWriter (logged io)).write = Plm.writePacket (logged io) from rfl, show (Plm.asWriter io).write = Plm.writePacket io from rfl]
  rw [ha]
  rcases retryWrite (Plm.writePacket io) retries true s ⟨PCmd.getFirstAllLink, [], 0#8⟩ with ⟨s1, ⟨_, _ | e⟩ | _⟩ <;> dsimp only
  · obtain ⟨b, hb⟩ := logged_refreshLoop io retries fuel s1 (log ++ List.replicate a [0x02#8, 0x69#8]) []
    refine ⟨a, b, h1, h2, ?_⟩
    rw [← List.append_assoc]
    rw [show List.replicate a (Packet.marshalBinary ⟨PCmd.getFirstAllLink, [], 0#8⟩) = List.replicate a [0x02#8, 0x69#8] from rfl, hb]
    rcases PlmLinks.refreshLoop (Plm.asWriter io) retries fuel s1 [] with _ | ⟨s2, ⟨ls, e⟩ | e | _⟩ <;> rfl
  · exact ⟨a, 0, h1, h2, by rw [List.replicate_zero, List.append_nil]; rfl⟩
  · exact ⟨a, 0, h1, h2, by rw [List.replicate_zero, List.append_nil]; rfl⟩

theorem record_frame (op : BitVec 8) (l : LinkRecord) :
    Packet.marshalBinary ⟨PCmd.manageAllLinkRecord, ManageRecord.marshalBinary ⟨op, l⟩, 0#8⟩ = [0x02#8, 0x6f#8, op] ++ ModemUse.recordBytes l := by
  simp only [Packet.marshalBinary, ManageRecord.marshalBinary, marshal_raw, ModemUse.recordBytes]
  rfl

theorem delete_frame (l : LinkRecord) : Packet.marshalBinary ⟨PCmd.manageAllLinkRecord, ManageRecord.marshalBinary ⟨0x80#8, l⟩, 0#8⟩ = ModemUse.deleteFrame l := record_frame _ l

theorem write_frame (l : LinkRecord) :
    Packet.marshalBinary ⟨PCmd.manageAllLinkRecord, ManageRecord.marshalBinary ⟨if l.flags.controller then 0x40#8 else 0x41#8, l⟩, 0#8⟩ = ModemUse.writeFrame l := by
  rw [record_frame]
  have : ∀ f : BitVec 8, (if RecordControlFlags.controller f then 0x40#8 else 0x41#8) = if f.toNat / 64 % 2 = 1 then 0x40#8 else 0x41#8 := by decide +kernel
  rw [this]; rfl

theorem logged_delete (s : σ) (log : List Bytes) (l : LinkRecord) : ∃ k, 1 ≤ k ∧ k ≤ 4 ∧ PlmLinks.deleteLink (Plm.asWriter (logged io)) (s, log) l =
    (((PlmLinks.deleteLink (Plm.asWriter io) s l).1, log ++ List.replicate k (ModemUse.deleteFrame l)), (PlmLinks.deleteLink (Plm.asWriter io) s l).2) := by
  rw [← delete_frame]
  exact logged_retry io 3 true _ s log

theorem logged_writeLink (s : σ) (log : List Bytes) (l : LinkRecord) : ∃ k, 1 ≤ k ∧ k ≤ 4 ∧ PlmLinks.writeLink (Plm.asWriter (logged io)) (s, log) l =
    (((PlmLinks.writeLink (Plm.asWriter io) s l).1, log ++ List.replicate k (ModemUse.writeFrame l)), (PlmLinks.writeLink (Plm.asWriter io) s l).2) := by
  rw [← write_frame]
  exact logged_retry io 3 true _ s log

theorem logged_deleteAll (ls : List LinkRecord) : ∀ (s : σ) (log : List Bytes), ∃ ds : List Nat, ds.length ≤ ls.length ∧ (∀ d ∈ ds, 1 ≤ d ∧ d ≤ 4) ∧
    ((PlmLinks.deleteAll (Plm.asWriter io) s ls).2 = .ok none → ds.length = ls.length) ∧
    PlmLinks.deleteAll (Plm.asWriter (logged io)) (s, log) ls =
      (((PlmLinks.deleteAll (Plm.asWriter io) s ls).1, log ++ (ls.zip ds).flatMap fun x => List.replicate x.2 (ModemUse.deleteFrame x.1)),
        (PlmLinks.deleteAll (Plm.asWriter io) s ls).2) := by
  induction ls with
  | nil => intro s log; exact ⟨[], by simp, by simp, by simp, by simp [PlmLinks.deleteAll]⟩
  | cons l ls ih =>
    intro s log
    rw [PlmLinks.deleteAll, PlmLinks.deleteAll]
    obtain ⟨k, h1, h2, hk⟩ := logged_delete io s log l
    rw [hk]
    rcases PlmLinks.deleteLink (Plm.asWriter io) s l with ⟨s1, ⟨a, _ | e⟩ | _⟩ <;> dsimp only
    · obtain ⟨ds, g1, g2, g3, g4⟩ := ih s1 (log ++ List.replicate k (ModemUse.deleteFrame l))
      refine ⟨k :: ds, by simpa using g1, ?_, fun h => by simpa using g3 h, ?_⟩
      · intro d hd
        rcases List.mem_cons.1 hd with rfl | hd
        · exact ⟨h1, h2⟩
        · exact g2 d hd
      · rw [g4]; simp
    · exact ⟨[k], by simp, by simp [h1, h2], by simp, by simp⟩
    · exact ⟨[k], by simp, by simp [h1, h2], by simp, by simp⟩

/-- What writing one link writes. -/
def oneWrite (l : LinkRecord) (x : Nat × Option (LinkRecord × Nat × Nat)) : List (List (BitVec 8)) :=
  List.replicate x.1 (ModemUse.writeFrame l) ++ (match x.2 with
    | none => []
    | some y => List.replicate y.2.1 (ModemUse.deleteFrame y.1) ++ List.replicate y.2.2 (ModemUse.writeFrame l))

theorem logged_writeOne (s : σ) (log : List Bytes) (l : LinkRecord) : ∃ x : Nat × Option (LinkRecord × Nat × Nat),
    (1 ≤ x.1 ∧ x.1 ≤ 4 ∧ ∀ y, x.2 = some y → 1 ≤ y.2.1 ∧ y.2.1 ≤ 4 ∧ y.2.2 ≤ 4) ∧
    PlmLinks.writeOne (Plm.asWriter (logged io)) (s, log) l =
      (((PlmLinks.writeOne (Plm.asWriter io) s l).1, log ++ oneWrite l x), (PlmLinks.writeOne (Plm.asWriter io) s l).2) := by
  unfold PlmLinks.writeOne
  obtain ⟨k, h1, h2, hk⟩ := logged_writeLink io s log l
  rw [hk]
  rcases PlmLinks.writeLink (Plm.asWriter io) s l with ⟨s1, ⟨a, _ | e⟩ | _⟩ <;> dsimp only
  · exact ⟨(k, none), ⟨h1, h2, by simp⟩, by simp [oneWrite]⟩
  · by_cases he : e = .wrongPayload
    · rw [if_pos he, if_pos he]
      rcases a with _ | ack <;> dsimp only
      · exact ⟨(k, none), ⟨h1, h2, by simp⟩, by simp [oneWrite]⟩
      · obtain ⟨d, g1, g2, hd⟩ := logged_delete io s1 (log ++ List.replicate k (ModemUse.writeFrame l)) (LinkRecord.unmarshalBinary LinkRecord.zero ack.payload).1
        rw [hd]
        rcases PlmLinks.deleteLink (Plm.asWriter io) s1 (LinkRecord.unmarshalBinary LinkRecord.zero ack.payload).1 with ⟨s2, ⟨a, _ | e⟩ | _⟩ <;> dsimp only
        · obtain ⟨c, c1, c2, hc⟩ := logged_writeLink io s2
            (log ++ List.replicate k (ModemUse.writeFrame l) ++ List.replicate d (ModemUse.deleteFrame (LinkRecord.unmarshalBinary LinkRecord.zero ack.payload).1)) l
          rw [hc]
          refine ⟨(k, some ((LinkRecord.unmarshalBinary LinkRecord.zero ack.payload).1, d, c)), ⟨h1, h2, ?_⟩, ?_⟩
          · intro y hy
            simp only [Option.some.injEq] at hy
            rw [← hy]; exact ⟨g1, g2, c2⟩
          · rcases PlmLinks.writeLink (Plm.asWriter io) s2 l with ⟨s3, ⟨a, e⟩ | _⟩ <;> simp [oneWrite]
        all_goals
          refine ⟨(k, some ((LinkRecord.unmarshalBinary LinkRecord.zero ack.payload).1, d, 0)), ⟨h1, h2, ?_⟩, by simp [oneWrite]⟩
          intro y hy
          simp only [Option.some.injEq] at hy
          rw [← hy]; exact ⟨g1, g2, Nat.zero_le _⟩
    · rw [if_neg he, if_neg he]
      exact ⟨(k, none), ⟨h1, h2, by simp⟩, by simp [oneWrite]⟩
  · exact ⟨(k, none), ⟨h1, h2, by simp⟩, by simp [oneWrite]⟩

theorem logged_writeAll (ls : List LinkRecord) : ∀ (s : σ) (log : List Bytes) (cached : List LinkRecord), ∃ ws : List (Nat × Option (LinkRecord × Nat × Nat)),
    ws.length ≤ ls.length ∧ (∀ w ∈ ws, 1 ≤ w.1 ∧ w.1 ≤ 4 ∧ ∀ x, w.2 = some x → 1 ≤ x.2.1 ∧ x.2.1 ≤ 4 ∧ x.2.2 ≤ 4) ∧
    ((∃ c, (PlmLinks.writeAll (Plm.asWriter io) s cached ls).2 = .ok (c, none)) → ws.length = ls.length) ∧
    PlmLinks.writeAll (Plm.asWriter (logged io)) (s, log) cached ls =
      (((PlmLinks.writeAll (Plm.asWriter io) s cached ls).1, log ++ (ls.zip ws).flatMap fun x => oneWrite x.1 x.2), (PlmLinks.writeAll (Plm.asWriter io) s cached ls).2) := by
  induction ls with
  | nil => intro s log cached; exact ⟨[], by simp, by simp, by simp, by simp [PlmLinks.writeAll]⟩
  | cons l ls ih =>
    intro s log cached
    rw [PlmLinks.writeAll, PlmLinks.writeAll]
    obtain ⟨x, hx, hk⟩ := logged_writeOne io s log l
    rw [hk]
    rcases PlmLinks.writeOne (Plm.asWriter io) s l with ⟨s1, (_ | e) | e | _⟩ <;> dsimp only
    · obtain ⟨ws, g1, g2, g3, g4⟩ := ih s1 (log ++ oneWrite l x) (cached ++ [l])
      refine ⟨x :: ws, by simpa using g1, ?_, fun h => by simpa using g3 h, ?_⟩
      · intro d hd
        rcases List.mem_cons.1 hd with rfl | hd
        · exact hx
        · exact g2 d hd
      · rw [g4]; simp
    all_goals
      refine ⟨[x], by simp, ?_, by simp, by simp⟩
      intro w hw
      simp only [List.mem_singleton] at hw
      rw [hw]; exact hx

theorem logged_info (retries : Nat) (s : σ) (log : List Bytes) : ∃ k, 1 ≤ k ∧ k ≤ retries + 1 ∧
    Plm.info (logged io) retries (s, log) = (((Plm.info io retries s).1, log ++ List.replicate k [0x02#8, 0x60#8]), (Plm.info io retries s).2) := by
  obtain ⟨k, h1, h2, h3⟩ := logged_retry io retries true ⟨PCmd.getInfo, [], 0#8⟩ s log
  refine ⟨k, h1, h2, ?_⟩
  simp only [Plm.info, h3]
  rcases retryWrite (Plm.writePacket io) retries true s ⟨PCmd.getInfo, [], 0#8⟩ with ⟨s1, ⟨_ | a, _ | e⟩ | _⟩ <;> try rfl
  dsimp only
  rcases Info.unmarshalBinary a.payload with i | e | _ <;> rfl

theorem logged_config (retries : Nat) (s : σ) (log : List Bytes) : ∃ k, 1 ≤ k ∧ k ≤ retries + 1 ∧
    Plm.config (logged io) retries (s, log) = (((Plm.config io retries s).1, log ++ List.replicate k [0x02#8, 0x73#8]), (Plm.config io retries s).2) := by
  obtain ⟨k, h1, h2, h3⟩ := logged_retry io retries true ⟨PCmd.getConfig, [], 0#8⟩ s log
  refine ⟨k, h1, h2, ?_⟩
  simp only [Plm.config, h3]
  rcases retryWrite (Plm.writePacket io) retries true s ⟨PCmd.getConfig, [], 0#8⟩ with ⟨s1, ⟨_ | a, _ | e⟩ | _⟩ <;> rfl

theorem logged_address (retries : Nat) (s : σ) (cached : Address) : ∃ fs,
    (if cached = 0#32 then ∃ k, 1 ≤ k ∧ k ≤ retries + 1 ∧ fs = List.replicate k [0x02#8, 0x60#8] else fs = []) ∧
    Plm.address (logged io) retries (s, []) cached = (((Plm.address io retries s cached).1, fs), (Plm.address io retries s cached).2) := by
  unfold Plm.address
  by_cases hc : cached = 0#32
  · obtain ⟨k, h1, h2, h3⟩ := logged_info io retries s []
    refine ⟨_, by rw [if_pos hc]; exact ⟨k, h1, h2, rfl⟩, ?_⟩
    rw [if_pos hc, if_pos hc, h3]
    rcases Plm.info io retries s with ⟨s1, ⟨_ | i, _ | e⟩ | e | _⟩ <;> rfl
  · refine ⟨[], by rw [if_neg hc], ?_⟩
    rw [if_neg hc, if_neg hc]

end

/-- The same loop with a count: every record read is followed by a request for the next one. -/
theorem counted_refreshLoop {σ : Type} (io : PlmIO σ) (retries fuel : Nat) : ∀ (s : σ) (log : List Bytes) (acc : List LinkRecord) (w : σ) (ls : List LinkRecord) (e : Err),
    PlmLinks.refreshLoop (Plm.asWriter io) retries fuel s acc = some (w, .ok (ls, e)) →
    ∃ n b, ls.length = acc.length + n ∧ n ≤ b ∧ b ≤ n * (retries + 1) ∧
      PlmLinks.refreshLoop (Plm.asWriter (logged io)) retries fuel (s, log) acc = some ((w, log ++ List.replicate b [0x02#8, 0x6a#8]), .ok (ls, e)) := by
  induction fuel with
  | zero => intro s log acc w ls e h; simp [PlmLinks.refreshLoop] at h
  | succ fuel ih =>
    intro s log acc w ls e h
    rw [PlmLinks.refreshLoop] at h ⊢
    simp only [Plm.asWriter, logged_read] at h ⊢
    rcases hr : Plm.readPacket io s with ⟨s1, ⟨_ | pkt, _ | e1⟩ | _⟩ <;> rw [hr] at h <;> dsimp only at h ⊢
    · simp at h
    · simp only [Option.some.injEq, Prod.mk.injEq, Out.ok.injEq] at h
      obtain ⟨rfl, rfl, rfl⟩ := h
      exact ⟨0, 0, rfl, Nat.le_refl _, Nat.zero_le _, by simp⟩
    case' succ.ret.some.some =>
      simp only [Option.some.injEq, Prod.mk.injEq, Out.ok.injEq] at h
      obtain ⟨rfl, rfl, rfl⟩ := h
      exact ⟨0, 0, rfl, Nat.le_refl _, Nat.zero_le _, by simp⟩
    case' succ.panic => simp at h
    split at h <;> rename_i hc
    · rw [if_pos hc]
      rcases hl : LinkRecord.unmarshalBinary LinkRecord.zero pkt.payload with ⟨l, _ | e1⟩ <;> rw [hl] at h <;> dsimp only at h ⊢
      case' some =>
        simp only [Option.some.injEq, Prod.mk.injEq, Out.ok.injEq] at h
        obtain ⟨rfl, rfl, rfl⟩ := h
        exact ⟨0, 0, rfl, Nat.le_refl _, Nat.zero_le _, by simp⟩
      obtain ⟨k, k1, k2, hk⟩ := logged_retry io retries false ⟨PCmd.getNextAllLink, [], 0#8⟩ s1 log
      rw [hk]
      rcases hw : retryWrite (Plm.writePacket io) retries false s1 ⟨PCmd.getNextAllLink, [], 0#8⟩ with ⟨s2, ⟨a, _ | e1⟩ | _⟩ <;> rw [hw] at h <;> dsimp only at h ⊢
      · obtain ⟨n, b, h1, h2, h3, hb⟩ := ih s2 (log ++ List.replicate k [0x02#8, 0x6a#8]) (acc ++ [l]) w ls e h
        refine ⟨n + 1, k + b, by rw [h1, List.length_append, List.length_singleton]; omega, by omega, by rw [Nat.succ_mul]; omega, ?_⟩
        rw [List.replicate_add, ← List.append_assoc]
        exact hb
      · simp only [Option.some.injEq, Prod.mk.injEq, Out.ok.injEq] at h
        obtain ⟨rfl, rfl, rfl⟩ := h
        exact ⟨1, k, by simp, k1, by omega, rfl⟩
      · simp at h
    · rw [if_neg hc]
      exact ih s1 log acc w ls e h

/-- C207: when reading the links succeeds, the first link has been asked for, and for every link returned the next one, once and at most as often as the retries allow. -/
theorem links_requests {σ : Type} (io : PlmIO σ) (retries fuel : Nat) (s : σ) (cached : List LinkRecord) (w : σ) (ls : List LinkRecord)
    (h : PlmLinks.links (Plm.asWriter io) retries fuel s cached = some (w, .ok (ls, none))) :
    ∃ a b, 1 ≤ a ∧ a ≤ retries + 1 ∧ ls.length ≤ b ∧ b ≤ ls.length * (retries + 1) ∧
      PlmLinks.links (Plm.asWriter (logged io)) retries fuel (s, []) cached =
        some ((w, List.replicate a [0x02, 0x69] ++ List.replicate b [0x02, 0x6a]), .ok (ls, none)) := by
  unfold PlmLinks.links PlmLinks.refresh at h ⊢
  obtain ⟨a, h1, h2, ha⟩ := logged_retry io retries true ⟨PCmd.getFirstAllLink, [], 0#8⟩ s []
  simp only [show (Plm.asWriter (logged io)).write = Plm.writePacket (logged io) from rfl, show (Plm.asWriter io).write = Plm.writePacket io from rfl] at h ⊢
  rw [ha]
  rcases hw : retryWrite (Plm.writePacket io) retries true s ⟨PCmd.getFirstAllLink, [], 0#8⟩ with ⟨s1, ⟨_, _ | e⟩ | _⟩ <;> rw [hw] at h <;> dsimp only at h ⊢
  · rcases hl : PlmLinks.refreshLoop (Plm.asWriter io) retries fuel s1 [] with _ | ⟨s2, ⟨ls2, e⟩ | e | _⟩ <;> rw [hl] at h <;> dsimp only at h
    · simp at h
    · obtain ⟨n, b, n1, n2, n3, hb⟩ := counted_refreshLoop io retries fuel s1 (List.replicate a [0x02#8, 0x69#8]) [] s2 ls2 e hl
      simp only [Option.some.injEq, Prod.mk.injEq, Out.ok.injEq] at h
      obtain ⟨rfl, h⟩ := h
      by_cases he : e = .plmNak
      · rw [if_pos he] at h
        obtain rfl := (Prod.mk.inj h).1
        refine ⟨a, b, h1, h2, by simpa [n1] using n2, by simpa [n1] using n3, ?_⟩
        rw [show [] ++ List.replicate a (Packet.marshalBinary ⟨PCmd.getFirstAllLink, [], 0#8⟩) = List.replicate a [0x02#8, 0x69#8] from rfl, hb]
        simp [he]
      · rw [if_neg he] at h
        exact absurd (Prod.mk.inj h).2 (by simp)
    · simp at h
    · simp at h
  · simp only [Option.some.injEq, Prod.mk.injEq, Out.ok.injEq] at h
    obtain ⟨rfl, h⟩ := h
    by_cases he : e = .plmNak
    · rw [if_pos he] at h
      obtain rfl := (Prod.mk.inj h).1
      refine ⟨a, 0, h1, h2, Nat.le_refl _, Nat.zero_le _, ?_⟩
      rw [List.replicate_zero, List.append_nil, if_pos he]; rfl
    · rw [if_neg he] at h
      exact absurd (Prod.mk.inj h).2 (by simp)
  · simp at h

/-- A port that gives what it holds, packet by packet. -/
def handsOut : PlmIO (List Packet) where
  tx s _ := (s, none)
  rxPacket s := match s with
    | p :: s => (s, .packet p)
    | [] => ([], .timeout)
  rxMsg s := (s, .timeout)

/-- Two links returned, two requests for the next one. -/
example : PlmLinks.links (Plm.asWriter (logged handsOut)) 1 9
      ([⟨0x69, [], 0x06⟩, ⟨0x57, [0xe2, 1, 0x11, 0x22, 0x33, 0, 0, 0], 0⟩, ⟨0x6a, [], 0x06⟩, ⟨0x57, [0xa2, 2, 0x44, 0x55, 0x66, 0, 0, 0], 0⟩, ⟨0x6a, [], 0x15⟩], []) [] =
    some (([], [[0x02, 0x69], [0x02, 0x6a], [0x02, 0x6a]]), .ok ([⟨0xe2, 1, 0x112233, 0, 0, 0⟩, ⟨0xa2, 2, 0x445566, 0, 0, 0⟩], none)) := by
  decide +kernel

/-- C207: whatever the port does, a call on the modem writes the frames of the protocol that belong to it, in their order and each at most as often as the retries allow, and
nothing else; a call that succeeds has written all of them. Writing them down does not change what happens. -/
theorem modem_writes {σ : Type} (io : PlmIO σ) (retries fuel : Nat) (s : σ) (u : ModemUse) (w : σ) (r : Out (Option Err)) (h : u.tell io retries fuel s = some (w, r)) :
    ∃ fs, u.Writes retries (r = .ok none) fs ∧ u.tell (logged io) retries fuel (s, []) = some ((w, fs), r) := by
  cases u with
  | single c =>
    simp only [ModemUse.tell, Option.some.injEq] at h
    obtain ⟨k, h1, h2, h3, -⟩ := modem_command_bytes io retries c s []
    refine ⟨_, ⟨k, h1, h2, rfl⟩, ?_⟩
    simp only [ModemUse.tell]
    rw [h3, h]; rfl
  | address cached =>
    simp only [ModemUse.tell, DeviceCall.tells, Option.some.injEq] at h
    obtain ⟨fs, h1, h2⟩ := logged_address io retries s cached
    refine ⟨fs, h1, ?_⟩
    simp only [ModemUse.tell, DeviceCall.tells]
    rw [h2, ← (Prod.mk.inj h).1, ← (Prod.mk.inj h).2]
  | text cached =>
    simp only [ModemUse.tell, Option.some.injEq] at h
    obtain ⟨fs, h1, h2⟩ := logged_address io retries s cached
    refine ⟨fs, h1, ?_⟩
    simp only [ModemUse.tell, Plm.string] at h ⊢
    rw [h2, ← (Prod.mk.inj h).1, ← (Prod.mk.inj h).2]
    rcases Plm.address io retries s cached with ⟨s1, a | e | _⟩ <;> rfl
  | readPacket =>
    simp only [ModemUse.tell, Option.some.injEq, Prod.mk.injEq] at h
    refine ⟨[], rfl, ?_⟩
    simp only [ModemUse.tell, logged_read, h.1, h.2]
  | links c =>
    obtain ⟨a, b, h1, h2, h3⟩ := logged_links io retries fuel s [] c
    refine ⟨_, ⟨a, b, h1, h2, rfl⟩, ?_⟩
    simp only [ModemUse.tell, DeviceCall.tellsLate] at h ⊢
    rw [h3]
    rcases hL : PlmLinks.links (Plm.asWriter io) retries fuel s c with _ | ⟨s1, r1⟩ <;> rw [hL] at h
    · simp at h
    · simp only [Option.map_some, Option.some.injEq, Prod.mk.injEq] at h ⊢
      exact ⟨⟨h.1, by simp⟩, h.2⟩
  | linkedDevices c =>
    obtain ⟨a, b, h1, h2, h3⟩ := logged_links io retries fuel s [] c
    refine ⟨_, ⟨a, b, h1, h2, rfl⟩, ?_⟩
    simp only [ModemUse.tell, DeviceCall.tellsLate, PlmLinks.iterateDevices] at h ⊢
    rw [h3]
    rcases hL : PlmLinks.links (Plm.asWriter io) retries fuel s c with _ | ⟨s1, ⟨ls, _ | e⟩ | e | _⟩ <;> rw [hL] at h
    · simp at h
    all_goals
      simp only [Option.map_some, Option.some.injEq, Prod.mk.injEq] at h ⊢
      exact ⟨⟨h.1, by simp⟩, h.2⟩
  | writeLinks c g =>
    simp only [ModemUse.tell, DeviceCall.tells, Option.some.injEq, PlmLinks.writeLinks] at h ⊢
    obtain ⟨ds, d1, d2, d3, d4⟩ := logged_deleteAll io c s []
    rw [d4]
    rcases hx : PlmLinks.deleteAll (Plm.asWriter io) s c with ⟨s1, (_ | e) | e | _⟩ <;> rw [hx] at h d3 <;> dsimp only at h d3 ⊢
    · obtain ⟨ws, w1, w2, w3, w4⟩ := logged_writeAll io g s1 ([] ++ (c.zip ds).flatMap fun x => List.replicate x.2 (ModemUse.deleteFrame x.1)) []
      refine ⟨_, ⟨ds, ws, d1, w1, fun _ => d3 rfl, d2, w2, fun hr => ⟨d3 rfl, w3 ?_⟩, rfl⟩, ?_⟩
      · have := (Prod.mk.inj h).2
        rw [hr] at this
        rcases hy : (PlmLinks.writeAll (Plm.asWriter io) s1 [] g).2 with ⟨v, e⟩ | e | _ <;> rw [hy] at this <;> simp [errorAmong] at this
        exact ⟨v, by rw [this]⟩
      · rw [w4, ← (Prod.mk.inj h).1, ← (Prod.mk.inj h).2]
        rfl
    all_goals
      refine ⟨_, ⟨ds, [], d1, by simp, by simp, d2, by simp, ?_, rfl⟩, ?_⟩
      · intro hr
        have := (Prod.mk.inj h).2
        rw [hr] at this
        simp [errorAmong] at this
      · rw [← (Prod.mk.inj h).1, ← (Prod.mk.inj h).2]
        simp
  | report sort c =>
    obtain ⟨a, a1, a2, a3⟩ := logged_info io retries s []
    simp only [ModemUse.tell, plmInfoCmd] at h ⊢
    rw [a3]
    rcases hI : Plm.info io retries s with ⟨s1, ⟨_ | i, _ | e⟩ | e | _⟩ <;> rw [hI] at h <;> dsimp only at h ⊢
    case report.ok.some.none =>
      obtain ⟨b, b1, b2, b3⟩ := logged_config io retries s1 ([] ++ List.replicate a [0x02#8, 0x60#8])
      rw [b3]
      rcases hC : Plm.config io retries s1 with ⟨s2, ⟨cf, _ | e⟩ | e | _⟩ <;> rw [hC] at h <;> dsimp only at h ⊢
      case ok.none =>
        obtain ⟨x, y, c1, c2, c3⟩ := logged_links io retries fuel s2 ([] ++ List.replicate a [0x02#8, 0x60#8] ++ List.replicate b [0x02#8, 0x73#8]) c
        rw [c3]
        refine ⟨_, ⟨a, b, x, y, a1, a2, b2, c2, fun _ => ⟨b1, c1⟩, rfl⟩, ?_⟩
        rcases hL : PlmLinks.links (Plm.asWriter io) retries fuel s2 c with _ | ⟨s3, ⟨ls, _ | e⟩ | e | _⟩ <;> rw [hL] at h <;> dsimp only at h ⊢
        · simp at h
        all_goals
          simp only [Option.map_some, Option.some.injEq, Prod.mk.injEq] at h ⊢
          exact ⟨⟨h.1, by simp⟩, h.2⟩
      all_goals
        simp only [Option.map_some, Option.some.injEq, Prod.mk.injEq] at h ⊢
        refine ⟨_, ⟨a, b, 0, 0, a1, a2, b2, Nat.zero_le _, fun hr => ?_, rfl⟩, ⟨h.1, by simp⟩, h.2⟩
        rw [← h.2] at hr; simp at hr
    all_goals
      simp only [Option.map_some, Option.some.injEq, Prod.mk.injEq] at h ⊢
      refine ⟨_, ⟨a, 0, 0, 0, a1, a2, Nat.zero_le _, Nat.zero_le _, fun hr => ?_, rfl⟩, ⟨h.1, by simp⟩, h.2⟩
      rw [← h.2] at hr; simp at hr

/-- A modem that refuses the first request and repeats the others, but has got another link at the third request. -/
def mixingUp : PlmIO (Nat × Bytes) where
  tx s b := ((s.1 + 1, b), none)
  rxPacket s := match s with
    | (1, _ :: c :: p) => (s, .packet ⟨c, p, 0x15#8⟩)
    | (3, _ :: c :: op :: fl :: _ :: p) => (s, .packet ⟨c, op :: fl :: 0x07#8 :: p, 0x06#8⟩)
    | (_, _ :: c :: p) => (s, .packet ⟨c, p, 0x06#8⟩)
    | _ => (s, .timeout)
  rxMsg s := (s, .timeout)

/-- One link is deleted at the second attempt. Writing the new one is repeated after what the modem has got instead has been deleted, except that it deletes a record which
is all wrong: the answer of the modem begins with the control code. -/
example : ((ModemUse.writeLinks [⟨0xe2#8, 1#8, 0x111111#32, 0#8, 0#8, 0#8⟩] [⟨0xa2#8, 1#8, 0x333333#32, 0#8, 0#8, 0#8⟩]).tell (logged mixingUp) 3 9 ((0, []), [])).map
      (fun r => (r.1.2, r.2)) =
    some ([[0x02, 0x6f, 0x80, 0xe2, 0x01, 0x11, 0x11, 0x11, 0x00, 0x00, 0x00], [0x02, 0x6f, 0x80, 0xe2, 0x01, 0x11, 0x11, 0x11, 0x00, 0x00, 0x00],
      [0x02, 0x6f, 0x41, 0xa2, 0x01, 0x33, 0x33, 0x33, 0x00, 0x00, 0x00], [0x02, 0x6f, 0x80, 0x41, 0xa2, 0x07, 0x33, 0x33, 0x33, 0x00, 0x00],
      [0x02, 0x6f, 0x41, 0xa2, 0x01, 0x33, 0x33, 0x33, 0x00, 0x00, 0x00]], .ok none) := rfl

end Insteon
