import Verif.Spec.IcPlmEnds
import Verif.Props.IcEnds

/-
Property C201: the commands of ic for the modem end.
-/

namespace Insteon
open Spec

section
variable {σ : Type}

/-- Opening a device gives one if there is no error or the device is not linked. -/
theorem open_gives (f : FileFault) (db db' : FileDb) (io : MsgIO σ) (fuel : Nat) (s s' : σ) (addr : Address) (filters : List (MsgIO σ → MsgIO σ))
    (dev : Option (DeviceInfo × MsgIO σ)) (err : Option Err) (h : db.openDevice f io fuel s addr filters = some (s', db', .ok (dev, err)))
    (he : err = none ∨ err = some .notLinked) : ∃ info, dev = some (info, io) := by
  have saved : ∀ (d : FileDb) (e : Option Err), (FileDb.save f d e).2 = none ∨ (FileDb.save f d e).2 = some .notLinked → e = none ∨ e = some .notLinked := by
    intro d e hx
    unfold FileDb.save at hx
    split_ifs at hx with hc
    · exact Or.inl hc.1
    · exact hx
  unfold FileDb.openDevice MemDb.openDevice at h
  rcases hg : db.mem.get addr with _ | info <;> rw [hg] at h <;> dsimp only [applyFilters] at h
  · rcases ho : Dev.open io fuel s addr with _ | ⟨s1, ⟨d, i, e⟩ | e | _⟩ <;> rw [ho] at h <;> dsimp only at h
    · simp at h
    · have hd : e = none ∨ e = some .notLinked → d = true := by
        intro hx
        unfold Dev.open at ho
        rcases hv : getEngineVersion io s addr with ⟨t, ⟨v, _ | x⟩ | x | _⟩ <;> rw [hv] at ho <;> dsimp only at ho
        · rcases hi : idRequest io fuel t addr with _ | ⟨t2, ⟨fw, cat, _ | x⟩ | x | _⟩ <;> rw [hi] at ho <;> simp at ho
          · exact ho.2.1
          · obtain ⟨-, h1, -, h2⟩ := ho
            subst h2
            simp at hx
            rw [← h1]; simp [hx]
        · simp at ho
          obtain ⟨-, h1, -, h2⟩ := ho
          subst h2
          simp at hx
          rw [← h1]; simp [hx]
        · simp at ho
        · simp at ho
      rcases hp : (if e = none then db.mem.put i else some db.mem) with _ | mem <;> rw [hp] at h <;> dsimp only at h
      · simp at h
      · simp only [Option.some.injEq, Prod.mk.injEq, Out.ok.injEq] at h
        obtain ⟨-, -, h1, h2⟩ := h
        have := hd (saved _ _ (by rw [h2]; exact he))
        rw [this] at h1
        exact ⟨i, h1.symm⟩
    · simp at h
    · simp at h
  · simp only [Option.some.injEq, Prod.mk.injEq, Out.ok.injEq] at h
    exact ⟨info, h.2.2.1.symm⟩

/-- A party whose calls return. -/
structure Reliable (ok : σ → Prop) (left : σ → Nat) (p : LinkTimed.Party σ) : Prop where
  link : ∀ s g, ok s → Fine ok left s (p.enterLinkingMode s g)
  unlink : ∀ s g, ok s → Fine ok left s (p.enterUnlinkingMode s g)
  exit : ∀ s, ok s → Fine ok left s (p.exitLinkingMode s)

variable {ok : σ → Prop} {left : σ → Nat} {Hears : Message → Prop} {io : MsgIO σ}

theorem device_reliable (h : Orderly io ok left Hears) (info : DeviceInfo) (sleep : Nat → σ → σ) (hsl : ∀ t s, ok s → ok (sleep t s) ∧ left (sleep t s) ≤ left s) :
    Reliable ok left (LinkTimed.Party.device info io sleep) := by
  have mode : ∀ s c p, ok s → Fine ok left s (LinkTimed.linkingMode info io sleep s c p) := by
    intro s c p hs
    obtain ⟨s1, v, h1, h2, h3⟩ := h.sendCommand info s hs c p
    unfold LinkTimed.linkingMode
    rw [h1]
    rcases v with _ | e
    · obtain ⟨g1, g2⟩ := hsl LinkTimed.linkingModeWaitTime s1 h2
      exact ⟨_, _, rfl, g1, by omega⟩
    · exact ⟨_, _, rfl, h2, h3⟩
  refine ⟨fun s g hs => ?_, fun s g hs => ?_, fun s hs => ?_⟩
  · simp only [LinkTimed.Party.device, LinkTimed.enterLinkingMode]
    split_ifs <;> exact mode _ _ _ hs
  · exact mode _ _ _ hs
  · exact h.sendCommand info s hs _ _

theorem session_fine (c r : LinkTimed.Party σ) (hc : Reliable ok left c) (hr : Reliable ok left r) (g : Group) (s : σ) (hs : ok s) :
    Fine ok left s (LinkTimed.session g c r s) := by
  obtain ⟨s1, v1, h1, h2, h3⟩ := hr.link s g hs
  obtain ⟨s2, v2, g1, g2, g3⟩ := hc.exit s1 h2
  obtain ⟨s3, v3, k1, k2, k3⟩ := hr.exit s2 g2
  unfold LinkTimed.session
  rw [h1]
  dsimp only
  rw [g1]
  dsimp only
  rw [k1]
  exact ⟨_, _, rfl, k2, by omega⟩

theorem forceLink_fine (c r : LinkTimed.Party σ) (hc : Reliable ok left c) (hr : Reliable ok left r) (g : Group) (s : σ) (hs : ok s) :
    Fine ok left s (LinkTimed.forceLink g c r s) := by
  obtain ⟨s1, v1, h1, h2, h3⟩ := hc.link s g hs
  unfold LinkTimed.forceLink
  rw [h1]
  rcases v1 with _ | e
  · obtain ⟨s2, v2, g1, g2, g3⟩ := session_fine c r hc hr g s1 h2
    exact ⟨_, _, g1, g2, by omega⟩
  · exact ⟨_, _, rfl, h2, h3⟩

theorem linkBoth_fine (controller responder : Bool) (m d : LinkTimed.Party σ) (hm : Reliable ok left m) (hd : Reliable ok left d) (g : Group) (s : σ) (hs : ok s) :
    Fine ok left s (LinkTimed.linkBoth controller responder g m d s) := by
  have first : Fine ok left s (if controller then LinkTimed.forceLink g m d s else (s, .ok none)) := by
    split_ifs
    · exact forceLink_fine m d hm hd g s hs
    · exact ⟨_, _, rfl, hs, Nat.le_refl _⟩
  obtain ⟨s1, v1, h1, h2, h3⟩ := first
  unfold LinkTimed.linkBoth
  dsimp only
  rw [h1]
  rcases v1 with _ | e
  · dsimp only
    split_ifs
    · obtain ⟨s2, v2, g1, g2, g3⟩ := forceLink_fine d m hd hm g s1 h2
      exact ⟨_, _, g1, g2, by omega⟩
    · exact ⟨_, _, rfl, h2, h3⟩
  · exact ⟨_, _, rfl, h2, h3⟩

theorem linkCmd_settled (h : Orderly io ok left Hears) (f : FileFault) (fuel : Nat) (sleep : Nat → σ → σ)
    (hsl : ∀ t s, ok s → ok (sleep t s) ∧ left (sleep t s) ≤ left s) (filters : List (MsgIO σ → MsgIO σ)) (modem : LinkTimed.Party σ) (hm : Reliable ok left modem)
    (controller responder : Bool) (g : Group) (addrs : List Address) (db : FileDb) (hn : db.mem.nilMap = false) (s : σ) (hs : ok s) (hl : left s < fuel) :
    ∃ s' db' t v, IcPlm.linkCmd f io fuel sleep filters modem controller responder g addrs db s = some (s', db', t, v) ∧ v ≠ .panic := by
  induction addrs generalizing s db with
  | nil => exact ⟨_, _, _, _, rfl, by simp⟩
  | cons a rest ih =>
    obtain ⟨s1, db1, dev, err, h1, h2, h3, h4, -⟩ := h.openDevice f db hn fuel s hs hl a filters
    rw [IcPlm.linkCmd, h1]
    dsimp only
    by_cases he : err = none ∨ err = some .notLinked
    · rw [if_pos he]
      obtain ⟨info, rfl⟩ := open_gives f db db1 io fuel s s1 a filters dev err h1 he
      obtain ⟨s2, v, g1, -⟩ := linkBoth_fine controller responder modem _ hm (device_reliable h info sleep hsl) g s1 h2
      dsimp only
      rw [g1]
      exact ⟨_, _, _, _, rfl, by simp⟩
    · rw [if_neg he]
      obtain ⟨s2, db2, t, v, g1, g2⟩ := ih db1 h4 s1 h2 (by omega)
      rw [g1]
      exact ⟨_, _, _, _, rfl, g2⟩

end

section
variable {G : Packet → Prop} {n fuel : Nat} {fails : List Bytes → Option Nat}

theorem modem_reliable : Reliable (fun s => Ready G n s ∧ messagesLeft s < fuel) messagesLeft (LinkTimed.Party.modem (Live.faulty fails)) := by
  have hw : ∀ (s : Live) (pkt : Packet), Ready G n s ∧ messagesLeft s < fuel →
      Fine (fun s => Ready G n s ∧ messagesLeft s < fuel) messagesLeft s (LinkTimed.modemError (Plm.writePacket (Live.faulty fails) s pkt)) := by
    intro s pkt hs
    obtain ⟨s1, a, e, h1, h2, h3, -⟩ := write_ready (fails := fails) s hs.1 pkt
    have := h3.1
    have := hs.2
    rw [h1]
    exact ⟨_, _, rfl, ⟨h2, by omega⟩, h3.1⟩
  exact ⟨fun s g hs => hw s _ hs, fun s g hs => hw s _ hs, fun s hs => hw s _ hs⟩

theorem sleeping_ready (arrives : Nat → Live → Nat) (t : Nat) (s : Live) (h : Ready G n s ∧ messagesLeft s < fuel) :
    (Ready G n (IcModemCommand.sleeping arrives t s) ∧ messagesLeft (IcModemCommand.sleeping arrives t s) < fuel) ∧
      messagesLeft (IcModemCommand.sleeping arrives t s) ≤ messagesLeft s := by
  unfold IcModemCommand.sleeping
  generalize arrives t s = k
  induction k generalizing s with
  | zero => exact ⟨h, Nat.le_refl _⟩
  | succ k ih =>
    obtain ⟨h1, h2⟩ := h
    obtain ⟨g1, g2, -⟩ := feed_steady G s h1.steady
    obtain ⟨g3, g4⟩ := feed_furnished n s h1.furnished
    obtain ⟨k1, k2⟩ := ih s.feed ⟨⟨g1, g3⟩, by omega⟩
    rw [Function.iterate_succ_apply]
    exact ⟨k1, by omega⟩

end

/-- C201: whatever bytes the serial line brings and whichever writes to it fail, the commands of `ic plm` end once the line is silent: with an error or without, not by a crash. This is not so for those
that link devices with a database file that contains `null` (`plm_crash_refuted`). -/
theorem plm_ends_partial (sort : List LinkRecord → List LinkRecord) (f : FileFault) (filters : List (MsgIO Live → MsgIO Live)) (arrives : Nat → Live → Nat)
    (fails : List Bytes → Option Nat) (retries fuel : Nat) (slots : List Bytes) (hf : 11 * slots.length < fuel) (db : FileDb) (hn : db.mem.nilMap = false) (c : IcModemCommand) :
    ∃ live' db' text r, c.exec sort f filters arrives fails retries fuel db (Live.init slots) = some (live', db', text, r) ∧ r ≠ .panic := by
  obtain ⟨h1, h2⟩ := init_ready (fun _ => True) slots (by simp)
  have hq := live_orderly_ready _ (11 * slots.length) _ _ _ (live_orderly (fails := fails) (fun _ => True) retries fuel)
  have once : ∀ r : Live × Out (Option Err), Back (fun _ => True) (11 * slots.length) (Live.init slots) r →
      ∃ live' db' text v, IcModemCommand.silent db r = some (live', db', text, v) ∧ v ≠ .panic := by
    rintro ⟨s1, r⟩ ⟨-, -, x, h3⟩
    dsimp only at h3
    subst h3
    exact ⟨_, _, _, _, rfl, by simp⟩
  have flag : ∀ set fl, Back (fun _ => True) (11 * slots.length) (Live.init slots) (Ic.flagCmd (Live.faulty fails) retries set fl (Live.init slots)) := by
    intro set fl
    obtain ⟨g1, g2, ⟨c, e⟩, g3⟩ := config_back (fails := fails) retries _ h1
    rcases hx : Plm.config (Live.faulty fails) retries (Live.init slots) with ⟨s1, r⟩
    rw [hx] at g1 g2 g3
    dsimp only at g1 g2 g3
    subst g3
    unfold Ic.flagCmd
    rw [hx]
    rcases e with _ | e
    · dsimp only
      rcases Ic.changeFlag set fl c with _ | c'
      · exact ⟨g1, g2, _, rfl⟩
      · obtain ⟨k1, k2, k3⟩ := single_back (fails := fails) retries s1 g1 (.setConfig c')
        exact ⟨k1, g2.trans k2, k3⟩
    · exact ⟨g1, g2, _, rfl⟩
  have link : ∀ ctl rsp g ds, ∃ live' db' text v, IcPlm.linkCmd f (Live.faultyMsgIO fails retries fuel) fuel (IcModemCommand.sleeping arrives) filters
      (LinkTimed.Party.modem (Live.faulty fails)) ctl rsp g ds db (Live.init slots) = some (live', db', text, v) ∧ v ≠ .panic := fun ctl rsp g ds =>
    linkCmd_settled hq f fuel _ (fun t s hs => sleeping_ready arrives t s hs) filters _ modem_reliable ctl rsp g ds db hn _ ⟨h1, by omega⟩ (by omega)
  cases c with
  | setflag fl => exact once _ (flag true fl)
  | clearflag fl => exact once _ (flag false fl)
  | edit editor =>
    obtain ⟨s1, ⟨ls, e⟩, g1, g2, -⟩ := links_back (fails := fails) retries fuel _ h1 hf []
    unfold IcModemCommand.exec Ic.plmEdit Ic.editLinks
    dsimp only
    rw [g1]
    dsimp only
    split_ifs
    · exact ⟨_, _, _, _, rfl, by simp⟩
    · rcases editor (linksToText ls true) with x | output
      · exact ⟨_, _, _, _, rfl, by simp⟩
      · dsimp only
        split_ifs
        · exact ⟨_, _, _, _, rfl, by simp⟩
        · rcases textToLinks output with ⟨new, _ | x⟩
          · dsimp only
            obtain ⟨-, -, ⟨x, y⟩, k3⟩ := rewrite_back (fails := fails) ls new s1 g2
            rcases hx : PlmLinks.writeLinks (Plm.asWriter (Live.faulty fails)) s1 ls new with ⟨s2, r⟩
            rw [hx] at k3
            dsimp only at k3
            subst k3
            exact ⟨_, _, _, _, rfl, by simp⟩
          · exact ⟨_, _, _, _, rfl, by simp⟩
  | info =>
    obtain ⟨s1, t, x, g1, -⟩ := report_back (fails := fails) sort retries fuel _ h1 hf []
    simp only [IcModemCommand.exec, g1]
    exact ⟨_, _, _, _, rfl, by simp⟩
  | reset yes =>
    refine once _ ?_
    unfold Ic.resetCmd
    split_ifs
    · exact single_back (fails := fails) retries _ h1 .reset
    · exact ⟨h1, Goes.refl _, _, rfl⟩
  | linkController g ds => exact link true false g ds
  | linkResponder g ds => exact link false true g ds
  | crosslink g ds => exact link true true g ds
  | unlink ds => exact ⟨_, _, _, _, rfl, by simp⟩
  | alllink g =>
    refine once _ ?_
    obtain ⟨s1, a, e, g1, g2, g3, -⟩ := write_ready (fails := fails) _ h1 ⟨PCmd.startAllLink, [0x03#8, g], 0#8⟩
    have : PlmLinks.enterLinkingMode (Plm.asWriter (Live.faulty fails)) (Live.init slots) g = (s1, .ret a e) := g1
    rw [this]
    exact ⟨g2, g3, _, rfl⟩

/-- Two devices are to be crosslinked, the first of which cannot be reached; the second is in the database, but a message that has nothing to do with it comes in between,
and the line falls silent while it is put into linking mode. -/
example : ∃ live' db', (IcModemCommand.crosslink 1 [0x0a0b0c, 0x010203]).exec id FileFault.none [] (fun _ _ => 1) (fun _ => none) 0 100
    ⟨⟨[(0x010203, exDimmer)], false, false⟩, none⟩
    (Live.init [[0x02, 0x62, 0x0a, 0x0b, 0x0c, 0x0f, 0x0d, 0x00, 0x15], [0x02, 0x64, 0x03, 0x01, 0x06], [0x02, 0x62, 0x01, 0x02]]) =
      some (live', db', lit "Linking to 0a.0b.0c...Linking to 01.02.03...", .ok (some (.wrapped .plmReadTimeout))) := ⟨_, _, rfl⟩

/-- A device that can be opened. -/
def exOpens : List Bytes := [[0x02, 0x62, 0x01, 0x02, 0x03, 0x0a, 0x0d, 0x00, 0x06], [0x02, 0x50, 0x01, 0x02, 0x03, 0x04, 0x05, 0x06, 0x2f, 0x0d, 0x02],
  [0x02, 0x62, 0x01, 0x02, 0x03, 0x0a, 0x10, 0x00, 0x06], [0x02, 0x50, 0x01, 0x02, 0x03, 0x04, 0x05, 0x06, 0x2f, 0x10, 0x00],
  [0x02, 0x50, 0x01, 0x02, 0x03, 0x01, 0x20, 0x43, 0x8f, 0x01, 0x00]]

/-- C201: `ic plm link` crashes if the database file contains `null` and the device can be opened. -/
theorem plm_crash_refuted : startProgram (some (lit "null")) = some ⟨⟨[], false, true⟩, some (lit "null")⟩ ∧
    ∃ live' db' text, (IcModemCommand.linkController 1 [0x010203]).exec id FileFault.none [] (fun _ _ => 0) (fun _ => none) 3 100 ⟨⟨[], false, true⟩, some (lit "null")⟩
      (Live.init exOpens) = some (live', db', text, .panic) := by
  refine ⟨by decide +kernel, _, _, _, rfl⟩

end Insteon
