import Verif.Spec.IcAsk
import Verif.Props.IcEnds
import Verif.Props.IcPlmEnds

/-
C197 with the question: the commands of ic for a device end also when the user has it linked first.
-/

namespace Insteon
open Insteon.Spec

section
variable {σ : Type} {io : MsgIO σ} {ok : σ → Prop} {left : σ → Nat} {Hears : Message → Prop}

theorem linkOne_settled (h : Orderly io ok left Hears) (f : FileFault) (fuel : Nat) (sleep : Nat → σ → σ)
    (hsl : ∀ t s, ok s → ok (sleep t s) ∧ left (sleep t s) ≤ left s) (filters : List (MsgIO σ → MsgIO σ)) (modem : LinkTimed.Party σ) (hm : Reliable ok left modem)
    (controller responder : Bool) (g : Group) (a : Address) (db : FileDb) (hn : db.mem.nilMap = false) (s : σ) (hs : ok s) (hl : left s < fuel) :
    ∃ s' db' t e, IcPlm.linkCmd f io fuel sleep filters modem controller responder g [a] db s = some (s', db', t, .ok e) ∧ ok s' ∧ left s' ≤ left s := by
  obtain ⟨s1, db1, dev, err, h1, h2, h3, h4, -⟩ := h.openDevice f db hn fuel s hs hl a filters
  rw [IcPlm.linkCmd, h1]
  dsimp only
  by_cases he : err = none ∨ err = some .notLinked
  · rw [if_pos he]
    obtain ⟨info, rfl⟩ := open_gives f db db1 io fuel s s1 a filters dev err h1 he
    obtain ⟨s2, v, g1, g2, g3⟩ := linkBoth_fine controller responder modem _ hm (device_reliable h info sleep hsl) g s1 h2
    dsimp only
    rw [g1]
    exact ⟨_, _, _, _, rfl, g2, Nat.le_trans g3 h3⟩
  · rw [if_neg he]
    exact ⟨_, _, _, _, rfl, h2, h3⟩

theorem asked_settled (h : Orderly io ok left Hears) (f : FileFault) (fuel : Nat) (sleep : Nat → σ → σ)
    (hsl : ∀ t s, ok s → ok (sleep t s) ∧ left (sleep t s) ≤ left s) (filters : List (MsgIO σ → MsgIO σ)) (modem : LinkTimed.Party σ) (hm : Reliable ok left modem)
    (answer : Bytes → Bool) (db : FileDb) (hn : db.mem.nilMap = false) (s : σ) (hs : ok s) (hl : left s < fuel) (addr : Address) :
    ∃ s' db' t dev err, IcPlm.openAsk f io fuel sleep filters modem answer db s addr = some (s', db', t, .ok (dev, err)) ∧ ok s' ∧ left s' ≤ left s ∧
      (err = none → ∃ info, dev = some (info, io)) := by
  obtain ⟨s1, db1, dev, err, h1, h2, h3, h4, -⟩ := h.openDevice f db hn fuel s hs hl addr filters
  unfold IcPlm.openAsk
  rw [h1]
  dsimp only
  split_ifs with he ha
  · obtain ⟨info, rfl⟩ := open_gives f db db1 io fuel s s1 addr filters dev err h1 (Or.inr he)
    obtain ⟨s2, db2, t, e, g1, g2, g3⟩ := linkOne_settled h f fuel sleep hsl filters modem hm true false 1#8 addr db1 h4 s1 h2 (by omega)
    rw [g1]
    exact ⟨_, _, _, _, _, rfl, g2, by omega, fun _ => ⟨info, rfl⟩⟩
  · subst he
    exact ⟨_, _, _, _, _, rfl, h2, h3, by simp⟩
  · exact ⟨_, _, _, _, _, rfl, h2, h3, fun hn => open_gives f db db1 io fuel s s1 addr filters dev err h1 (Or.inl hn)⟩

theorem command_settled (h : Orderly io ok left Hears) (sort : List LinkRecord → List LinkRecord) (fuel : Nat) (db : FileDb) (c : IcCommand)
    (hd : c.Downloads → Orderly io ok left NoReadRequests) (s : σ) (hs : ok s) (hl : left s < fuel) (dev : Option (IcDev.Opened σ)) (err : Option Err)
    (hdev : err = none → ∃ info, dev = some (info, io)) :
    ∃ s' db' t v, IcDev.run (some (s, db, .ok (dev, err))) c.init (fun d s => c.exec sort fuel d s) = some (s', db', t, v) ∧ v ≠ .panic := by
  unfold IcDev.run
  dsimp only
  rcases err with _ | e
  · obtain ⟨info, rfl⟩ := hdev rfl
    have hi : c.init (some (info, io), none) = .ok (.ok (info, io)) ∨ c.init (some (info, io), none) = .ok (.error (.other 60)) := by
      cases c <;> simp only [IcCommand.init, IcDev.initDevice, IcDev.initClass] <;> first | exact Or.inl trivial | (split_ifs <;> simp)
    rcases hi with hi | hi
    · rw [hi]
      dsimp only
      obtain ⟨s2, t, v, g1, g2⟩ := exec_settled h sort fuel info s hs hl c hd
      rw [g1]
      exact ⟨_, _, _, _, rfl, g2⟩
    · rw [hi]
      exact ⟨_, _, _, _, rfl, by simp⟩
  · have hi : c.init (dev, some e) = .ok (.error e) := by
      cases c <;> simp only [IcCommand.init, IcDev.initDevice, IcDev.initClass]
    rw [hi]
    exact ⟨_, _, _, _, rfl, by simp⟩

end

/-- C197: the commands of ic for a device end also if the user is asked whether to link the device, and whatever the answer is: the linking, the waits in it and the command
that follows end once the line is silent, with an error or without, not by a crash. With the exceptions of `ic_ends_partial`. -/
theorem ic_asked_ends_partial (sort : List LinkRecord → List LinkRecord) (f : FileFault) (filters : List (MsgIO Live → MsgIO Live)) (arrives : Nat → Live → Nat)
    (fails : List Bytes → Option Nat) (retries fuel : Nat) (slots : List Bytes) (hf : 11 * slots.length < fuel) (db : FileDb) (hn : db.mem.nilMap = false)
    (addr : Address) (answer : Bytes → Bool) (c : IcCommand) (hr : c.Downloads → ∀ b ∈ slots, ∀ p ∈ packetsIn false b, ¬ AsksForLinks p) :
    ∃ live' db' text r, c.asking sort f filters arrives fails retries fuel slots db addr answer = some (live', db', text, r) ∧ r ≠ .panic := by
  have go : ∀ {G : Packet → Prop} {Hears : Message → Prop}
      (_ : Orderly (Live.faultyMsgIO fails retries fuel) (fun s => Ready G (11 * slots.length) s ∧ messagesLeft s < fuel) messagesLeft Hears)
      (_ : c.Downloads → Orderly (Live.faultyMsgIO fails retries fuel) (fun s => Ready G (11 * slots.length) s ∧ messagesLeft s < fuel) messagesLeft NoReadRequests)
      (_ : Ready G (11 * slots.length) (Live.init slots)) (_ : messagesLeft (Live.init slots) = 11 * slots.length),
      ∃ live' db' text r, c.asking sort f filters arrives fails retries fuel slots db addr answer = some (live', db', text, r) ∧ r ≠ .panic := by
    intro G Hears hq hd h1 h2
    obtain ⟨s1, db1, t, dev, err, g1, g2, g3, g4⟩ := asked_settled hq f fuel _ (fun t s hs => sleeping_ready arrives t s hs) filters _ (modem_reliable (fails := fails))
      answer db hn _ ⟨h1, by omega⟩ (by omega) addr
    obtain ⟨s2, db2, t2, v, k1, k2⟩ := command_settled hq sort fuel db1 c hd s1 g2 (by omega) dev err g4
    unfold IcCommand.asking
    rw [g1]
    dsimp only [Option.bind_some]
    rw [k1]
    exact ⟨_, _, _, _, rfl, k2⟩
  by_cases hd : c.Downloads
  · have hq := live_orderly (fails := fails) (fun p => ¬ AsksForLinks p) retries fuel
    have hq' : Orderly (Live.faultyMsgIO fails retries fuel) (fun s => Steady (fun p => ¬ AsksForLinks p) s ∧ messagesLeft s < fuel) messagesLeft NoReadRequests :=
      ⟨fun s h => by
        obtain ⟨s1, m, e, h1, h2, h3, h4⟩ := hq.read s h
        exact ⟨s1, m, e, h1, h2, h3, fun he => ⟨(h4 he).1.imp fun x hx => ⟨hx.1, from_packet_quiet x hx.2⟩, (h4 he).2⟩⟩, hq.write⟩
    obtain ⟨h1, h2⟩ := init_ready (fun p => ¬ AsksForLinks p) slots (hr hd)
    have hq2 := live_orderly_ready _ (11 * slots.length) _ _ _ hq'
    exact go hq2 (fun _ => hq2) h1 h2
  · obtain ⟨h1, h2⟩ := init_ready (fun _ => True) slots (by simp)
    exact go (live_orderly_ready _ (11 * slots.length) _ _ _ (live_orderly (fails := fails) (fun _ => True) retries fuel)) (fun h => absurd h hd) h1 h2

/-! ### C140 as the commands run it -/

/-- C140, with what is printed and the waits: a device that is linked, or fails otherwise, is opened without a question; on no, the error stays and nothing more is done; on yes, the
device is opened again and one linking session for group 1 is run with the modem as controller, whose outcome is that of `open`; only if the device cannot be reached
any more, nothing is done and no error returned. -/
theorem open_asked_partial {σ : Type} (f : FileFault) (io : MsgIO σ) (fuel : Nat) (sleep : Nat → σ → σ) (filters : List (MsgIO σ → MsgIO σ)) (modem : LinkTimed.Party σ)
    (answer : Bytes → Bool) (db db1 : FileDb) (s s1 : σ) (addr : Address) (dev : Option (IcDev.Opened σ)) (err : Option Err) (question linking : Bytes)
    (hq : question = ascii "Device " ++ addr.string ++ ascii " is not linked to the PLM.  Link now? (y/n) ") (hl : linking = ascii "Linking to " ++ addr.string ++ ascii "...")
    (ho : db.openDevice f io fuel s addr filters = some (s1, db1, .ok (dev, err))) :
    (err ≠ some .notLinked → IcPlm.openAsk f io fuel sleep filters modem answer db s addr = some (s1, db1, [], .ok (dev, err))) ∧
    (err = some .notLinked → answer question = false → IcPlm.openAsk f io fuel sleep filters modem answer db s addr = some (s1, db1, question, .ok (dev, some .notLinked))) ∧
    (err = some .notLinked → answer question = true → ∀ s2 db2 dev2 err2, db1.openDevice f io fuel s1 addr filters = some (s2, db2, .ok (dev2, err2)) →
      (err2 = none ∨ err2 = some .notLinked → ∃ info, dev2 = some (info, io) ∧
        IcPlm.openAsk f io fuel sleep filters modem answer db s addr =
          let r := LinkTimed.forceLink 1 modem (LinkTimed.Party.device info io sleep) s2
          some (r.1, db2, question ++ linking, match r.2 with
            | .ok e => .ok (dev, e)
            | .err e => .err e
            | .panic => .panic)) ∧
      (err2 ≠ none → err2 ≠ some .notLinked → IcPlm.openAsk f io fuel sleep filters modem answer db s addr = some (s2, db2, question ++ linking, .ok (dev, none)))) := by
  have hq' : IcDev.question addr = question := hq.symm
  have hl' : lit "Linking to " ++ addr.string ++ lit "..." = linking := hl.symm
  unfold IcPlm.openAsk
  rw [ho]
  dsimp only
  rw [hq']
  refine ⟨fun he => by rw [if_neg he], fun he ha => by rw [if_pos he, ha, he]; rfl, fun he ha s2 db2 dev2 err2 ho2 => ?_⟩
  rw [if_pos he, ha, if_pos rfl, IcPlm.linkCmd, ho2]
  dsimp only
  refine ⟨fun h2 => ?_, fun h2 h3 => ?_⟩
  · obtain ⟨info, rfl⟩ := open_gives f db1 db2 io fuel s1 s2 addr filters dev2 err2 ho2 h2
    refine ⟨info, rfl, ?_⟩
    rw [if_pos h2]
    dsimp only
    rw [hl', LinkTimed.linkBoth]
    rw [if_pos rfl]
    rcases LinkTimed.forceLink 1#8 modem (LinkTimed.Party.device info io sleep) s2 with ⟨s3, (_ | e) | e | _⟩ <;> rfl
  · rw [if_neg (by rintro (h | h); exacts [h2 h, h3 h])]
    simp [IcPlm.linkCmd, hl']

/-- A device that says it is not linked. -/
def exNotLinked : List Bytes := [[0x02, 0x62, 0x01, 0x02, 0x03, 0x0a, 0x0d, 0x00, 0x06], [0x02, 0x50, 0x01, 0x02, 0x03, 0x04, 0x05, 0x06, 0xaf, 0x0d, 0xff]]

/-- `ic device 01.02.03 send`: the device is not linked, the user has it linked, and the command is sent. -/
example : ((IcCommand.device (.send 0x001101)).asking id FileFault.none [] (fun _ _ => 0) (fun _ => none) 0 100 (exNotLinked ++ exNotLinked ++
      [[0x02, 0x64, 0x03, 0x01, 0x06], [0x02, 0x62, 0x01, 0x02, 0x03, 0x1a, 0x09, 0x01] ++ List.replicate 13 0x00 ++ [0xf6, 0x06],
        [0x02, 0x50, 0x01, 0x02, 0x03, 0x04, 0x05, 0x06, 0x2f, 0x09, 0x01], [0x02, 0x65, 0x06], [0x02, 0x62, 0x01, 0x02, 0x03, 0x0f, 0x08, 0x00, 0x06],
        [0x02, 0x50, 0x01, 0x02, 0x03, 0x04, 0x05, 0x06, 0x2f, 0x08, 0x00], [0x02, 0x62, 0x01, 0x02, 0x03, 0x0f, 0x11, 0x01, 0x06],
        [0x02, 0x50, 0x01, 0x02, 0x03, 0x04, 0x05, 0x06, 0x2f, 0x11, 0x01]]) ⟨MemDb.new, none⟩ 0x010203 (fun _ => true)).map (·.2.2) =
    some (lit "Device 01.02.03 is not linked to the PLM.  Link now? (y/n) Linking to 01.02.03...", .ok none) := by decide +kernel

/-- The port breaks down after the question: the program ends with the error. -/
example : ((IcCommand.device (.send 0x001101)).asking id FileFault.none [] (fun _ _ => 0) exBreaks 0 100 exNotLinked ⟨MemDb.new, none⟩ 0x010203 (fun _ => true)).map (·.2.2) =
    some (lit "Device 01.02.03 is not linked to the PLM.  Link now? (y/n) Linking to 01.02.03...", .ok (some (.other 5))) := by decide +kernel

end Insteon
