import Verif.Model.IcDevice
import Verif.Model.Programs
import Verif.Props.ModemCalls

/-
Property C196: the walk over all devices ends.
-/

namespace Insteon
open Spec

section
variable {σ : Type} {io : MsgIO σ} {ok : σ → Prop} {left : σ → Nat} {Hears : Message → Prop}

/-- Opening gives a device unless it reports an error. -/
theorem Orderly.opens_device (h : Orderly io ok left Hears) (fuel : Nat) (s : σ) (hs : ok s) (hl : left s < fuel) (dst : Address) :
    ∃ s' dev info err, Dev.open io fuel s dst = some (s', .ok (dev, info, err)) ∧ ok s' ∧ left s' ≤ left s ∧ (err = none → dev = true) := by
  obtain ⟨s1, ⟨v, e⟩, h1, h2, h3⟩ := h.engine s hs dst
  unfold Dev.open
  rw [h1]
  rcases e with _ | e
  · obtain ⟨s2, ⟨fw, cat, e⟩, g1, g2, g3⟩ := h.ident fuel s1 h2 (by omega) dst
    dsimp only
    rw [g1]
    rcases e with _ | e <;> exact ⟨_, _, _, _, rfl, g2, by omega, by simp⟩
  · exact ⟨_, _, _, _, rfl, h2, h3, by simp⟩

theorem save_map (f : FileFault) (db : FileDb) (err : Option Err) : (FileDb.save f db err).1.mem.nilMap = db.mem.nilMap := by
  unfold FileDb.save saveDB MemDb.save
  split_ifs
  · rcases f.openErr with _ | e
    · dsimp only
      rcases f.write (some []) db.mem.marshalJSON with ⟨w, _ | e⟩ <;> rfl
    · rfl
  · rfl
  · rfl

theorem put_map (db db' : MemDb) (info : DeviceInfo) (h : db.put info = some db') : db'.nilMap = db.nilMap := by
  unfold MemDb.put at h
  split_ifs at h <;> simp only [Option.some.injEq] at h <;> subst h <;> simp

theorem put_writable (db : MemDb) (hn : db.nilMap = false) (info : DeviceInfo) : ∃ db', db.put info = some db' := by
  unfold MemDb.put
  rw [hn, if_neg (by simp : ¬ (false = true))]
  split_ifs <;> exact ⟨_, rfl⟩

theorem Orderly.openDevice (h : Orderly io ok left Hears) (f : FileFault) (db : FileDb) (hn : db.mem.nilMap = false) (fuel : Nat) (s : σ) (hs : ok s)
    (hl : left s < fuel) (addr : Address) (filters : List (MsgIO σ → MsgIO σ)) :
    ∃ s' db' dev err, db.openDevice f io fuel s addr filters = some (s', db', .ok (dev, err)) ∧ ok s' ∧ left s' ≤ left s ∧ db'.mem.nilMap = false ∧
      (err = none → ∃ info, dev = some (info, io)) := by
  unfold FileDb.openDevice MemDb.openDevice
  rcases hg : db.mem.get addr with _ | info
  · obtain ⟨s1, dev, info, err, h1, h2, h3, h4⟩ := h.opens_device fuel s hs hl addr
    dsimp only [applyFilters]
    rw [h1]
    dsimp only
    rcases err with _ | e
    · obtain ⟨mem, hp⟩ := put_writable db.mem hn info
      rw [if_pos rfl, hp]
      dsimp only
      refine ⟨_, _, _, _, rfl, h2, h3, ?_, ?_⟩
      · rw [save_map]; rw [put_map _ _ _ hp]; exact hn
      · intro _
        rw [h4 rfl]
        exact ⟨info, rfl⟩
    · rw [if_neg (by simp)]
      dsimp only
      refine ⟨_, _, _, _, rfl, h2, h3, ?_, ?_⟩
      · rw [save_map]; exact hn
      · unfold FileDb.save
        simp
  · refine ⟨_, _, _, _, rfl, hs, Nat.le_refl _, ?_, fun _ => ⟨info, rfl⟩⟩
    rw [save_map]; exact hn

theorem Orderly.visit (h : Orderly io ok left NoReadRequests) (f : FileFault) (db : FileDb) (hn : db.mem.nilMap = false) (fuel : Nat) (s : σ) (hs : ok s)
    (hl : left s < fuel) (now done : Int) (addr : Address) (filters : List (MsgIO σ → MsgIO σ)) :
    ∃ s' db' e, Iwalk.visit f io fuel now done filters s db addr = some (s', db', .ok e) ∧ ok s' ∧ left s' ≤ left s ∧ db'.mem.nilMap = false := by
  obtain ⟨s1, db1, dev, err, h1, h2, h3, h4, h5⟩ := h.openDevice f db hn fuel s hs hl addr filters
  unfold Iwalk.visit
  rw [h1]
  rcases err with _ | e
  · obtain ⟨info, rfl⟩ := h5 rfl
    dsimp only
    obtain ⟨r, g1, s2, d, v, g2, g3, g4, -⟩ := (h.device info).getLinks fuel now done s1 h2 (by omega) ⟨0, [], []⟩
    subst g2
    rw [g1]
    obtain ⟨ls, e⟩ := v
    rcases e with _ | e <;> exact ⟨_, _, _, rfl, g3, by omega, h4⟩
  · cases dev <;> exact ⟨_, _, _, rfl, h2, h3, h4⟩

theorem Orderly.visitAll (h : Orderly io ok left NoReadRequests) (f : FileFault) (fuel : Nat) (clock : Address → Int × Int) (filters : List (MsgIO σ → MsgIO σ))
    (addrs : List Address) (db : FileDb) (hn : db.mem.nilMap = false) (s : σ) (hs : ok s) (hl : left s < fuel) :
    ∃ s' db' log, Iwalk.visitAll f io fuel clock filters addrs s db = some (s', db', .ok log) ∧ log.map Prod.fst = addrs := by
  induction addrs generalizing s db with
  | nil => exact ⟨_, _, _, rfl, rfl⟩
  | cons a rest ih =>
    obtain ⟨s1, db1, e, h1, h2, h3, h4⟩ := h.visit f db hn fuel s hs hl (clock a).1 (clock a).2 a filters
    obtain ⟨s2, db2, log, g1, g2⟩ := ih db1 h4 s1 h2 (by omega)
    rw [Iwalk.visitAll, h1]
    dsimp only
    rw [g1]
    exact ⟨_, _, _, rfl, by simp [g2]⟩

end

/-- C196: whatever bytes the serial line brings and whichever writes to it fail, the walk over the devices linked to the modem ends once the line is silent, and every device the modem named was
tried, whatever went wrong with those before it: with the line, with a device or with the file. Not so if a message that asks for links arrives (`walk_crash_refuted`), nor
with a file that contains `null`. -/
theorem walk_ends_partial (fails : List Bytes → Option Nat) (slots : List Bytes) (retries fuel : Nat) (hf : 11 * slots.length < fuel) (f : FileFault) (clock : Address → Int × Int)
    (filters : List (MsgIO Live → MsgIO Live)) (db : FileDb) (hn : db.mem.nilMap = false) (hr : ∀ b ∈ slots, ∀ p ∈ packetsIn false b, ¬ AsksForLinks p) :
    ∃ live' named err live'' db' log, PlmLinks.iterateDevices (Plm.asWriter (Live.faulty fails)) retries fuel (Live.init slots) [] = some (live', .ok (named, err)) ∧
      Iwalk.walk (Plm.asWriter (Live.faulty fails)) retries f (Live.faultyMsgIO fails retries fuel) fuel clock filters (Live.init slots) db = some (live'', db', .ok (log, err)) ∧
      log.map Prod.fst = named := by
  have hq := live_orderly (fails := fails) (fun p => ¬ AsksForLinks p) retries fuel
  have hq' : Orderly (Live.faultyMsgIO fails retries fuel) (fun s => Steady (fun p => ¬ AsksForLinks p) s ∧ messagesLeft s < fuel) messagesLeft NoReadRequests :=
    ⟨fun s h => by
      obtain ⟨s1, m, e, h1, h2, h3, h4⟩ := hq.read s h
      exact ⟨s1, m, e, h1, h2, h3, fun he => ⟨(h4 he).1.imp fun x hx => ⟨hx.1, from_packet_quiet x hx.2⟩, (h4 he).2⟩⟩, hq.write⟩
  obtain ⟨h1, h2⟩ := init_ready (fun p => ¬ AsksForLinks p) slots hr
  obtain ⟨s1, ⟨named, err⟩, g1, g2, g3⟩ := devices_back (fails := fails) retries fuel _ h1 hf []
  obtain ⟨s2, db2, log, k1, k2⟩ := hq'.visitAll f fuel clock filters named db hn s1 ⟨g2.steady, by have := g3.1; omega⟩ (by have := g3.1; omega)
  refine ⟨s1, named, err, s2, db2, log, g1, ?_, k2⟩
  unfold Iwalk.walk
  rw [g1]
  dsimp only
  rw [k1]

/-- A modem that has a link to 01.02.03 and no other. -/
def exWalk : List Bytes := [[0x02, 0x69, 0x06], [0x02, 0x57, 0xe2, 0x01, 0x01, 0x02, 0x03, 0x00, 0x00, 0x00], [0x02, 0x6a, 0x15]]

/-- C196: the walk crashes if any device asks the modem for its links while the links of a device are being read, and if the database file contains `null`. -/
theorem walk_crash_refuted :
    (∃ live db', Iwalk.walk (Plm.asWriter Live.io) 3 FileFault.none (Live.msgIO 3 100) 100 (fun _ => (4000, 4001)) [] (Live.init (exWalk ++ exAsked))
      ⟨⟨[(0x010203, exDimmer)], false, false⟩, none⟩ = some (live, db', .panic)) ∧
    startProgram (some (lit "null")) = some ⟨⟨[], false, true⟩, some (lit "null")⟩ ∧
    ∃ live db', Iwalk.walk (Plm.asWriter Live.io) 3 FileFault.none (Live.msgIO 3 100) 100 (fun _ => (4000, 4001)) []
      (Live.init (exWalk ++ [[0x02, 0x62, 0x01, 0x02, 0x03, 0x0a, 0x0d, 0x00, 0x06], [0x02, 0x50, 0x01, 0x02, 0x03, 0x04, 0x05, 0x06, 0x2f, 0x0d, 0x02],
        [0x02, 0x62, 0x01, 0x02, 0x03, 0x0a, 0x10, 0x00, 0x06], [0x02, 0x50, 0x01, 0x02, 0x03, 0x04, 0x05, 0x06, 0x2f, 0x10, 0x00],
        [0x02, 0x50, 0x01, 0x02, 0x03, 0x01, 0x20, 0x43, 0x8f, 0x01, 0x00]]))
      ⟨⟨[], false, true⟩, some (lit "null")⟩ = some (live, db', .panic) := by
  refine ⟨⟨_, _, rfl⟩, by decide +kernel, ⟨_, _, rfl⟩⟩

/-- A walk as in `walk_ends_partial`: the modem names a device, which does not answer; some noise. -/
example : ∃ live' db', Iwalk.walk (Plm.asWriter Live.io) 3 FileFault.none (Live.msgIO 3 100) 100 (fun _ => (4000, 4001)) []
      (Live.init (exWalk ++ [[0x02, 0x02, 0x62, 0x50], [0x50, 0x02]])) ⟨MemDb.new, none⟩ =
    some (live', db', .ok ([(0x010203, .failed (.wrapped .plmReadTimeout))], none)) := ⟨_, _, rfl⟩

example : ∀ b ∈ exWalk ++ [[0x02, 0x02, 0x62, 0x50], [0x50, 0x02]], ∀ p ∈ packetsIn false b, ¬ AsksForLinks p := by unfold AsksForLinks; decide +kernel

end Insteon
