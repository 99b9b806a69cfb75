import Verif.Model.Monitor
import Verif.Spec.Monitor
import Verif.Props.Names
import Verif.Props.Filters

namespace Insteon

/-! ### Helpers: no line breaks -/

/-- No line break. -/
def Unbroken (b : Bytes) : Prop := 0x0a#8 ∉ b

instance (b : Bytes) : Decidable (Unbroken b) := inferInstanceAs (Decidable (0x0a#8 ∉ b))

theorem unbroken_append {a b : Bytes} : Unbroken (a ++ b) ↔ Unbroken a ∧ Unbroken b := by
  simp [Unbroken, not_or]

theorem unbroken_dec (b : Byte) : Unbroken (decByte b) := by revert b; decide +kernel
theorem unbroken_hex2 (b : Byte) : Unbroken (hex2 b) := by revert b; decide +kernel
theorem unbroken_dot : Unbroken [ch '.'] := by decide
theorem unbroken_blank : Unbroken [ch ' '] := by decide
theorem unbroken_addr (a : Address) : Unbroken a.string := by
  simp only [Address.string, unbroken_append]
  exact ⟨⟨⟨⟨unbroken_hex2 _, unbroken_dot⟩, unbroken_hex2 _⟩, unbroken_dot⟩, unbroken_hex2 _⟩

theorem names_unbroken : ∀ p ∈ cmdStrings, Unbroken p.2 := by decide +kernel

theorem unbroken_command (c : Command) : Unbroken c.string := by
  rcases command_string_cases c with ⟨s, hs, e⟩ | ⟨s, hs, e⟩ | e <;> rw [e]
  · exact names_unbroken _ hs
  · rw [show s ++ ch '(' :: (decByte (c.extractLsb' 0 8) ++ [ch ')']) = s ++ ([ch '('] ++ (decByte (c.extractLsb' 0 8) ++ [ch ')']))
      by simp]
    simp only [unbroken_append]
    exact ⟨names_unbroken _ hs, by decide, unbroken_dec _, by decide⟩
  · simp only [unbroken_append]
    exact ⟨by decide +kernel, unbroken_hex2 _, by decide +kernel, unbroken_hex2 _, by decide +kernel, unbroken_hex2 _, by decide +kernel⟩

theorem unbroken_join {sep : Bytes} (hs : Unbroken sep) {l : List Bytes} (h : ∀ x ∈ l, Unbroken x) : Unbroken (joinWith sep l) := by
  fun_induction joinWith with
  | case1 => simp [Unbroken]
  | case2 x => exact h x (by simp)
  | case3 x y l ih =>
    simp only [unbroken_append]
    exact ⟨⟨h x (by simp), hs⟩, ih (fun z hz => h z (by simp_all))⟩

theorem unbroken_payload {sep : Bytes} (hs : Unbroken sep) (p : Bytes) : Unbroken (payloadString sep p) := by
  refine unbroken_join hs ?_
  simp only [List.mem_map]
  rintro _ ⟨b, -, rfl⟩
  exact unbroken_hex2 b

theorem unbroken_flags (f : RecordControlFlags) : Unbroken f.string := by revert f; decide +kernel

theorem unbroken_link (l : LinkRecord) : Unbroken l.string := by
  simp only [LinkRecord.string, unbroken_append]
  exact ⟨⟨⟨⟨⟨⟨⟨⟨⟨⟨⟨⟨⟨unbroken_flags _, unbroken_blank⟩, unbroken_dec _⟩, unbroken_blank⟩, unbroken_addr _⟩, unbroken_blank⟩,
    by decide +kernel⟩, unbroken_hex2 _⟩, unbroken_blank⟩, by decide +kernel⟩, unbroken_hex2 _⟩, unbroken_blank⟩, by decide +kernel⟩,
    unbroken_hex2 _⟩

theorem unbroken_request (lr : LinkRequest) : Unbroken lr.string := by
  have ht : Unbroken (linkRequestTypeString lr.type) := by
    unfold linkRequestTypeString; split_ifs <;> decide +kernel
  have hs : Unbroken (lit " ") := by decide +kernel
  have hm : Unbroken (memAddressString lr.memAddress) := by
    simp only [memAddressString, unbroken_append]
    exact ⟨⟨unbroken_hex2 _, by decide +kernel⟩, unbroken_hex2 _⟩
  unfold LinkRequest.string
  split
  · simp only [unbroken_append]; exact ⟨⟨⟨⟨ht, hs⟩, hm⟩, hs⟩, unbroken_dec _⟩
  · simp only [unbroken_append]; exact ⟨⟨⟨⟨⟨⟨ht, hs⟩, hm⟩, hs⟩, unbroken_dec _⟩, hs⟩, unbroken_link _⟩

/-- Splits a text into its parts and shows that none has a line break. -/
macro "unbroken" : tactic => `(tactic| (
  try simp only [unbroken_append, devCatString, productKeyString]
  repeat' constructor
  all_goals first
    | exact unbroken_dec _ | exact unbroken_hex2 _ | exact unbroken_addr _ | exact unbroken_command _
    | exact unbroken_request _ | exact unbroken_payload (by decide +kernel) _ | assumption
    | decide +kernel))

namespace Monitor

theorem unbroken_payloadData {db : Option (Address → Option DeviceInfo)} {m : Message} {t : Bytes}
    (h : payloadData db m = some (.ok t)) : Unbroken t := by
  unfold payloadData at h
  dsimp only at h
  split_ifs at h <;> (try (split at h)) <;> (try (split_ifs at h)) <;> (try (split at h)) <;> simp at h <;> subst h <;> unbroken

theorem unbroken_payloadText {errText : Err → Bytes} (he : ∀ e, Unbroken (errText e))
    (db : Option (Address → Option DeviceInfo)) (m : Message) : Unbroken (payloadText errText db m) := by
  unfold payloadText
  split_ifs
  · rw [unbroken_append]
    refine ⟨by decide +kernel, ?_⟩
    split
    · rename_i h; exact unbroken_payloadData h
    · rename_i e _; have := he e; unbroken
    · unbroken
  · simp [Unbroken]

theorem commandText_ok {c : Cache Message} (hc : c.wf) (m : Message) : ∃ t, commandText c m = .ok t ∧ Unbroken t := by
  unfold commandText
  rw [Cache.lookup_recent c hc _ _ (by omega)]
  split_ifs
  · cases c.recent.find? (Matcher.matchAck m) with
    | some p => exact ⟨_, rfl, by unbroken⟩
    | none => exact ⟨_, rfl, by unbroken⟩
  all_goals exact ⟨_, rfl, by unbroken⟩

/-- Whatever the cache holds, a message is printed as one line. -/
theorem line_shows {errText : Err → Bytes} (he : ∀ e, Unbroken (errText e)) (db : Option (Address → Option DeviceInfo))
    {c : Cache Message} (hc : c.wf) (m : Message) : ∃ l, line errText db c m = .ok l ∧ Shows m l := by
  obtain ⟨t, ht, hu⟩ := commandText_ok hc m
  have hp := unbroken_payloadText he db m
  refine ⟨_, by unfold line; rw [ht], ?_⟩
  have hn : lit "\n" = [0x0a#8] := by decide +kernel
  have hsp : ∀ a b : Char, a = a := fun _ _ => rfl
  have key : ∃ a b rest, headText m = [a, b, ch ' '] ++ m.src.string ++ rest ∧ a ≠ 0x0a#8 ∧ b ≠ 0x0a#8 ∧ Unbroken rest := by
    unfold headText
    split_ifs
    · exact ⟨ch 'S', ch 'A', _, by rw [show lit "SA " = [ch 'S', ch 'A', ch ' '] by decide +kernel], by decide, by decide, by unbroken⟩
    · refine ⟨ch 'S', ch 'B', _, by rw [show lit "SB " = [ch 'S', ch 'B', ch ' '] by decide +kernel]; simp only [List.append_assoc]; rfl,
        by decide, by decide, by unbroken⟩
    · refine ⟨ch 'S', ch 'C', _, by rw [show lit "SC " = [ch 'S', ch 'C', ch ' '] by decide +kernel]; simp only [List.append_assoc]; rfl,
        by decide, by decide, by unbroken⟩
    · refine ⟨ch 'E', ch 'D', _, by rw [show lit "E" ++ lit "D " = [ch 'E', ch 'D', ch ' '] by decide +kernel]; simp only [List.append_assoc]; rfl,
        by decide, by decide, by unbroken⟩
    · refine ⟨ch 'S', ch 'D', _, by rw [show lit "S" ++ lit "D " = [ch 'S', ch 'D', ch ' '] by decide +kernel]; simp only [List.append_assoc]; rfl,
        by decide, by decide, by unbroken⟩
  obtain ⟨a, b, rest, e, ha, hb, hr⟩ := key
  refine ⟨a, b, rest ++ lit " " ++ decByte m.flags.maxTTL ++ lit ":" ++ decByte m.flags.ttl ++ t ++ payloadText errText db m, ?_, ha, hb, ?_⟩
  · rw [e, hn]; simp only [List.append_assoc]
  · show Unbroken _
    unbroken

/-- What is known of a monitor through which `passed` went. -/
structure MonInv {σ : Type} (s : Monitor σ) (passed : List Message) : Prop where
  wf : s.cache.wf
  cap : s.cache.cap = 10
  recent : s.cache.recent = passed.reverse.take 10

theorem init_inv {σ : Type} (s : σ) : MonInv (init s) [] := by
  obtain ⟨n1, n2, n3⟩ := Cache.new_wf (α := Message) 10 [] (Or.inl (by omega))
  exact ⟨n1, by rw [show (init s).cache = Cache.new 10 [] from rfl, n3]; rfl,
    by rw [show (init s).cache = Cache.new 10 [] from rfl, n2]; rfl⟩

theorem push_inv {σ : Type} {s : Monitor σ} {passed : List Message} (h : MonInv s passed) (m : Message) :
    ∃ c, s.cache.push (some m) = .ok c ∧ c.wf ∧ ∀ (t : σ) (o : Bytes), MonInv ⟨c, t, o⟩ (passed ++ [m]) := by
  obtain ⟨c, p1, p2, p3, p4⟩ := Cache.push_wf s.cache h.wf m
  refine ⟨c, p1, p2, fun t o => ⟨p2, by rw [p3, h.cap], ?_⟩⟩
  show c.recent = _
  rw [p4, h.recent, h.cap, take_cons_take]
  simp

/-! ### C114 -/

/-- One operation: same effect and same result, and one line more for each message seen. -/
theorem monitor_step {σ : Type} {errText : Err → Bytes} (he : ∀ e, Unbroken (errText e))
    (db : Option (Address → Option DeviceInfo)) (io : MsgIO σ) (op : MonOp) (s : Monitor σ) {passed : List Message}
    (hs : MonInv s passed) (hb : ¬ op.broken (op.perform io s.inner).2) :
    (op.perform (over errText db io) s).2 = (op.perform io s.inner).2
    ∧ (op.perform (over errText db io) s).1.inner = (op.perform io s.inner).1
    ∧ MonInv (op.perform (over errText db io) s).1 (passed ++ op.passed (op.perform io s.inner).2)
    ∧ ∃ ls : List Bytes, (op.perform (over errText db io) s).1.out = s.out ++ ls.flatten
        ∧ List.Forall₂ Shows (op.seen (op.perform io s.inner).2) ls := by
  cases op with
  | read =>
    simp only [MonOp.perform, over, read] at hb ⊢
    rcases hr : io.read s.inner with ⟨t, ⟨m, e⟩ | _⟩
    · rw [hr] at hb
      cases m with
      | none =>
        cases e with
        | none => exact absurd trivial hb
        | some e => exact ⟨by trivial, by trivial, by simpa [MonOp.passed, Cache.push] using ⟨hs.wf, hs.cap, hs.recent⟩, [], by simp [Cache.push], .nil⟩
      | some m =>
        obtain ⟨c, p1, p2, p3⟩ := push_inv hs m
        cases e with
        | some e => simp only [p1]; exact ⟨by trivial, by trivial, p3 _ _, [], by simp, .nil⟩
        | none =>
          obtain ⟨l, hl, hsh⟩ := line_shows he db p2 m
          simp only [p1, hl]
          exact ⟨by trivial, by trivial, p3 _ _, [l], by simp, .cons hsh .nil⟩
    · rw [hr] at hb; exact absurd trivial hb
  | write m =>
    simp only [MonOp.perform, over, write] at hb ⊢
    obtain ⟨l, hl, hsh⟩ := line_shows he db hs.wf m
    obtain ⟨c, p1, p2, p3⟩ := push_inv hs m
    simp only [hl, p1]
    rcases hr : io.write s.inner m with ⟨t, ⟨a, e⟩ | _⟩
    · cases a with
      | none => exact ⟨by trivial, by trivial, p3 _ _, [l], by simp, .cons hsh .nil⟩
      | some a =>
        obtain ⟨l', hl', hsh'⟩ := line_shows he db p2 a
        simp only [hl']
        exact ⟨by trivial, by trivial, p3 _ _, [l, l'], by simp, .cons hsh (.cons hsh' .nil)⟩
    · rw [hr] at hb; exact absurd trivial hb

theorem monitor_run {σ : Type} {errText : Err → Bytes} (he : ∀ e, Unbroken (errText e))
    (db : Option (Address → Option DeviceInfo)) (io : MsgIO σ) : ∀ (ops : List MonOp) (s : Monitor σ) {passed : List Message},
    MonInv s passed → (∀ p ∈ ops.zip (performAll io ops s.inner).2, ¬ p.1.broken p.2) →
    (performAll (over errText db io) ops s).2 = (performAll io ops s.inner).2
    ∧ (performAll (over errText db io) ops s).1.inner = (performAll io ops s.inner).1
    ∧ MonInv (performAll (over errText db io) ops s).1 (passed ++ passedAll ops (performAll io ops s.inner).2)
    ∧ ∃ ls : List Bytes, (performAll (over errText db io) ops s).1.out = s.out ++ ls.flatten
        ∧ List.Forall₂ Shows (seenAll ops (performAll io ops s.inner).2) ls
  | [], s, passed, hs, _ => ⟨rfl, rfl, by simpa [performAll, passedAll] using hs, [], by simp [performAll], .nil⟩
  | op :: ops, s, passed, hs, hb => by
    simp only [performAll, List.zip_cons_cons, List.mem_cons, forall_eq_or_imp] at hb ⊢
    obtain ⟨h1, h2, h3, ls, h4, h5⟩ := monitor_step he db io op s hs hb.1
    rw [← h2] at hb
    obtain ⟨i1, i2, i3, ls', i4, i5⟩ := monitor_run he db io ops _ h3 hb.2
    rw [← h2, i1, i2, h1]
    refine ⟨rfl, rfl, by simpa [passedAll] using i3, ls ++ ls', ?_, ?_⟩
    · rw [i4, h4]; simp
    · exact List.rel_append h5 i5

/-- Watching messages does not change them: whatever is done with the filter over a message writer has the same effects on
what is below and the same results as without the filter, and what is printed is one line for each
message seen, in order, as long as what is below neither panics nor reads nothing without an error. -/
theorem monitor_transparent {σ : Type} (errText : Err → Bytes) (he : ∀ e, 0x0a#8 ∉ errText e)
    (db : Option (Address → Option DeviceInfo)) (io : MsgIO σ) (ops : List MonOp) (s : σ)
    (hb : ∀ p ∈ ops.zip (performAll io ops s).2, ¬ p.1.broken p.2) :
    (performAll (over errText db io) ops (init s)).2 = (performAll io ops s).2
    ∧ (performAll (over errText db io) ops (init s)).1.inner = (performAll io ops s).1
    ∧ ∃ ls : List Bytes, (performAll (over errText db io) ops (init s)).1.out = ls.flatten
        ∧ List.Forall₂ Shows (seenAll ops (performAll io ops s).2) ls := by
  obtain ⟨h1, h2, -, ls, h4, h5⟩ := monitor_run he db io ops (init s) (init_inv s) hb
  exact ⟨h1, h2, ls, by simpa [init] using h4, h5⟩

/-- A writer for examples: it reads from a list and acknowledges every message from its destination. -/
def echoIO : MsgIO (List Message) :=
  ⟨fun s => match s with | [] => ([], .ret none (some .devReadTimeout)) | m :: l => (l, .ret (some m) none),
   fun s m => (s, .ret (some { m with src := m.dst, dst := m.src, flags := 0x2f#8 }) none)⟩

/-- Non-vacuity: a write and two reads, the second a timeout, print three lines. -/
example : (performAll (over (fun _ => lit "error") none echoIO)
      [.write ⟨1, 0x040506#32, 0x0f#8, 0x001180#64, []⟩, .read, .read] (init [⟨0x070809#32, 0x000001#32, 0xcf#8, 0x0c1100#64, []⟩])).1.out
    = lit "SD 00.00.01 -> 04.05.06 3:3 Light On(128)\nSD 04.05.06 -> 00.00.01 3:3 Light On(128) ACK\nSA 07.08.09 -> ff.ff.ff 3:3 All-link recall Group 1\n"
    ∧ ∀ p ∈ [MonOp.write ⟨1, 0x040506#32, 0x0f#8, 0x001180#64, []⟩, .read, .read].zip (performAll echoIO
      [.write ⟨1, 0x040506#32, 0x0f#8, 0x001180#64, []⟩, .read, .read] [⟨0x070809#32, 0x000001#32, 0xcf#8, 0x0c1100#64, []⟩]).2,
        ¬ p.1.broken p.2 := by
  constructor
  · decide +kernel
  · simp [performAll, echoIO, MonOp.perform, MonOp.broken]

/-! ### C115 -/

theorem performAll_snoc {σ : Type} (io : MsgIO σ) (op : MonOp) : ∀ (ops : List MonOp) (s : σ),
    (performAll io (ops ++ [op]) s).1 = (op.perform io (performAll io ops s).1).1
  | [], s => rfl
  | o :: ops, s => by simp only [List.cons_append, performAll]; exact performAll_snoc io op ops _

theorem matchAck_iff (a m : Message) : Matcher.matchAck a m = true ↔ m.dst = a.src ∧ m.flags.ack = false ∧ m.flags.nak = false := by
  simp only [Matcher.matchAck, Matcher.and, Matcher.not, Matcher.ack, Matcher.dst]
  by_cases h1 : m.flags.ack = true <;> by_cases h2 : m.flags.nak = true <;> simp [h1, h2]

/-- An acknowledgement that is read is shown with the command of a request to its sender, if that request is among the
nine messages before it and nothing else was sent to the same device since. -/
theorem monitor_ack_partial {σ : Type} (errText : Err → Bytes) (he : ∀ e, 0x0a#8 ∉ errText e)
    (db : Option (Address → Option DeviceInfo)) (io : MsgIO σ) (ops : List MonOp) (s : σ)
    (hb : ∀ p ∈ ops.zip (performAll io ops s).2, ¬ p.1.broken p.2)
    {before after : List Message} {request ack : Message}
    (hp : passedAll ops (performAll io ops s).2 = before ++ request :: after) (hn : after.length < 9)
    (hreq : Requests ack request) (ha : ack.flags.ack = true)
    (hafter : ∀ m ∈ after, m.dst = ack.src → m.flags.ack = true ∨ m.flags.nak = true)
    (hr : (io.read (performAll io ops s).1).2 = .ret (some ack) none) :
    ∃ pre post, (performAll (over errText db io) (ops ++ [.read]) (init s)).1.out
      = (performAll (over errText db io) ops (init s)).1.out ++ pre ++ lit " " ++ request.command.string ++ lit " ACK" ++ post
      ∧ 0x0a#8 ∉ pre := by
  obtain ⟨h1, h2, h3, -⟩ := monitor_run he db io ops (init s) (init_inv s) hb
  rw [performAll_snoc]
  generalize hg : (performAll (over errText db io) ops (init s)).1 = t at h2 h3 ⊢
  rw [List.nil_append, show (init s).inner = s from rfl, hp] at h3
  have h2 : t.inner = (performAll io ops s).1 := h2
  obtain ⟨c, p1, p2, p3⟩ := push_inv h3 ack
  have hfind : c.recent.find? (Matcher.matchAck ack) = some request := by
    have hrec : c.recent = (before ++ request :: after ++ [ack]).reverse.take 10 := (p3 t.inner []).recent
    obtain ⟨k, hk⟩ : ∃ k, 10 = (ack :: after.reverse).length + (k + 1) := ⟨8 - after.length, by simp; omega⟩
    have e : (before ++ request :: after ++ [ack]).reverse.take 10 = (ack :: after.reverse) ++ request :: before.reverse.take k := by
      rw [show (before ++ request :: after ++ [ack]).reverse = (ack :: after.reverse) ++ (request :: before.reverse) by simp,
        hk, List.take_length_add_append, List.take_succ_cons]
    rw [hrec, e, List.find?_append, List.find?_eq_none.mpr, Option.none_or, List.find?_cons_of_pos]
    · exact (matchAck_iff _ _).mpr ⟨hreq.1, hreq.2.2.1, hreq.2.2.2⟩
    · intro m hm hmatch
      have hmatch := (matchAck_iff _ _).mp hmatch
      simp only [List.mem_cons, List.mem_reverse] at hm
      rcases hm with rfl | hm
      · rw [ha] at hmatch; cases hmatch.2.1
      · rcases hafter m hm hmatch.1 with h | h
        · rw [h] at hmatch; cases hmatch.2.1
        · rw [h] at hmatch; cases hmatch.2.2
  rcases hio : io.read t.inner with ⟨t', r⟩
  have hr' : r = .ret (some ack) none := by rw [← hr, ← h2, hio]
  subst hr'
  obtain ⟨l, hl, -⟩ := line_shows he db p2 ack
  have hout : (MonOp.read.perform (over errText db io) t).1.out = t.out ++ l := by
    simp only [MonOp.perform, over, read, hio, p1, hl]
  rw [hout]
  unfold line commandText at hl
  rw [if_pos ha, Cache.lookup_recent c p2 _ _ (by omega), hfind] at hl
  simp only [Out.ok.injEq] at hl
  rw [← hl]
  refine ⟨headText ack ++ lit " " ++ decByte ack.flags.maxTTL ++ lit ":" ++ decByte ack.flags.ttl, payloadText errText db ack ++ lit "\n", ?_, ?_⟩
  · simp only [List.append_assoc]
  · have : Unbroken (headText ack) := by unfold headText; split_ifs <;> unbroken
    show Unbroken _
    unbroken

/-- Non-vacuity, and why nothing may have been sent to the device since: with a message from a third party in between, the
acknowledgement of the first request is shown with the command of the third party. -/
theorem monitor_ack_refuted : ∃ (inbox : List Message) (request other ack : Message),
    inbox = [request, other, ack] ∧ Requests ack request ∧ ¬ Requests ack other ∧ ack.flags.ack = true
    ∧ request.command.string = lit "Light On" ∧ other.command.string = lit "Light Off"
    ∧ (performAll (over (fun _ => []) none echoIO) [.read, .read, .read] (init inbox)).1.out
      = lit "SD 00.00.01 -> 04.05.06 3:3 Light On\nSD 00.00.02 -> 04.05.06 3:3 Light Off\nSD 04.05.06 -> 00.00.01 3:3 Light Off ACK\n" :=
  ⟨_, ⟨1, 0x040506#32, 0x0f#8, 0x001100#64, []⟩, ⟨2, 0x040506#32, 0x0f#8, 0x001300#64, []⟩, ⟨0x040506#32, 1, 0x2f#8, 0x001100#64, []⟩,
    rfl, by simp [Requests, Flags.ack, Flags.nak], by simp [Requests], by decide, by decide +kernel, by decide +kernel, by decide +kernel⟩

/-- Non-vacuity: a request, traffic between others and the acknowledgement. -/
example : (performAll (over (fun _ => []) none echoIO) [.read, .read, .read]
      (init [⟨1, 0x040506#32, 0x0f#8, 0x001100#64, []⟩, ⟨2, 0x070809#32, 0x0f#8, 0x001300#64, []⟩, ⟨0x040506#32, 1, 0x2f#8, 0x0011ff#64, []⟩])).1.out
    = lit "SD 00.00.01 -> 04.05.06 3:3 Light On\nSD 00.00.02 -> 07.08.09 3:3 Light Off\nSD 04.05.06 -> 00.00.01 3:3 Light On ACK\n" := by
  decide +kernel

end Monitor

end Insteon
