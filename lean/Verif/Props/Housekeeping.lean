import Verif.Props.House

/-
C161: which commands of a history are carried out, and in which order.
-/

namespace Insteon
open Insteon.Spec

namespace House
variable (fates : Nat → Bytes → FrameFate)

/-- Whole messages without an answer among them. -/
def NoAns (ms : List (Option Packet)) : Prop := ∀ m ∈ ms, ∃ p, m = some p ∧ Whole p ∧ ¬ IsAnswer p

theorem noAns_append {x y : List (Option Packet)} (hx : NoAns x) (hy : NoAns y) : NoAns (x ++ y) := by
  intro m hm
  rcases List.mem_append.mp hm with h | h
  · exact hx m h
  · exact hy m h

/-- Whole messages with one answer at most: none, or one with others before and after. -/
theorem answers_split (ms : List (Option Packet)) (hw : ∀ m ∈ ms, ∃ p, m = some p ∧ Whole p)
    (ho : ∀ p q x y z, ms = x ++ some p :: y ++ some q :: z → IsAnswer p → ¬ IsAnswer q) :
    NoAns ms ∨ ∃ pre p post, ms = pre ++ some p :: post ∧ NoAns pre ∧ NoAns post ∧ Whole p ∧ IsAnswer p := by
  induction ms with
  | nil => exact .inl fun m hm => by cases hm
  | cons m ms ih =>
    obtain ⟨p, rfl, hp⟩ := hw m (by simp)
    by_cases ha : IsAnswer p
    · refine .inr ⟨[], p, ms, rfl, (fun m hm => nomatch hm), fun m hm => ?_, hp, ha⟩
      obtain ⟨q, rfl, hq⟩ := hw m (by simp [hm])
      obtain ⟨y, z, rfl⟩ := List.append_of_mem hm
      exact ⟨q, rfl, hq, ho p q [] y z rfl ha⟩
    · rcases ih (fun m hm => hw m (by simp [hm])) (fun p' q x y z h => ho p' q (some p :: x) y z (by rw [h]; rfl)) with h | ⟨pre, q, post, rfl, h1, h2, h3, h4⟩
      · refine .inl fun m hm => ?_
        rcases List.mem_cons.mp hm with rfl | hm
        · exact ⟨p, rfl, hp, ha⟩
        · exact h m hm
      · refine .inr ⟨some p :: pre, q, post, rfl, fun m hm => ?_, h2, h3, h4⟩
        rcases List.mem_cons.mp hm with rfl | hm
        · exact ⟨p, rfl, hp, ha⟩
        · exact h1 m hm

/-- A whole message is decoded, with the flags it carries. -/
theorem whole_decodes (p : Packet) (hw : Whole p) : ∃ m, Message.zero.unmarshalBinary p.payload = (m, none) ∧ m.flags = p.payload.getD 6 0 := by
  obtain ⟨hl, hx⟩ := hw
  rcases hq : p.payload with _ | ⟨s0, _ | ⟨s1, _ | ⟨s2, _ | ⟨d0, _ | ⟨d1, _ | ⟨d2, _ | ⟨f, _ | ⟨c1, _ | ⟨c2, rest⟩⟩⟩⟩⟩⟩⟩⟩⟩ <;>
    rw [hq] at hl hx <;> simp only [List.length_cons, List.length_nil] at hl <;> try omega
  simp only [Message.unmarshalBinary]
  split
  · rename_i he
    have := hx (((flag_classification f).2.2.2.1).mp he)
    simp only [List.length_cons] at this
    rw [if_neg (by simp only [List.length_cons]; omega)]
    exact ⟨_, rfl, rfl⟩
  · exact ⟨_, rfl, rfl⟩

/-- Reading over a message that is not an answer. -/
theorem await_skip (a : Address) (h : House) (p : Packet) (rest : List (Option Packet)) (hw : Whole p) (hn : ¬ IsAnswer p) (fuel : Nat) :
    Plm.awaitAck (House.io fates) a (fuel + 1) { h with messages := some p :: rest } = Plm.awaitAck (House.io fates) a fuel { h with messages := rest } := by
  obtain ⟨m, hd, hf⟩ := whole_decodes p hw
  rw [Plm.awaitAck, Plm.read]
  simp only [House.io, House.take, hd]
  rw [if_neg]
  rintro ⟨-, hc⟩
  rw [hf] at hc
  have hc := hc.imp ((flag_classification _).1).mp ((flag_classification _).2.1).mp
  exact hn hc

theorem await_none (a : Address) (h : House) (ms : List (Option Packet)) (hn : NoAns ms) : ∀ fuel, ms.length < fuel →
    Plm.awaitAck (House.io fates) a fuel { h with messages := ms } = some ({ h with messages := [] }, .ret none (some (.wrapped .insReadTimeout))) := by
  induction ms with
  | nil => intro fuel hf; obtain ⟨n, rfl⟩ : ∃ n, fuel = n + 1 := ⟨fuel - 1, by omega⟩; rfl
  | cons m ms ih =>
    intro fuel hf
    obtain ⟨n, rfl⟩ : ∃ n, fuel = n + 1 := ⟨fuel - 1, by omega⟩
    obtain ⟨p, rfl, hw, hp⟩ := hn m (by simp)
    rw [await_skip fates a h p ms hw hp]
    exact ih (fun m hm => hn m (by simp [hm])) n (by simp only [List.length_cons] at hf; omega)

theorem await_one (a : Address) (h : House) (p : Packet) (post : List (Option Packet)) (hw : Whole p) (ha : IsAnswer p) (hpost : NoAns post) (pre : List (Option Packet))
    (hpre : NoAns pre) : ∃ left r, NoAns left ∧ (∀ fuel, (pre ++ some p :: post).length < fuel →
      Plm.awaitAck (House.io fates) a fuel { h with messages := pre ++ some p :: post } = some ({ h with messages := left }, r)) ∧
      (∀ ack, r = .ret ack none → isAck (p.payload.getD 6 0)) ∧ (∀ ack, r = .ret ack (some .devNak) → isNak (p.payload.getD 6 0)) ∧
      (∀ ack, r ≠ .ret ack (some .plmNak)) := by
  induction pre with
  | nil =>
    obtain ⟨m, hd, hf⟩ := whole_decodes p hw
    have h1 := (flag_classification m.flags).1
    have h2 := (flag_classification m.flags).2.1
    by_cases hs : m.src = a
    · refine ⟨post, .ret (some m) (if m.flags.nak then some .devNak else none), hpost, fun fuel hfl => ?_, fun ack hr => ?_, fun ack hr => ?_, fun ack hr => ?_⟩
      · obtain ⟨n, rfl⟩ : ∃ n, fuel = n + 1 := ⟨fuel - 1, by omega⟩
        rw [Plm.awaitAck, Plm.read]
        simp only [House.io, House.take, List.nil_append, hd]
        rw [if_pos]
        refine ⟨hs, ?_⟩
        exact ha.imp (fun h => h1.mpr (by rw [hf]; exact h)) (fun h => h2.mpr (by rw [hf]; exact h))
      · have hnak : ¬ m.flags.nak = true := by
          intro hn; rw [if_pos hn] at hr; simp at hr
        rcases ha with ha | ha
        · exact ha
        · rw [← hf] at ha; exact absurd (h2.mpr ha) hnak
      · have hnak : m.flags.nak = true := by
          by_contra hn; rw [if_neg hn] at hr; simp at hr
        rw [← hf]; exact h2.mp hnak
      · split at hr <;> simp at hr
    · refine ⟨[], .ret none (some (.wrapped .insReadTimeout)), (fun m hm => nomatch hm), fun fuel hfl => ?_, (fun ack hr => nomatch hr), (fun ack hr => nomatch hr), (fun ack hr => nomatch hr)⟩
      obtain ⟨n, rfl⟩ : ∃ n, fuel = n + 1 := ⟨fuel - 1, by omega⟩
      rw [Plm.awaitAck, Plm.read]
      simp only [House.io, House.take, List.nil_append, hd]
      rw [if_neg fun hc => hs hc.1]
      exact await_none fates a h post hpost n (by simp only [List.nil_append, List.length_cons] at hfl; omega)
  | cons m pre ih =>
    obtain ⟨q, rfl, hq, hn⟩ := hpre m (by simp)
    obtain ⟨left, r, i1, i2, i3⟩ := ih fun m hm => hpre m (by simp [hm])
    refine ⟨left, r, i1, fun fuel hfl => ?_, i3⟩
    obtain ⟨n, rfl⟩ : ∃ n, fuel = n + 1 := ⟨fuel - 1, by omega⟩
    rw [List.cons_append, await_skip fates a h q _ hq hn]
    exact i2 n (by simp only [List.cons_append, List.length_cons] at hfl ⊢; omega)

theorem punctual_honest {b : Bytes} {f : FrameFate} (h : f.Punctual b) (a : Address) : f.Honest a :=
  ⟨h.refused, fun p hm ha => h.acked p hm ha.2.1, h.system.1, h.system.2.1⟩

/-- One attempt on such a line leaves nothing waiting from the modem; it returns without an error if there is an answer. -/
theorem attempt_clean (pkt : Packet) (hc : pkt.command = 0x62#8) (h : House) (hf : (fates h.turn pkt.marshalBinary).Punctual pkt.marshalBinary) (h0 : h.replies = []) :
    let r := Plm.writePacket (House.io fates) h pkt
    r.1.replies = [] ∧ ((∃ p, some p ∈ (fates h.turn pkt.marshalBinary).messages ∧ IsAnswer p) → ∃ x, r.2 = .ret x none) ∧
      ∀ x, r.2 ≠ .ret x (some .devNak) := by
  dsimp only
  unfold Plm.writePacket
  simp only [House.io, h0, List.nil_append]
  rcases he : (fates h.turn pkt.marshalBinary).err with _ | e
  · dsimp only
    rcases hf.prompt with hr | ⟨p, hr⟩
    · simp only [hr, House.take]
      refine ⟨trivial, fun ⟨q, hm, ha⟩ => ?_, (fun x hx => nomatch hx)⟩
      obtain ⟨-, r, h, -⟩ := hf.confirmed q hm ha
      rw [hr] at h; cases h
    · simp only [hr, House.take]
      have hk : (∃ q, some q ∈ (fates h.turn pkt.marshalBinary).messages ∧ IsAnswer q) → Plm.checkAck pkt p = .ok none := by
        rintro ⟨q, hm, ha⟩
        obtain ⟨-, r, hrr, h1, h2, h3⟩ := hf.confirmed q hm ha
        rw [hr] at hrr
        simp only [List.cons.injEq, Option.some.injEq, and_true] at hrr
        subst hrr
        rw [checkAck_ok_iff]
        refine ⟨by rw [h1, hc]; rfl, by rw [h1]; decide, h2, fun _ _ => ?_⟩
        rw [if_pos (show p.command = 0x62#8 from h1)]
        exact h3
      rcases hck : Plm.checkAck pkt p with e | e | _ <;> rw [hck] at hk <;> dsimp only
      · refine ⟨rfl, fun h => ⟨some p, by rw [Out.ok.inj (hk h)]⟩, fun x hx => ?_⟩
        cases hx
        unfold Plm.checkAck at hck
        dsimp only at hck
        split_ifs at hck <;> simp at hck
      · exact ⟨rfl, fun h => absurd (hk h) (by simp), (fun x hx => nomatch hx)⟩
      · exact ⟨rfl, fun h => absurd (hk h) (by simp), (fun x hx => nomatch hx)⟩
  · dsimp only
    refine ⟨hf.system.2.2.2 (by rw [he]; simp), fun ⟨q, hm, ha⟩ => ?_, fun x hx => ?_⟩
    · have := (hf.confirmed q hm ha).1
      rw [he] at this; cases this
    · cases hx; exact hf.system.2.2.1 he

/-- All attempts. -/
theorem attempts_clean (pkt : Packet) (hc : pkt.command = 0x62#8) (hf : ∀ n, (fates n pkt.marshalBinary).Punctual pkt.marshalBinary) (n : Nat) :
    ∀ (h : House) (cur : PRes), h.Clean → (∀ x, cur ≠ .ret x (some .devNak)) →
    let r := retryLoop (Plm.writePacket (House.io fates)) true pkt n h cur
    r.1.replies = [] ∧ ∃ b : Bool, r.1.runs = h.runs ++ (if b then [pkt.marshalBinary.drop 2] else []) ∧
      (∀ x, r.2 = .ret x (some .plmNak) → b = false) ∧ (∀ x, r.2 ≠ .ret x (some .devNak)) ∧
      (NoAns r.1.messages ∨ ∃ pre p post, r.1.messages = pre ++ some p :: post ∧ NoAns pre ∧ NoAns post ∧ Whole p ∧ IsAnswer p ∧
        (isAck (p.payload.getD 6 0) → b = true) ∧ (isNak (p.payload.getD 6 0) → b = false) ∧ ∃ x, r.2 = .ret x none) := by
  induction n with
  | zero => exact fun h cur h0 hcur => ⟨h0.1, false, by simp [retryLoop], fun _ _ => rfl, hcur, .inl h0.2⟩
  | succ n ih =>
    intro h cur h0 _
    have hf' := hf h.turn
    obtain ⟨h1, h2, -, h4⟩ := attempt fates 0 pkt h hf'.prompt (punctual_honest hf' 0) h0.1
    obtain ⟨c1, c2, c3⟩ := attempt_clean fates pkt hc h hf' h0.1
    have hs := answers_split _ hf'.inTime hf'.oneAnswer
    dsimp only
    rw [retryLoop]
    rcases hw : Plm.writePacket (House.io fates) h pkt with ⟨h', ⟨x, e⟩ | _⟩ <;> rw [hw] at h1 h2 h4 c1 c2 c3 <;> dsimp only at h1 h2 h4 c1 c2 c3 ⊢
    · by_cases hr : retryable true e = true
      · rw [if_pos hr]
        have hd := (h4 x e rfl hr).1
        rw [hd, if_neg (by simp)] at h2
        have hno : NoAns (fates h.turn pkt.marshalBinary).messages := by
          rcases hs with hs | ⟨pre, p, post, hm, -, -, -, ha⟩
          · exact hs
          · obtain ⟨y, hy⟩ := c2 ⟨p, by rw [hm]; simp, ha⟩
            cases hy; exact absurd hr (by decide)
        have := ih h' (.ret x e) ⟨c1, by rw [h1]; exact noAns_append h0.2 hno⟩ c3
        dsimp only at this
        rw [h2] at this
        exact this
      · rw [if_neg hr]
        refine ⟨c1, (fates h.turn pkt.marshalBinary).done, ?_, fun y hy => ?_, c3, ?_⟩
        · rw [h2]; split <;> simp
        · cases hy; exact absurd rfl hr
        · rw [h1]
          rcases hs with hs | ⟨pre, p, post, hm, s1, s2, s3, s4⟩
          · exact .inl (noAns_append h0.2 hs)
          · have hmem : some p ∈ (fates h.turn pkt.marshalBinary).messages := by rw [hm]; simp
            exact .inr ⟨h.messages ++ pre, p, post, by rw [hm, List.append_assoc], noAns_append h0.2 s1, s2, s3, s4, hf'.acked p hmem, hf'.nacked p hmem, c2 ⟨p, hmem, s4⟩⟩
    · refine ⟨c1, (fates h.turn pkt.marshalBinary).done, ?_, (fun y hy => nomatch hy), c3, .inl ?_⟩
      · rw [h2]; split <;> simp
      · rw [h1]
        rcases hs with hs | ⟨pre, p, post, hm, -, -, -, ha⟩
        · exact noAns_append h0.2 hs
        · obtain ⟨y, hy⟩ := c2 ⟨p, by rw [hm]; simp, ha⟩
          cases hy

/-- One call. -/
theorem call_clean (msg : Message) (retries : Int) (hf : ∀ n b, (fates n b).Punctual b) (h : House) (h0 : h.Clean) :
    ∃ fuel₀ h' r, ∃ b : Bool, (∀ fuel, fuel₀ ≤ fuel → Plm.write (House.io fates) retries fuel h msg = some (h', r)) ∧ h'.Clean ∧
      h'.runs = h.runs ++ (if b then [commandBytes msg] else []) ∧ (∀ ack, r = .ret ack none → b = true) ∧
      (∀ ack e, r = .ret ack (some e) → e = .plmNak ∨ e = .devNak → b = false) := by
  have key := attempts_clean fates ⟨PCmd.sendInsteonMsg, msg.marshalBinary.drop 3, 0#8⟩ rfl (fun n => hf n _) (retries + 1).toNat h (.ret none none) h0 (fun x hx => nomatch hx)
  have hb : (⟨PCmd.sendInsteonMsg, msg.marshalBinary.drop 3, 0#8⟩ : Packet).marshalBinary.drop 2 = commandBytes msg := by
    rw [← command_bytes_wire]; rfl
  rw [hb] at key
  obtain ⟨k1, b, k2, k3, k5, k4⟩ := key
  unfold Plm.write retryWrite
  rcases hr : retryLoop (Plm.writePacket (House.io fates)) true ⟨PCmd.sendInsteonMsg, msg.marshalBinary.drop 3, 0#8⟩ (retries + 1).toNat h (.ret none none)
    with ⟨h1, ⟨x, _ | e⟩ | _⟩ <;> rw [hr] at k1 k2 k3 k4 k5 <;> dsimp only at k1 k2 k3 k4 k5 ⊢
  · rcases k4 with k4 | ⟨pre, p, post, hm, s1, s2, s3, s4, s5, s6, -⟩
    · refine ⟨h1.messages.length + 1, { h1 with messages := [] }, _, b, fun fuel hfl => await_none fates msg.dst h1 h1.messages k4 fuel (by omega), ⟨k1, (fun m hm => nomatch hm)⟩, k2,
        (fun ack hh => nomatch hh), fun ack e hh he => ?_⟩
      cases hh; rcases he with he | he <;> cases he
    · obtain ⟨left, r, i1, i2, i3, i4, i5⟩ := await_one fates msg.dst h1 p post s3 s4 s2 pre s1
      refine ⟨h1.messages.length + 1, { h1 with messages := left }, r, b, fun fuel hfl => ?_, ⟨k1, i1⟩, k2, fun ack hh => s5 (i3 ack hh), fun ack e hh he => ?_⟩
      · rw [← i2 fuel (by rw [← hm]; omega), ← hm]
      · rcases he with rfl | rfl
        · exact absurd hh (i5 ack)
        · exact s6 (i4 ack hh)
  · have k4 : NoAns h1.messages := by
      rcases k4 with k4 | ⟨_, _, _, _, _, _, _, _, _, _, _, hx⟩
      · exact k4
      · cases hx
    refine ⟨0, h1, _, b, fun _ _ => rfl, ⟨k1, k4⟩, k2, (fun ack hh => nomatch hh), fun ack e' hh he => ?_⟩
    cases hh
    rcases he with rfl | rfl
    · exact k3 x rfl
    · exact absurd rfl (k5 x)
  · have k4 : NoAns h1.messages := by
      rcases k4 with k4 | ⟨_, _, _, _, _, _, _, _, _, _, _, hx⟩
      · exact k4
      · cases hx
    exact ⟨0, h1, _, b, fun _ _ => rfl, ⟨k1, k4⟩, k2, (fun ack hh => nomatch hh), (fun ack e' hh he => nomatch hh)⟩

/-- C161. For every history of commands, sent one after the other to any devices over a line on which nothing is late and nothing comes twice: all the calls
return, and the commands carried out are those of some of the calls, in the order of the calls and each once. A call that reports success is one of them,
a call that reports a refusal by the modem or by the device is not. -/
theorem commands_in_order (retries : Int) (hf : ∀ n b, (fates n b).Punctual b) (ms : List Message) : ∀ h : House, h.Clean →
    ∃ fuel₀ h' rs bs, (∀ fuel, fuel₀ ≤ fuel → House.history fates retries fuel h ms = some (h', rs)) ∧ h'.Clean ∧
      rs.length = ms.length ∧ bs.length = ms.length ∧ h'.runs = h.runs ++ marked ms bs ∧
      (∀ (i : Nat) ack, rs[i]? = some (.ret ack none) → bs[i]? = some true) ∧
      (∀ (i : Nat) ack e, rs[i]? = some (.ret ack (some e)) → e = .plmNak ∨ e = .devNak → bs[i]? = some false) := by
  induction ms with
  | nil => exact fun h h0 => ⟨0, h, [], [], fun _ _ => rfl, h0, rfl, rfl, by simp [marked], (fun i ack hh => by simp at hh), (fun i ack e hh => by simp at hh)⟩
  | cons m ms ih =>
    intro h h0
    obtain ⟨f1, h1, r, b, c1, c2, c3, c4, c5⟩ := call_clean fates m retries hf h h0
    obtain ⟨f2, h2, rs, bs, i1, i2, i3, i4, i5, i6, i7⟩ := ih h1 c2
    refine ⟨max f1 f2, h2, r :: rs, b :: bs, fun fuel hfl => ?_, i2, by simp [i3], by simp [i4], ?_, fun i ack hh => ?_, fun i ack e hh he => ?_⟩
    · rw [Spec.House.history, c1 fuel (by omega)]
      simp only [i1 fuel (by omega), Option.map_some]
    · rw [i5, c3]
      cases b <;> simp [marked]
    · rcases i with _ | i
      · simp only [List.getElem?_cons_zero, Option.some.injEq] at hh ⊢
        exact c4 ack hh
      · simp only [List.getElem?_cons_succ] at hh ⊢
        exact i6 i ack hh
    · rcases i with _ | i
      · simp only [List.getElem?_cons_zero, Option.some.injEq] at hh ⊢
        exact c5 ack e hh he
      · simp only [List.getElem?_cons_succ] at hh ⊢
        exact i7 i ack e hh he

/-- A message to a group. -/
def chatter : Option Packet := some ⟨0x50, [0x44, 0x55, 0x66, 0, 0, 1, 0xcb, 0x11, 0], 0⟩

/-- The modem's reply to a frame. -/
def echo (status : Byte) (b : Bytes) : Packet := ⟨0x62, 1 :: 2 :: 3 :: b.drop 2, status⟩

/-- A house in which the first frame is refused by the modem; the second carried out and acknowledged, with another message before; the third carried out
but the acknowledgement lost; the fourth refused by the device; the fifth lost on the way to the modem; all others are carried out. -/
def lively : Nat → Bytes → FrameFate
  | 0, b => ⟨none, false, [some (echo 0x15 b)], [chatter]⟩
  | 2, b => ⟨none, true, [some (echo 0x06 b)], [chatter]⟩
  | 3, b => ⟨none, false, [some (echo 0x06 b)], [some ⟨0x50, [0x44, 0x55, 0x66, 1, 2, 3, 0xaf, 0x11, 0xff], 0⟩]⟩
  | 4, _ => ⟨none, false, [], []⟩
  | _, b => ⟨none, true, [some (echo 0x06 b)], [chatter, some ⟨0x50, [0x44, 0x55, 0x66, 1, 2, 3, 0x2f, 0x11, 0xff], 0⟩]⟩

theorem lively_punctual (n : Nat) (b : Bytes) : (lively n b).Punctual b := by
  have hc : Confirmed b (echo 0x06 b) := ⟨rfl, rfl, 1, 2, 3, rfl⟩
  have hne : ¬ IsAnswer ⟨0x50, [0x44, 0x55, 0x66, 0, 0, 1, 0xcb, 0x11, 0], 0⟩ := by simp only [IsAnswer]; decide
  have hw : ∀ m ∈ [chatter], ∃ p, m = some p ∧ Whole p := by intro m hm; simp only [List.mem_singleton] at hm; subst hm; exact ⟨_, rfl, by simp only [Whole]; decide⟩
  have hr : ¬ RefusesFrame (echo 0x06 b) := fun h => absurd h.2 (by simp [echo])
  have hok : (⟨none, true, [some (echo 0x06 b)], [chatter, some ⟨0x50, [0x44, 0x55, 0x66, 1, 2, 3, 0x2f, 0x11, 0xff], 0⟩]⟩ : FrameFate).Punctual b := by
    refine ⟨.inr ⟨_, rfl⟩, fun m hm => ?_, fun p q x y z h hp => ?_, fun p _ _ => ⟨rfl, _, rfl, hc⟩, fun _ _ _ => rfl, fun p h hn => ?_, fun p h hn => ?_, by simp⟩
    · simp only [List.mem_cons, List.not_mem_nil, or_false] at hm
      rcases hm with rfl | rfl <;> exact ⟨_, rfl, by simp only [Whole]; decide⟩
    · rcases x with _ | ⟨x0, _ | ⟨x1, x⟩⟩ <;> simp [chatter] at h
      rw [← h.1] at hp
      exact absurd hp hne
    · simp only [chatter, List.mem_cons, Option.some.injEq, List.not_mem_nil, or_false] at h
      rcases h with rfl | rfl <;> exact absurd hn (by decide)
    · simp only [List.mem_singleton, Option.some.injEq] at h
      subst h; exact absurd hn hr
  rcases n with _ | _ | _ | _ | _ | n
  · refine ⟨.inr ⟨_, rfl⟩, hw, fun p q x y z h hp => ?_, fun p h hp => ?_, fun p h hp => ?_, fun _ _ _ => rfl, fun _ _ _ => rfl, by simp [lively]⟩
    · have := congrArg List.length h
      simp [lively] at this; omega
    · simp only [lively, chatter, List.mem_singleton, Option.some.injEq] at h
      subst h; exact absurd hp hne
    · simp only [lively, chatter, List.mem_singleton, Option.some.injEq] at h
      subst h; exact absurd (Or.inl hp) hne
  · exact hok
  · refine ⟨.inr ⟨_, rfl⟩, hw, fun p q x y z h hp => ?_, fun p h hp => ?_, fun _ _ _ => rfl, fun p h hp => ?_, fun p h hp => ?_, by simp [lively]⟩
    · have := congrArg List.length h
      simp [lively] at this; omega
    · simp only [lively, chatter, List.mem_singleton, Option.some.injEq] at h
      subst h; exact absurd hp hne
    · simp only [lively, chatter, List.mem_singleton, Option.some.injEq] at h
      subst h; exact absurd (Or.inr hp) hne
    · simp only [lively, List.mem_singleton, Option.some.injEq] at h
      subst h; exact absurd hp hr
  · refine ⟨.inr ⟨_, rfl⟩, fun m hm => ?_, fun p q x y z h hp => ?_, fun p h hp => ⟨rfl, _, rfl, hc⟩, fun p h hp => ?_, fun _ _ _ => rfl, fun _ _ _ => rfl, by simp [lively]⟩
    · simp only [lively, List.mem_singleton] at hm
      subst hm; exact ⟨_, rfl, by simp only [Whole]; decide⟩
    · have := congrArg List.length h
      simp [lively] at this; omega
    · simp only [lively, List.mem_singleton, Option.some.injEq] at h
      subst h; exact absurd hp (by decide)
  · refine ⟨.inl rfl, by simp [lively], fun p q x y z h hp => ?_, fun p h hp => ?_, fun p h hp => ?_, fun _ _ _ => rfl, fun _ _ _ => rfl, by simp [lively]⟩
    · simp [lively] at h
    · simp [lively] at h
    · simp [lively] at h
  · exact hok

/-- Five commands in that house. -/
example : ∃ h' rs, House.history lively 3 9 ⟨0, [], [], []⟩
      [⟨0, 0x445566#32, 0x0f, 0x11ff#64, []⟩, ⟨0, 0x445566#32, 0x0f, 0x1300#64, []⟩, ⟨0, 0x445566#32, 0x0f, 0x1500#64, []⟩,
       ⟨0, 0x445566#32, 0x0f, 0x1600#64, []⟩, ⟨0, 0x445566#32, 0x0f, 0x1100#64, []⟩] = some (h', rs) ∧
    h'.runs = [[0x44, 0x55, 0x66, 0x0f, 0x11, 0xff], [0x44, 0x55, 0x66, 0x0f, 0x13, 0x00], [0x44, 0x55, 0x66, 0x0f, 0x11, 0x00]] ∧
    rs.map (fun r => match r with | .ret _ e => e | .panic => none) = [none, some (Err.wrapped .insReadTimeout), some .devNak, some (.wrapped .plmReadTimeout), none] := by
  refine ⟨_, _, rfl, ?_, ?_⟩ <;> decide +kernel

/-- `commands_in_order` for that house and any commands. -/
example (ms : List Message) : ∃ fuel₀ h' rs bs, (∀ fuel, fuel₀ ≤ fuel → House.history lively 3 fuel ⟨0, [], [], []⟩ ms = some (h', rs)) ∧ h'.runs = marked ms bs := by
  obtain ⟨f, h', rs, bs, h1, -, -, -, h2, -⟩ := commands_in_order lively 3 lively_punctual ms ⟨0, [], [], []⟩ ⟨rfl, (fun m hm => nomatch hm)⟩
  exact ⟨f, h', rs, bs, h1, h2⟩

end House
end Insteon
