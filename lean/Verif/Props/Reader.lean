import Verif.Lemmas.Reader

/-
Properties C23 - C27: modem packet codec and serial framing.
-/

namespace Insteon
open Spec

instance (f : Frame) : Decidable f.wellFormed := by unfold Frame.wellFormed; infer_instance
instance (f : Frame) : Decidable f.hostFormed := by unfold Frame.hostFormed; infer_instance

/-! ### C23 -/

/-- C23: the modem's echo of a command followed by a status byte decodes to the command, its payload
and the status. `payload` is the payload of the reply, which for all commands but the queries is
the transmitted payload. -/
theorem modem_echo_decode (cmd status a : Byte) (payload : Bytes) (hc : 0x60 ≤ cmd.toNat)
    (hp : HostPayload cmd payload) :
    Packet.unmarshalBinary (Packet.marshalBinary ⟨cmd, payload, a⟩ ++ [status]) =
      .ok { command := cmd,
            payload := (if cmd = 0x62#8 then [0#8, 0#8, 0#8] else []) ++ payload,
            ack := status } := by
  have hs : Packet.hasStatus cmd (payload.length + 1) = true := by
    unfold HostPayload at hp
    unfold Packet.hasStatus
    simp only [PCmd.sendInsteonMsg]
    by_cases h : cmd = 0x62#8
    · subst h
      simp only [if_true] at hp ⊢
      simp only [Bool.and_eq_true, decide_eq_true_eq]
      exact ⟨by decide, by omega⟩
    · rw [if_neg h] at hp ⊢
      have hl := (commandLen_iff _ _).mpr hp
      have h7f : ∀ e ∈ lengthTable, e.1 ≤ 0x7f := by decide
      have := h7f _ hp
      simp only [Bool.and_eq_true, decide_eq_true_eq, hl, Option.getD_some, and_true]
      exact ⟨hc, this⟩
  simp [Packet.unmarshalBinary, Packet.marshalBinary, hs]

/-- What the host sends is what the reply carries, for every command except the two queries: payload
lengths agree between the two directions. -/
theorem modem_echo_lengths (f : Frame) (hf : f.hostFormed) (h1 : f.cmd ≠ 0x60#8)
    (h2 : f.cmd ≠ 0x73#8) : HostPayload f.cmd f.body := by
  unfold Frame.hostFormed at hf
  unfold HostPayload
  by_cases h : f.cmd = 0x62#8
  · rw [if_pos h] at hf ⊢
    obtain ⟨fl, -, hl⟩ := hf
    rw [hl]
    split_ifs <;> simp
  · rw [if_neg h] at hf ⊢
    have key : ∀ e ∈ hostLengthTable, e.1 ≠ 0x60 → e.1 ≠ 0x73 → e.1 ≠ 0x62 →
        (e.1, e.2 + 1) ∈ lengthTable := by decide
    have hne : ∀ n : Nat, n < 256 → f.cmd ≠ BitVec.ofNat 8 n → f.cmd.toNat ≠ n := by
      intro n hn hne heq
      apply hne
      apply BitVec.eq_of_toNat_eq
      simp [heq, Nat.mod_eq_of_lt hn]
    exact key _ hf (hne _ (by omega) h1) (hne _ (by omega) h2) (hne _ (by omega) h)

example : Packet.unmarshalBinary (Packet.marshalBinary ⟨0x62#8, [0xaa, 0xbb, 0xcc, 0x0f, 0x11, 0xff], 0⟩
    ++ [0x06#8]) = .ok ⟨0x62#8, [0, 0, 0, 0xaa, 0xbb, 0xcc, 0x0f, 0x11, 0xff], 0x06#8⟩ := by decide

example : HostPayload 0x62#8 [0xaa, 0xbb, 0xcc, 0x0f, 0x11, 0xff] := by simp [HostPayload]
example : Frame.hostFormed ⟨0x6f#8, [0x40, 0xe2, 1, 0xaa, 0xbb, 0xcc, 1, 2, 3]⟩ := by
  simp [Frame.hostFormed, hostLengthTable]

/-! ### C24 -/

theorem wellFormed_len (f : Frame) (hf : f.wellFormed) :
    ∃ n, commandLen f.cmd = some n ∧
      f.body.length = n + (if f.cmd = 0x62#8 ∧ (∃ g, f.body[3]? = some g ∧ isExtended g) then 14 else 0) := by
  unfold Frame.wellFormed at hf
  by_cases h : f.cmd = 0x62#8
  · rw [if_pos h] at hf
    obtain ⟨fl, hfl, hl⟩ := hf
    refine ⟨7, by rw [h]; decide, ?_⟩
    rw [hl]
    by_cases hx : isExtended fl
    · rw [if_pos hx, if_pos ⟨h, fl, hfl, hx⟩]
    · rw [if_neg hx, if_neg]
      rintro ⟨-, g, hg, hgx⟩
      rw [hfl] at hg
      simp at hg
      subst hg
      exact hx hgx
  · rw [if_neg h] at hf
    exact ⟨f.body.length, (commandLen_iff _ _).mpr hf, by rw [if_neg (fun hh => h hh.1)]; simp⟩

theorem unmarshal_frame (f : Frame) (hf : f.wellFormed) :
    Packet.unmarshalBinary f.bytes = .ok f.packet := by
  obtain ⟨cmd, body⟩ := f
  obtain ⟨n, hn, hl⟩ := wellFormed_len _ hf
  have hmem := (commandLen_iff _ _).mp hn
  dsimp only at hn hl hmem
  have htab : ∀ e ∈ lengthTable, e.1 ≤ 0x7f ∧ (0x60 ≤ e.1 → 1 ≤ e.2) := by decide
  have ht := htab _ hmem
  unfold Frame.bytes Frame.packet Packet.unmarshalBinary
  simp only [PCmd.sendInsteonMsg, ne_eq, not_true_eq_false, if_false]
  by_cases h60 : 0x60 ≤ cmd.toNat
  · have hs : Packet.hasStatus cmd body.length = true := by
      unfold Packet.hasStatus
      simp only [PCmd.sendInsteonMsg]
      by_cases h62 : cmd = 0x62#8
      · subst h62
        have : n = 7 := by rw [commandLen] at hn; simpa using hn.symm
        simp only [Bool.and_eq_true, decide_eq_true_eq, if_true]
        refine ⟨by decide, ?_⟩
        rw [hl, this]
        split_ifs <;> simp
      · rw [if_neg (fun hh => h62 hh.1)] at hl
        simp only [Bool.and_eq_true, decide_eq_true_eq, if_neg h62, hn, Option.getD_some]
        exact ⟨⟨h60, ht.1⟩, by omega⟩
    have hne : body ≠ [] := by
      intro h
      subst h
      have := ht.2 h60
      simp at hl
      omega
    rw [if_pos hs, if_neg hne, if_pos h60]
    rfl
  · have hs : Packet.hasStatus cmd body.length = false := by
      unfold Packet.hasStatus
      have : ¬ (0x60 ≤ cmd.toNat ∧ cmd.toNat ≤ 0x7f) := fun h => h60 h.1
      simp only [this, decide_false, Bool.false_and]
    have h62 : ¬ cmd = 0x62#8 := by
      rintro rfl
      exact h60 (by decide)
    rw [if_neg (by simp [hs]), if_neg h60, if_neg h62]
    rfl

theorem ite_iff {a b : Prop} {_ : Decidable a} {_ : Decidable b} {x y : Nat} (h : a ↔ b) :
    (if a then x else y) = if b then x else y := by
  by_cases ha : a
  · rw [if_pos ha, if_pos (h.mp ha)]
  · rw [if_neg ha, if_neg (fun hb => ha (h.mpr hb))]

/-- Two ways to split a stream into a frame body and the rest agree when each length is determined by
its own fourth byte. -/
theorem split_unique {x : Bytes} {b1 r1 b2 r2 : Bytes} {m : Nat} (P : Byte → Prop) (hm : 4 ≤ m ∨ ∀ g, ¬ P g)
    (h1 : x = b1 ++ r1) (h2 : x = b2 ++ r2)
    (l1 : b1.length = m + (open Classical in if ∃ g, b1[3]? = some g ∧ P g then 14 else 0))
    (l2 : b2.length = m + (open Classical in if ∃ g, b2[3]? = some g ∧ P g then 14 else 0)) :
    b1 = b2 ∧ r1 = r2 := by
  have hlen : b1.length = b2.length := by
    rcases hm with hm | hm
    · have e1 : x[3]? = b1[3]? := by rw [h1, List.getElem?_append_left (by omega)]
      have e2 : x[3]? = b2[3]? := by rw [h2, List.getElem?_append_left (by omega)]
      rw [l1, l2, ← e1, ← e2]
    · rw [l1, l2, if_neg (by rintro ⟨g, -, hg⟩; exact hm g hg), if_neg (by rintro ⟨g, -, hg⟩; exact hm g hg)]
  exact List.append_inj (h1 ▸ h2) hlen

/-- One packet: noise, then a frame, then anything. -/
theorem read_one (noise : Bytes) (f : Frame) (rest : Bytes) (l : Option Byte) (fuel : Nat)
    (hq : Quiet noise) (hf : f.wellFormed) (hfuel : noise.length < fuel) :
    ∃ l', readPacket false fuel ⟨noise ++ f.bytes ++ rest, l⟩ = some (.ok f.packet, ⟨rest, l'⟩) := by
  obtain ⟨n, hn, hl⟩ := wellFormed_len f hf
  have hs := sync_noise false noise f.cmd (f.body ++ rest) n hq hn fuel hfuel l
  have hsl : syncLen false f.cmd n = n := by simp [syncLen]
  have heq : noise ++ f.bytes ++ rest = noise ++ 0x02#8 :: f.cmd :: (f.body ++ rest) := by
    simp [Frame.bytes]
  have hm : 4 ≤ n ∨ ∀ g, ¬ (f.cmd = 0x62#8 ∧ isExtended g) := by
    by_cases h : f.cmd = 0x62#8
    · left
      rw [h] at hn
      have : n = 7 := by rw [commandLen] at hn; simpa using hn.symm
      omega
    · right; rintro g ⟨h', -⟩; exact h h'
  have conv : ∀ b : Bytes, (f.cmd = 0x62#8 ∧ ∃ g, b[3]? = some g ∧ isExtended g) ↔
      ∃ g, b[3]? = some g ∧ (f.cmd = 0x62#8 ∧ isExtended g) := by
    intro b
    constructor
    · rintro ⟨h, g, h1, h2⟩; exact ⟨g, h1, h, h2⟩
    · rintro ⟨g, h1, h, h2⟩; exact ⟨h, g, h1, h2⟩
  have hfr : ∃ l', readFrame false fuel ⟨noise ++ f.bytes ++ rest, l⟩ = some (.ok f.bytes, ⟨rest, l'⟩) := by
    rw [heq]
    have key := readFrame_after_sync false fuel _ _ f.cmd n hn hs
    rw [hsl] at key
    rcases key with ⟨body, r, l', hb, hr, hbl⟩ | ⟨e, s'', hr, -⟩
    · have := split_unique (fun g => f.cmd = 0x62#8 ∧ isExtended g) hm hb (rfl : f.body ++ rest = f.body ++ rest)
        (by rw [hbl]; congr 1; exact ite_iff (conv _)) (by rw [hl]; congr 1; exact ite_iff (conv _))
      obtain ⟨rfl, rfl⟩ := this
      exact ⟨l', hr⟩
    · exfalso
      -- enough bytes are there, so the read cannot fail
      unfold readFrame at hr
      rw [hs, hsl] at hr
      dsimp only at hr
      have hn23 := commandLen_le _ _ hn
      rw [if_neg (show ¬ maxPaclen < 2 + n by unfold maxPaclen; omega)] at hr
      obtain ⟨l1, h1⟩ := readFull_ok ⟨f.body ++ rest, some f.cmd⟩ n (by
        rw [List.length_append, hl]; omega)
      rw [h1] at hr
      dsimp only at hr
      by_cases h62 : f.cmd = 0x62#8
      · have hn7 : n = 7 := by rw [h62, commandLen] at hn; simpa using hn.symm
        subst hn7
        rw [if_pos (show f.cmd = PCmd.sendInsteonMsg from h62)] at hr
        obtain ⟨g, hg⟩ : ∃ g, f.body[3]? = some g := ⟨_, List.getElem?_eq_getElem (by omega)⟩
        have h5 : ([0x02#8, f.cmd] ++ List.take 7 (f.body ++ rest))[5]? = some g := by
          simp only [List.cons_append, List.nil_append, List.getElem?_cons_succ]
          rw [List.getElem?_take_of_lt (by omega), List.getElem?_append_left (by omega), hg]
        rw [h5] at hr
        dsimp only at hr
        by_cases hx : Flags.extended g = true
        · rw [if_pos hx, if_neg (show ¬ maxPaclen < 2 + 7 + 14 by decide)] at hr
          rw [if_pos ⟨h62, g, hg, (extended_iff g).mp hx⟩] at hl
          obtain ⟨l2, h2⟩ := readFull_ok ⟨List.drop 7 (f.body ++ rest), l1⟩ 14 (by
            simp only [List.length_drop, List.length_append]; omega)
          rw [h2] at hr
          simp at hr
        · rw [if_neg hx] at hr
          simp at hr
      · rw [if_neg (show ¬ f.cmd = PCmd.sendInsteonMsg from h62)] at hr
        simp at hr
  obtain ⟨l', hfr⟩ := hfr
  refine ⟨l', ?_⟩
  unfold readPacket
  rw [hfr]
  dsimp only
  rw [unmarshal_frame f hf]

/-- C24: reading a serial stream made of well-formed frames separated by noise gives exactly those
packets, in order, and then the end of the stream. -/
theorem stream_framing (items : List (List (BitVec 8) × Frame)) (tail : List (BitVec 8))
    (hnoise : ∀ it ∈ items, Quiet it.1) (hframe : ∀ it ∈ items, it.2.wellFormed)
    (htail : Quiet tail) (hend : tail.getLast? ≠ some 0x02#8) :
    ∃ fuel₀, ∀ fuel ≥ fuel₀, ∀ n > items.length, ∀ l,
      readAll false fuel n ⟨items.flatMap (fun it => it.1 ++ it.2.bytes) ++ tail, l⟩ =
        some (items.map (fun it => it.2.packet), .err .eof) := by
  induction items with
  | nil =>
    refine ⟨tail.length + 1, fun fuel hfuel n hn l => ?_⟩
    obtain ⟨m, rfl⟩ : ∃ m, n = m + 1 := ⟨n - 1, by simp at hn; omega⟩
    obtain ⟨l', h⟩ := sync_quiet_end false tail htail hend fuel (by omega) l
    simp [readAll, readPacket, readFrame, h]
  | cons it items ih =>
    obtain ⟨fuel₀, ih⟩ := ih (fun i hi => hnoise i (by simp [hi])) (fun i hi => hframe i (by simp [hi]))
    refine ⟨max fuel₀ (it.1.length + 1), fun fuel hfuel n hn l => ?_⟩
    obtain ⟨m, rfl⟩ : ∃ m, n = m + 1 := ⟨n - 1, by simp at hn; omega⟩
    obtain ⟨l', h⟩ := read_one it.1 it.2 (items.flatMap (fun it => it.1 ++ it.2.bytes) ++ tail) l fuel
      (hnoise it (by simp)) (hframe it (by simp)) (by omega)
    have := ih fuel (by omega) m (by simp at hn; omega) l'
    simp only [List.flatMap_cons, List.append_assoc] at h this ⊢
    simp only [readAll, h, this, List.map_cons]

/-- Two packets, one an extended echo, with noise before and between. -/
example : ∃ items : List (List (BitVec 8) × Frame), items.length = 3 ∧
    (∀ it ∈ items, Quiet it.1) ∧ (∀ it ∈ items, it.2.wellFormed) := by
  refine ⟨[([0x00, 0x02, 0x02], ⟨0x50#8, [1, 2, 3, 4, 5, 6, 0x2f, 0x11, 0xff]⟩),
    ([], ⟨0x62#8, [1, 2, 3, 0x1f, 0x2f, 0, 0, 1, 2, 3, 4, 5, 6, 7, 8, 9, 10, 11, 12, 13, 6]⟩),
    ([0x15], ⟨0x6a#8, [0x15]⟩)], rfl, ?_, ?_⟩
  · intro it hit
    simp only [List.mem_cons, List.not_mem_nil, or_false] at hit
    rintro ⟨a, c, b, h, hk⟩
    rcases hit with rfl | rfl | rfl
    · rcases a with _ | ⟨a0, _ | ⟨a1, _ | ⟨a2, a⟩⟩⟩ <;> simp at h
      obtain ⟨-, h, -⟩ := h
      rw [← h] at hk
      exact stx_not_known hk
    · simp at h
    · rcases a with _ | ⟨a0, a⟩ <;> simp at h
  · intro it hit
    simp only [List.mem_cons, List.not_mem_nil, or_false] at hit
    rcases hit with rfl | rfl | rfl
    · decide
    · exact ⟨0x1f#8, rfl, rfl⟩
    · decide

/-! ### C25 -/

/-- Whatever `sync` finds was in the stream. -/
theorem sync_sound (ia : Bool) (fuel : Nat) (s : Buf) (r : Except Err (Byte × Nat)) (s' : Buf)
    (h : sync ia fuel s = some (r, s')) :
    (∃ noise c n, s.rest = noise ++ 0x02#8 :: c :: s'.rest ∧ commandLen c = some n ∧
      r = .ok (c, syncLen ia c n)) ∨ r = .error .eof := by
  induction fuel generalizing s with
  | zero => simp [sync] at h
  | succ f ih =>
    obtain ⟨rest, l⟩ := s
    cases rest with
    | nil =>
      simp [sync, Buf.readByte] at h
      exact Or.inr h.1.symm
    | cons b rest =>
      by_cases hb : b = 0x02#8
      · subst hb
        cases rest with
        | nil =>
          rw [sync_stx_end] at h
          exact ih ⟨[0x02#8], none⟩ h
        | cons c rest =>
          cases hc : commandLen c with
          | none =>
            rw [sync_stx_unknown ia f c rest l ((not_known_iff c).mpr hc)] at h
            rcases ih _ h with ⟨noise, c', n, h1, h2, h3⟩ | h'
            · left
              refine ⟨0x02#8 :: noise, c', n, ?_, h2, h3⟩
              dsimp only at h1 ⊢
              rw [h1]; rfl
            · exact Or.inr h'
          | some n =>
            rw [sync_stx_known ia f c rest l n hc] at h
            simp only [Option.some.injEq, Prod.mk.injEq] at h
            left
            exact ⟨[], c, n, by rw [← h.2]; rfl, hc, h.1.symm⟩
      · rw [sync_skip ia f b rest l hb] at h
        rcases ih _ h with ⟨noise, c', n, h1, h2, h3⟩ | h'
        · left
          refine ⟨b :: noise, c', n, ?_, h2, h3⟩
          dsimp only at h1 ⊢
          rw [h1]; rfl
        · exact Or.inr h'

/-- The frame read was in the stream; its length is the one announced. -/
theorem readFrame_sound (ia : Bool) (fuel : Nat) (s : Buf) (r : Out Bytes) (s' : Buf)
    (h : readFrame ia fuel s = some (r, s')) :
    (∃ noise c n body, s.rest = noise ++ 0x02#8 :: c :: body ++ s'.rest ∧ commandLen c = some n ∧
      r = .ok (0x02#8 :: c :: body) ∧
      body.length = syncLen ia c n +
        (if c = 0x62#8 ∧ (∃ g, body[3]? = some g ∧ isExtended g) then 14 else 0)) ∨
    r = .err .eof ∨ r = .err .unexpectedEOF := by
  cases hs : sync ia fuel s with
  | none => simp [readFrame, hs] at h
  | some v =>
    obtain ⟨w, s1⟩ := v
    rcases sync_sound ia fuel s w s1 hs with ⟨noise, c, n, h1, h2, rfl⟩ | rfl
    · rcases readFrame_after_sync ia fuel s s1 c n h2 hs with ⟨body, rest, l, hb, hr, hl⟩ | ⟨e, s2, hr, he⟩
      · rw [hr] at h
        simp only [Option.some.injEq, Prod.mk.injEq] at h
        left
        refine ⟨noise, c, n, body, ?_, h2, h.1.symm, hl⟩
        rw [h1, hb, ← h.2]
        simp
      · rw [hr] at h
        simp only [Option.some.injEq, Prod.mk.injEq] at h
        right
        rcases he with rfl | rfl
        · exact Or.inl h.1.symm
        · exact Or.inr h.1.symm
    · simp only [readFrame, hs, Option.some.injEq, Prod.mk.injEq] at h
      exact Or.inr (Or.inl h.1.symm)

/-- C25: in both modes and whatever bytes arrive, reading a packet never panics; an error is always
the end of the stream; a returned packet was in the stream as contiguous bytes that start with
start-of-text and a known command, fit in the 25-byte buffer, and everything after them is still
to be read. -/
theorem reader_safe (ignoreAck : Bool) (fuel : Nat) (s : List (BitVec 8)) (l : Option (BitVec 8))
    (r : Out Packet) (s' : Buf) (h : readPacket ignoreAck fuel ⟨s, l⟩ = some (r, s')) :
    (∃ p noise body, r = .ok p ∧ s = noise ++ (0x02#8 :: p.command :: body) ++ s'.rest ∧
        Known p.command ∧ (0x02#8 :: p.command :: body).length ≤ 25 ∧
        Packet.unmarshalBinary (0x02#8 :: p.command :: body) = .ok p) ∨
      r = .err .eof ∨ r = .err .unexpectedEOF := by
  unfold readPacket at h
  cases hr : readFrame ignoreAck fuel ⟨s, l⟩ with
  | none => simp [hr] at h
  | some v =>
    obtain ⟨w, s1⟩ := v
    rcases readFrame_sound ignoreAck fuel ⟨s, l⟩ w s1 hr with
      ⟨noise, c, n, body, h1, h2, rfl, hl⟩ | rfl | rfl
    · left
      rw [hr] at h
      simp only [Option.some.injEq, Prod.mk.injEq] at h
      obtain ⟨h, rfl⟩ := h
      have hok : ∃ p, Packet.unmarshalBinary (0x02#8 :: c :: body) = .ok p ∧ p.command = c := by
        unfold Packet.unmarshalBinary
        simp only [ne_eq, not_true_eq_false, if_false]
        by_cases hst : Packet.hasStatus c body.length = true
        · have hne : body ≠ [] := by
            rintro rfl
            unfold Packet.hasStatus at hst
            simp only [Bool.and_eq_true, decide_eq_true_eq] at hst
            obtain ⟨⟨hc1, hc2⟩, hst⟩ := hst
            by_cases h62 : c = PCmd.sendInsteonMsg
            · simp [h62] at hst
            · rw [if_neg h62, h2] at hst
              simp only [Option.getD_some, decide_eq_true_eq] at hst
              have hm := (commandLen_iff _ _).mp h2
              have : ∀ e ∈ lengthTable, 0x60 ≤ e.1 → e.2 ≠ 0 := by decide
              exact this _ hm hc1 hst.symm
          rw [if_pos hst, if_neg hne]
          exact ⟨_, rfl, rfl⟩
        · rw [if_neg hst]
          exact ⟨_, rfl, rfl⟩
      obtain ⟨p, hp, hpc⟩ := hok
      refine ⟨p, noise, body, by rw [← h, hp], ?_, ?_, ?_, ?_⟩
      · rw [hpc]; simpa using h1
      · rw [hpc]; exact (known_iff c).mpr ⟨n, h2⟩
      · have hn := commandLen_le c n h2
        have hsl : syncLen ignoreAck c n ≤ n := by unfold syncLen; split_ifs <;> omega
        simp only [List.length_cons]
        rw [hl]
        by_cases h62 : c = 0x62#8
        · have : n = 7 := by rw [h62, commandLen] at h2; simpa using h2.symm
          split_ifs <;> omega
        · rw [if_neg (fun hh => h62 hh.1)]; omega
      · rw [hpc]; exact hp
    · rw [hr] at h
      simp only [Option.some.injEq, Prod.mk.injEq] at h
      exact Or.inr (Or.inl h.1.symm)
    · rw [hr] at h
      simp only [Option.some.injEq, Prod.mk.injEq] at h
      exact Or.inr (Or.inr h.1.symm)

/-- A stream with garbage that looks like the start of a frame. -/
example : readPacket false 10 ⟨[0x02, 0x99, 0x02, 0x02, 0x6a, 0x06, 0x77], none⟩ =
    some (.ok ⟨0x6a#8, [], 0x06#8⟩, ⟨[0x77], some 0x06#8⟩) := by decide

/-! ### C26 -/

/-- C26, exactly when it holds: reading a packet from a finite stream returns after finitely many
steps unless the stream is noise that ends in a start-of-text byte. -/
theorem reader_terminates_partial (ignoreAck : Bool) (s : List (BitVec 8)) (l : Option (BitVec 8)) :
    (∃ fuel r, readPacket ignoreAck fuel ⟨s, l⟩ = some r) ↔
      ¬ (Quiet s ∧ s.getLast? = some 0x02#8) := by
  constructor
  · rintro ⟨fuel, r, h⟩ ⟨hq, he⟩
    have := sync_spins ignoreAck s hq he fuel l
    simp [readPacket, readFrame, this] at h
  · intro h
    have hsync : ∃ fuel v, sync ignoreAck fuel ⟨s, l⟩ = some v := by
      rcases quiet_or_start s with hq | ⟨noise, c, rest, rfl, hq, hk⟩
      · obtain ⟨l', h'⟩ := sync_quiet_end ignoreAck s hq (fun he => h ⟨hq, he⟩) (s.length + 1) (by omega) l
        exact ⟨_, _, h'⟩
      · obtain ⟨n, hn⟩ := (known_iff c).mp hk
        exact ⟨_, _, sync_noise ignoreAck noise c rest n hq hn (noise.length + 1) (by omega) l⟩
    obtain ⟨fuel, ⟨w, s1⟩, hv⟩ := hsync
    refine ⟨fuel, ?_⟩
    have : ∃ v, readFrame ignoreAck fuel ⟨s, l⟩ = some v := by
      rcases sync_sound ignoreAck fuel _ w s1 hv with ⟨noise, c, n, -, h2, rfl⟩ | rfl
      · rcases readFrame_after_sync ignoreAck fuel _ s1 c n h2 hv with ⟨_, _, _, _, hr, _⟩ | ⟨_, _, hr, _⟩ <;>
          exact ⟨_, hr⟩
      · exact ⟨(.err .eof, s1), by simp only [readFrame, hv]⟩
    obtain ⟨⟨w, s2⟩, hw⟩ := this
    unfold readPacket
    rw [hw]
    cases w <;> exact ⟨_, rfl⟩

/-- When the stream holds no further frame and does not end in start-of-text, the reader reports the
end of the stream. -/
theorem reader_eof_partial (ignoreAck : Bool) (s : List (BitVec 8)) (l : Option (BitVec 8))
    (hq : Quiet s) (he : s.getLast? ≠ some 0x02#8) :
    ∀ fuel > s.length, ∃ l', readPacket ignoreAck fuel ⟨s, l⟩ = some (.err .eof, ⟨[], l'⟩) := by
  intro fuel hf
  obtain ⟨l', h⟩ := sync_quiet_end ignoreAck s hq he fuel hf l
  exact ⟨l', by simp [readPacket, readFrame, h]⟩

/-- C26 is false of the code: after a single start-of-text byte and the end of the stream, reading a
packet runs for ever. -/
theorem reader_terminates_refuted :
    ¬ ∀ (ignoreAck : Bool) (s : List (BitVec 8)) (l : Option (BitVec 8)),
      ∃ fuel r, readPacket ignoreAck fuel ⟨s, l⟩ = some r := by
  intro h
  have := (reader_terminates_partial false [0x02#8] none).mp (h false [0x02#8] none)
  apply this
  refine ⟨?_, rfl⟩
  rintro ⟨a, c, b, h, -⟩
  rcases a with _ | ⟨a0, a⟩ <;> simp at h

/-! ### C27 -/

/-- C27 for the host commands 0x61 to 0x64: with acknowledgements ignored, a host frame after noise is
read exactly. -/
theorem snoop_framing_partial (noise : Bytes) (f : Frame) (rest : Bytes) (l : Option Byte) (fuel : Nat)
    (hq : Quiet noise) (hf : f.hostFormed) (hc : 0x61 ≤ f.cmd.toNat ∧ f.cmd.toNat ≤ 0x64)
    (hfuel : noise.length < fuel) :
    ∃ l', readPacket true fuel ⟨noise ++ f.bytes ++ rest, l⟩ =
      some (.ok { command := f.cmd,
                  payload := (if f.cmd = 0x62#8 then [0#8, 0#8, 0#8] else []) ++ f.body,
                  ack := 0#8 }, ⟨rest, l'⟩) := by
  have hlen : ∃ n, commandLen f.cmd = some n ∧ f.body.length = syncLen true f.cmd n +
      (if f.cmd = 0x62#8 ∧ (∃ g, f.body[3]? = some g ∧ isExtended g) then 14 else 0) := by
    unfold Frame.hostFormed at hf
    by_cases h : f.cmd = 0x62#8
    · rw [if_pos h] at hf
      obtain ⟨fl, hfl, hl⟩ := hf
      refine ⟨7, by rw [h]; decide, ?_⟩
      have : syncLen true f.cmd 7 = 6 := by rw [h]; decide
      rw [hl, this]
      by_cases hx : isExtended fl
      · rw [if_pos hx, if_pos ⟨h, fl, hfl, hx⟩]
      · rw [if_neg hx, if_neg]
        rintro ⟨-, g, hg, hgx⟩
        rw [hfl] at hg
        simp at hg
        subst hg
        exact hx hgx
    · rw [if_neg h] at hf
      have key : ∀ e ∈ hostLengthTable, (0x61 ≤ e.1 ∧ e.1 ≤ 0x64) → e.1 ≠ 0x62 →
          (e.1, e.2 + 1) ∈ lengthTable := by decide
      have hne : f.cmd.toNat ≠ 0x62 := by
        intro heq
        exact h (BitVec.eq_of_toNat_eq (by simp [heq]))
      have := (commandLen_iff _ _).mpr (key _ hf hc hne)
      refine ⟨_, this, ?_⟩
      rw [if_neg (fun hh => h hh.1)]
      simp only [syncLen]
      rw [if_pos]
      · simp
      · simp only [Bool.true_and, decide_eq_true_eq]; omega
  obtain ⟨n, hn, hl⟩ := hlen
  have hm4 : f.cmd = 0x62#8 → syncLen true f.cmd n = 6 := by
    intro h
    have : n = 7 := by rw [h, commandLen] at hn; simpa using hn.symm
    rw [h, this]; decide
  have hs := sync_noise true noise f.cmd (f.body ++ rest) n hq hn fuel hfuel l
  have heq : noise ++ f.bytes ++ rest = noise ++ 0x02#8 :: f.cmd :: (f.body ++ rest) := by
    simp [Frame.bytes]
  have hm : 4 ≤ syncLen true f.cmd n ∨ ∀ g, ¬ (f.cmd = 0x62#8 ∧ isExtended g) := by
    by_cases h : f.cmd = 0x62#8
    · left; rw [hm4 h]; omega
    · right; rintro g ⟨h', -⟩; exact h h'
  have conv : ∀ b : Bytes, (f.cmd = 0x62#8 ∧ ∃ g, b[3]? = some g ∧ isExtended g) ↔
      ∃ g, b[3]? = some g ∧ (f.cmd = 0x62#8 ∧ isExtended g) := by
    intro b
    constructor
    · rintro ⟨h, g, h1, h2⟩; exact ⟨g, h1, h, h2⟩
    · rintro ⟨g, h1, h, h2⟩; exact ⟨h, g, h1, h2⟩
  have hfr : ∃ l', readFrame true fuel ⟨noise ++ f.bytes ++ rest, l⟩ = some (.ok f.bytes, ⟨rest, l'⟩) := by
    rw [heq]
    rcases readFrame_after_sync true fuel _ _ f.cmd n hn hs with ⟨body, r, l', hb, hr, hbl⟩ | ⟨e, s'', hr, -⟩
    · have := split_unique (fun g => f.cmd = 0x62#8 ∧ isExtended g) hm hb (rfl : f.body ++ rest = f.body ++ rest)
        (by rw [hbl]; congr 1; exact ite_iff (conv _)) (by rw [hl]; congr 1; exact ite_iff (conv _))
      obtain ⟨rfl, rfl⟩ := this
      exact ⟨l', hr⟩
    · exfalso
      unfold readFrame at hr
      rw [hs] at hr
      dsimp only at hr
      have hn23 := commandLen_le _ _ hn
      have hsl : syncLen true f.cmd n ≤ n := by unfold syncLen; split_ifs <;> omega
      rw [if_neg (show ¬ maxPaclen < 2 + syncLen true f.cmd n by unfold maxPaclen; omega)] at hr
      obtain ⟨l1, h1⟩ := readFull_ok ⟨f.body ++ rest, some f.cmd⟩ (syncLen true f.cmd n) (by
        rw [List.length_append, hl]; omega)
      rw [h1] at hr
      dsimp only at hr
      by_cases h62 : f.cmd = 0x62#8
      · rw [hm4 h62] at hr hl h1
        rw [if_pos (show f.cmd = PCmd.sendInsteonMsg from h62)] at hr
        obtain ⟨g, hg⟩ : ∃ g, f.body[3]? = some g := ⟨_, List.getElem?_eq_getElem (by omega)⟩
        have h5 : ([0x02#8, f.cmd] ++ List.take 6 (f.body ++ rest))[5]? = some g := by
          simp only [List.cons_append, List.nil_append, List.getElem?_cons_succ]
          rw [List.getElem?_take_of_lt (by omega), List.getElem?_append_left (by omega), hg]
        rw [h5] at hr
        dsimp only at hr
        by_cases hx : Flags.extended g = true
        · rw [if_pos hx, if_neg (show ¬ maxPaclen < 2 + 6 + 14 by decide)] at hr
          rw [if_pos ⟨h62, g, hg, (extended_iff g).mp hx⟩] at hl
          obtain ⟨l2, h2⟩ := readFull_ok ⟨List.drop 6 (f.body ++ rest), l1⟩ 14 (by
            simp only [List.length_drop, List.length_append]; omega)
          rw [h2] at hr
          simp at hr
        · rw [if_neg hx] at hr
          simp at hr
      · rw [if_neg (show ¬ f.cmd = PCmd.sendInsteonMsg from h62)] at hr
        simp at hr
  obtain ⟨l', hfr⟩ := hfr
  refine ⟨l', ?_⟩
  unfold readPacket
  rw [hfr]
  dsimp only
  have hst : Packet.hasStatus f.cmd f.body.length = false := by
    unfold Packet.hasStatus
    by_cases h62 : f.cmd = 0x62#8
    · rw [hm4 h62] at hl
      simp only [h62, PCmd.sendInsteonMsg, if_true]
      have : ¬ (f.body.length = 21 ∨ f.body.length = 7) := by split_ifs at hl <;> omega
      simp [this]
    · rw [if_neg (fun hh => h62 hh.1)] at hl
      have h62' : ¬ f.cmd = PCmd.sendInsteonMsg := h62
      rw [if_neg h62', hn]
      have hpos : 1 ≤ n := by
        have : ∀ e ∈ lengthTable, 0x61 ≤ e.1 → 1 ≤ e.2 := by decide
        exact this _ ((commandLen_iff _ _).mp hn) hc.1
      have : syncLen true f.cmd n = n - 1 := by
        simp only [syncLen]
        rw [if_pos]
        simp only [Bool.true_and, decide_eq_true_eq]; omega
      have : ¬ f.body.length = n := by omega
      simp [this]
  unfold Frame.bytes Packet.unmarshalBinary
  simp [hst, PCmd.sendInsteonMsg]

/-- Every other host command is misframed: whatever follows the frame on the line, the reader either
returns nothing or has swallowed bytes that belong to what follows. -/
theorem snoop_misframed (f : Frame) (rest : Bytes) (l : Option Byte) (fuel : Nat)
    (hf : f.hostFormed) (hc : ¬ (0x61 ≤ f.cmd.toNat ∧ f.cmd.toNat ≤ 0x64)) (p : Packet) (s' : Buf)
    (h : readPacket true fuel ⟨f.bytes ++ rest, l⟩ = some (.ok p, s')) :
    s'.rest.length < rest.length := by
  have h62 : ¬ f.cmd = 0x62#8 := by
    intro h; rw [h] at hc; exact hc (by decide)
  unfold Frame.hostFormed at hf
  rw [if_neg h62] at hf
  have key : ∀ e ∈ hostLengthTable, ¬ (0x61 ≤ e.1 ∧ e.1 ≤ 0x64) →
      commandLen (BitVec.ofNat 8 e.1) ≠ none ∧
      e.2 < syncLen true (BitVec.ofNat 8 e.1) ((commandLen (BitVec.ofNat 8 e.1)).getD 0) := by decide
  have hk := key _ hf hc
  simp only [BitVec.ofNat_toNat, BitVec.setWidth_eq] at hk
  obtain ⟨n, hn⟩ := Option.ne_none_iff_exists'.mp hk.1
  rw [hn] at hk
  have hlt : f.body.length < syncLen true f.cmd n := hk.2
  have hfuel : 0 < fuel := by
    rcases fuel with _ | k
    · simp [readPacket, readFrame, sync] at h
    · omega
  have hs := sync_noise true [] f.cmd (f.body ++ rest) n (by rintro ⟨a, c, b, h, -⟩; simp at h) hn fuel
    (by simpa using hfuel) l
  have heq : f.bytes ++ rest = [] ++ 0x02#8 :: f.cmd :: (f.body ++ rest) := by
    simp [Frame.bytes]
  rw [heq] at h
  unfold readPacket at h
  rcases readFrame_after_sync true fuel _ _ f.cmd n hn hs with ⟨body, r, l', hb, hr, hbl⟩ | ⟨e, s'', hr, -⟩
  · rw [hr] at h
    simp only [Option.some.injEq, Prod.mk.injEq] at h
    rw [← h.2]
    dsimp only at hb ⊢
    have hlen := congrArg List.length hb
    rw [List.length_append, List.length_append] at hlen
    omega
  · rw [hr] at h
    simp at h

/-- C27 is false of the code: the two-byte get-info request at the end of the line is not returned. -/
theorem snoop_framing_refuted :
    ¬ ∀ (f : Frame), f.hostFormed → ∃ fuel l', readPacket true fuel ⟨f.bytes, none⟩ =
      some (.ok ⟨f.cmd, (if f.cmd = 0x62#8 then [0#8, 0#8, 0#8] else []) ++ f.body, 0#8⟩, ⟨[], l'⟩) := by
  intro h
  obtain ⟨fuel, l', h⟩ := h ⟨0x60#8, []⟩ (by decide)
  have := snoop_misframed ⟨0x60#8, []⟩ [] none fuel (by decide) (by decide) _ _ (by simpa using h)
  simp at this

example : Frame.hostFormed ⟨0x64#8, [0x01, 0x05]⟩ ∧ Frame.hostFormed ⟨0x62#8, [1, 2, 3, 0x0f, 0x11, 0xff]⟩ :=
  ⟨by decide, ⟨0x0f#8, rfl, rfl⟩⟩

end Insteon
