import Verif.Model.Port
import Verif.Props.Reader

/-
Property C187: a failing port is noticed.
-/

namespace Insteon
open Spec

/-- The port gives `bytes` and then fails with `e`, once (and goes on with `later`) or for ever. -/
def FailsAfter (f : Feed) (bytes : List (BitVec 8)) (e : Err) : Prop :=
  (f.events = bytes.map .got ∧ f.after = e) ∨ ∃ later, f.events = bytes.map .got ++ .fail e :: later

/-- The tail of the events of a port that fails next with `e`. -/
def FailsNow (t : List PortEvent) (after e : Err) : Prop := (t = [] ∧ after = e) ∨ ∃ later, t = .fail e :: later

theorem failsAfter_tail (f : Feed) (bytes : Bytes) (e : Err) (h : FailsAfter f bytes e) :
    ∃ t, FailsNow t f.after e ∧ f = ⟨bytes.map .got ++ t, f.after, f.last⟩ := by
  obtain ⟨ev, af, l⟩ := f
  rcases h with ⟨h1, h2⟩ | ⟨later, h1⟩ <;> dsimp only at h1
  · exact ⟨[], .inl ⟨rfl, h2⟩, by simp [h1]⟩
  · exact ⟨.fail e :: later, .inr ⟨_, rfl⟩, by rw [h1]⟩

/-- What the error of the end of a stream becomes when the port fails with `e` instead. -/
def relabel (e : Err) : Err → Err
  | .eof => e
  | .unexpectedEOF => if e = .eof then .unexpectedEOF else e
  | x => x

/-- The port's tail `t` after the bytes of `b`. -/
def feedOf (t : List PortEvent) (after : Err) (b : Buf) : Feed := ⟨b.rest.map .got ++ t, after, b.last⟩

theorem sync_lone (ig : Bool) (fuel : Nat) (l : Option Byte) : sync ig fuel ⟨[0x02#8], l⟩ = none := by
  induction fuel generalizing l with
  | zero => rfl
  | succ n ih => rw [sync_stx_end, ih]

theorem sync_port (ig : Bool) (t : List PortEvent) (after e : Err) (ht : FailsNow t after e) (fuel : Nat) (b b' : Buf)
    (r : Except Err (Byte × Nat)) (h : sync ig fuel b = some (r, b')) :
    (∃ x, r = .ok x ∧ syncPort ig fuel (feedOf t after b) = some (.ok x, feedOf t after b')) ∨
    (r = .error .eof ∧ ∃ s, syncPort ig fuel (feedOf t after b) = some (.error e, s)) := by
  induction fuel generalizing b with
  | zero => simp [sync] at h
  | succ n ih =>
    obtain ⟨rest, l⟩ := b
    cases rest with
    | nil =>
      simp only [sync, Buf.readByte, Option.some.injEq, Prod.mk.injEq] at h
      right
      refine ⟨h.1.symm, ?_⟩
      rcases ht with ⟨rfl, rfl⟩ | ⟨later, rfl⟩ <;> simp [syncPort, feedOf, Feed.readByte]
    | cons x xs =>
      by_cases hx : x = 0x02#8
      · subst hx
        cases xs with
        | nil => rw [sync_lone] at h; simp at h
        | cons c cs =>
          rcases hc : commandLen c with _ | len
          · rw [sync_stx_unknown _ _ _ _ _ ((not_known_iff c).mpr hc)] at h
            have := ih _ h
            have he : syncPort ig (n + 1) (feedOf t after ⟨0x02#8 :: c :: cs, l⟩) = syncPort ig n (feedOf t after ⟨c :: cs, none⟩) := by
              simp [syncPort, feedOf, Feed.readByte, Feed.unreadByte, hc]
            rw [he]
            exact this
          · rw [sync_stx_known _ _ _ _ _ _ hc] at h
            simp only [Option.some.injEq, Prod.mk.injEq] at h
            left
            refine ⟨_, h.1.symm, ?_⟩
            rw [← h.2]
            simp [syncPort, feedOf, Feed.readByte, hc]
      · rw [sync_skip _ _ _ _ _ hx] at h
        have := ih _ h
        have he : syncPort ig (n + 1) (feedOf t after ⟨x :: xs, l⟩) = syncPort ig n (feedOf t after ⟨xs, some x⟩) := by
          simp [syncPort, feedOf, Feed.readByte, hx]
        rw [he]
        exact this

theorem collect_enough (after : Err) (t : List PortEvent) (n : Nat) (xs : Bytes) (h : n ≤ xs.length) :
    Feed.collect after n (xs.map .got ++ t) = (xs.take n, none, (xs.drop n).map .got ++ t) := by
  induction n generalizing xs with
  | zero => simp [Feed.collect]
  | succ n ih =>
    cases xs with
    | nil => simp at h
    | cons x xs => simp [Feed.collect, ih xs (by simpa using h)]

theorem collect_short (after e : Err) (t : List PortEvent) (ht : FailsNow t after e) (n : Nat) (xs : Bytes) (h : xs.length < n) :
    ∃ es, Feed.collect after n (xs.map .got ++ t) = (xs, some e, es) := by
  induction n generalizing xs with
  | zero => simp at h
  | succ n ih =>
    cases xs with
    | nil => rcases ht with ⟨rfl, rfl⟩ | ⟨later, rfl⟩ <;> simp [Feed.collect]
    | cons x xs =>
      obtain ⟨es, hes⟩ := ih xs (by simpa using h)
      exact ⟨es, by simp [Feed.collect, hes]⟩

theorem readFull_port (t : List PortEvent) (after e : Err) (ht : FailsNow t after e) (b b' : Buf) (n : Nat) (r : Except Err Bytes)
    (h : b.readFull n = (r, b')) :
    (∃ x, r = .ok x ∧ (feedOf t after b).readFull n = (.ok x, feedOf t after b')) ∨
    (∃ er s, r = .error er ∧ (feedOf t after b).readFull n = (.error (relabel e er), s)) := by
  obtain ⟨rest, l⟩ := b
  unfold Buf.readFull at h
  dsimp only at h
  by_cases h0 : n = 0
  · subst h0
    simp only [if_true, Prod.mk.injEq] at h
    left
    exact ⟨[], h.1.symm, by rw [← h.2]; simp [Feed.readFull, feedOf, Feed.collect]⟩
  · rw [if_neg h0] at h
    by_cases hl : rest.length < n
    · rw [if_pos hl, Prod.mk.injEq] at h
      right
      obtain ⟨es, hes⟩ := collect_short after e t ht n rest hl
      refine ⟨_, ⟨es, after, if rest = [] then l else rest.getLast?⟩, h.1.symm, ?_⟩
      · unfold Feed.readFull feedOf
        dsimp only
        rw [hes]
        dsimp only
        by_cases hr : rest = []
        · rw [if_pos hr, if_pos hr, if_neg (by simp [hr])]; rfl
        · rw [if_neg hr, if_neg hr]
          by_cases he : e = .eof
          · rw [if_pos ⟨hr, he⟩]; simp [relabel, he]
          · rw [if_neg (fun hh => he hh.2)]; simp [relabel, he]
    · rw [if_neg hl, Prod.mk.injEq] at h
      left
      refine ⟨_, h.1.symm, ?_⟩
      rw [← h.2]
      unfold Feed.readFull feedOf
      dsimp only
      rw [collect_enough after t n rest (by omega)]
      dsimp only
      rw [if_neg]
      intro hh
      have := congrArg List.length hh
      rw [List.length_take, List.length_nil] at this
      omega

theorem readFrame_port (ig : Bool) (t : List PortEvent) (after e : Err) (ht : FailsNow t after e) (fuel : Nat) (b b' : Buf) (r : Out Bytes)
    (h : readFrame ig fuel b = some (r, b')) :
    (∃ x, r = .ok x ∧ readFramePort ig fuel (feedOf t after b) = some (.ok x, feedOf t after b')) ∨
    (∃ er s, r = .err er ∧ readFramePort ig fuel (feedOf t after b) = some (.err (relabel e er), s)) ∨ r = .panic := by
  unfold readFrame at h
  unfold readFramePort
  rcases hs : sync ig fuel b with _ | ⟨rs, b1⟩ <;> rw [hs] at h
  · simp at h
  · rcases sync_port ig t after e ht fuel b b1 rs hs with ⟨⟨cmd, paclen⟩, rfl, hp⟩ | ⟨rfl, s, hp⟩ <;> rw [hp] <;> dsimp only at h ⊢
    · by_cases hm : maxPaclen < 2 + paclen
      · rw [if_pos hm] at h
        simp only [Option.some.injEq, Prod.mk.injEq] at h
        exact .inr (.inr h.1.symm)
      · rw [if_neg hm] at h ⊢
        rcases hr : b1.readFull paclen with ⟨r1, b2⟩
        rw [hr] at h
        rcases readFull_port t after e ht b1 b2 paclen r1 hr with ⟨data, rfl, hp1⟩ | ⟨er, s, rfl, hp1⟩ <;> rw [hp1] <;> dsimp only at h ⊢
        · by_cases hc : cmd = PCmd.sendInsteonMsg
          · rw [if_pos hc] at h ⊢
            rcases hg : ([0x02#8, cmd] ++ data)[5]? with _ | g <;> rw [hg] at h <;> dsimp only at h ⊢
            · simp only [Option.some.injEq, Prod.mk.injEq] at h
              exact .inr (.inr h.1.symm)
            · by_cases hx : Flags.extended g = true
              on_goal 1 => by_cases hm2 : maxPaclen < 2 + paclen + 14
              · rw [if_pos hx, if_pos hm2] at h
                simp only [Option.some.injEq, Prod.mk.injEq] at h
                exact .inr (.inr h.1.symm)
              · rw [if_pos hx, if_neg hm2] at h ⊢
                rcases hr2 : b2.readFull 14 with ⟨r2, b3⟩
                rw [hr2] at h
                rcases readFull_port t after e ht b2 b3 14 r2 hr2 with ⟨more, rfl, hp2⟩ | ⟨er, s, rfl, hp2⟩ <;> rw [hp2] <;> dsimp only at h ⊢ <;>
                  simp only [Option.some.injEq, Prod.mk.injEq] at h
                · exact .inl ⟨_, h.1.symm, by rw [h.2]⟩
                · exact .inr (.inl ⟨er, s, h.1.symm, rfl⟩)
              · rw [if_neg hx] at h ⊢
                simp only [Option.some.injEq, Prod.mk.injEq] at h
                exact .inl ⟨_, h.1.symm, by rw [h.2]⟩
          · rw [if_neg hc] at h ⊢
            simp only [Option.some.injEq, Prod.mk.injEq] at h
            exact .inl ⟨_, h.1.symm, by rw [h.2]⟩
        · simp only [Option.some.injEq, Prod.mk.injEq] at h
          exact .inr (.inl ⟨er, s, h.1.symm, rfl⟩)
    · simp only [Option.some.injEq, Prod.mk.injEq] at h
      exact .inr (.inl ⟨.eof, s, h.1.symm, rfl⟩)

theorem unmarshal_err (frame : Bytes) (e : Err) (h : Packet.unmarshalBinary frame = .err e) (hne : e ≠ .noSync) : False := by
  unfold Packet.unmarshalBinary at h
  rcases frame with _ | ⟨b0, _ | ⟨c, body⟩⟩ <;> dsimp only at h
  · simp at h
  · split_ifs at h with h0
    · simp only [Out.err.injEq] at h
      exact hne h.symm
  · split_ifs at h with h0 <;> simp only [Out.err.injEq, reduceCtorEq] at h
    exact hne h.symm

theorem readPacket_port (ig : Bool) (t : List PortEvent) (after e : Err) (ht : FailsNow t after e) (fuel : Nat) (b b' : Buf) (r : Out Packet)
    (h : readPacket ig fuel b = some (r, b')) :
    (∃ x, r = .ok x ∧ readPacketPort ig fuel (feedOf t after b) = some (.ok x, feedOf t after b')) ∨
    (∃ er s, (er = .eof ∨ er = .unexpectedEOF) ∧ r = .err er ∧ readPacketPort ig fuel (feedOf t after b) = some (.err (relabel e er), s)) := by
  obtain ⟨rest, l⟩ := b
  have hsafe := reader_safe ig fuel rest l r b' h
  unfold readPacket at h
  unfold readPacketPort
  rcases hf : readFrame ig fuel ⟨rest, l⟩ with _ | ⟨rf, b1⟩ <;> rw [hf] at h
  · simp at h
  · rcases readFrame_port ig t after e ht fuel _ b1 rf hf with ⟨frame, rfl, hp⟩ | ⟨er, s, rfl, hp⟩ | rfl
    · rw [hp]
      dsimp only at h ⊢
      simp only [Option.some.injEq, Prod.mk.injEq] at h
      rcases hsafe with ⟨p, _, _, hr, _⟩ | hr | hr
      · exact .inl ⟨p, hr, by rw [h.1, h.2, hr]⟩
      · exfalso
        have h2 := h.1
        rw [hr] at h2
        exact unmarshal_err _ _ h2 (by decide)
      · exfalso
        have h2 := h.1
        rw [hr] at h2
        exact unmarshal_err _ _ h2 (by decide)
    · rw [hp]
      dsimp only at h ⊢
      simp only [Option.some.injEq, Prod.mk.injEq] at h
      rcases hsafe with ⟨p, _, _, hr, _⟩ | hr | hr <;> rw [hr] at h <;> simp only [Out.err.injEq, reduceCtorEq, false_and] at h
      · exact .inr ⟨er, s, .inl h.1, by rw [hr, h.1], rfl⟩
      · exact .inr ⟨er, s, .inr h.1, by rw [hr, h.1], rfl⟩
    · dsimp only at h
      simp only [Option.some.injEq, Prod.mk.injEq] at h
      rcases hsafe with ⟨p, _, _, hr, _⟩ | hr | hr <;> rw [hr] at h <;> simp at h

theorem portLoop_feed (ig : Bool) (t : List PortEvent) (after e : Err) (ht : FailsNow t after e) (fuel n : Nat) (b : Buf) (ps : List Packet) (r : Out Unit)
    (h : readAll ig fuel n b = some (ps, r)) :
    ∃ er, (er = .eof ∨ er = .unexpectedEOF) ∧ r = .err er ∧
      portLoop ig fuel n (feedOf t after b) = some (ps, .stopped (relabel e er) (!Err.is (relabel e er) .eof)) := by
  induction n generalizing b ps with
  | zero => simp [readAll] at h
  | succ n ih =>
    rw [readAll] at h
    rw [portLoop]
    rcases hp : readPacket ig fuel b with _ | ⟨rp, b1⟩ <;> rw [hp] at h
    · simp at h
    · rcases readPacket_port ig t after e ht fuel b b1 rp hp with ⟨x, rfl, hx⟩ | ⟨er, s, her, rfl, hx⟩ <;> rw [hx] <;> dsimp only at h ⊢
      · rcases hr : readAll ig fuel n b1 with _ | ⟨ps', r'⟩ <;> rw [hr] at h
        · simp at h
        · simp only [Option.some.injEq, Prod.mk.injEq] at h
          obtain ⟨rfl, rfl⟩ := h
          obtain ⟨er, her, hr', hl⟩ := ih b1 ps' hr
          exact ⟨er, her, hr', by rw [hl]⟩
      · simp only [Option.some.injEq, Prod.mk.injEq] at h
        obtain ⟨rfl, rfl⟩ := h
        exact ⟨er, her, rfl, rfl⟩

/-- C187 where it holds: when a port fails after any number of well-formed frames between noise, and not just after a start-of-text byte, then all
the frames are delivered, in order, the loop ends with the port's error and logs it unless it is the end of the file. -/
theorem port_failure_partial (items : List (List (BitVec 8) × Frame)) (tail : List (BitVec 8)) (e : Err) (f : Feed)
    (hnoise : ∀ it ∈ items, Quiet it.1) (hframe : ∀ it ∈ items, it.2.wellFormed)
    (htail : Quiet tail) (hend : tail.getLast? ≠ some 0x02#8)
    (hf : FailsAfter f (items.flatMap (fun it => it.1 ++ it.2.bytes) ++ tail) e) :
    ∃ fuel₀, ∀ fuel ≥ fuel₀, ∀ n > items.length,
      portLoop false fuel n f = some (items.map (fun it => it.2.packet), .stopped e (!Err.is e .eof)) := by
  obtain ⟨t, ht, hfe⟩ := failsAfter_tail f _ e hf
  obtain ⟨fuel₀, h⟩ := stream_framing items tail hnoise hframe htail hend
  refine ⟨fuel₀, fun fuel hfuel n hn => ?_⟩
  obtain ⟨er, -, her, hp⟩ := portLoop_feed false t f.after e ht fuel n _ _ _ (h fuel hfuel n hn f.last)
  obtain rfl : er = .eof := by simpa using her.symm
  rw [hfe]
  exact hp

/-- A frame that is cut short is not delivered, and ends the reading. -/
theorem read_cut (noise : Bytes) (f : Frame) (part missing : Bytes) (l : Option Byte) (fuel : Nat)
    (hq : Quiet noise) (hf : f.wellFormed) (hb : f.body = part ++ missing) (hm : missing ≠ []) (hfuel : noise.length < fuel) :
    ∃ er s, readPacket false fuel ⟨noise ++ 0x02#8 :: f.cmd :: part, l⟩ = some (.err er, s) := by
  obtain ⟨n, hn, hl⟩ := wellFormed_len f hf
  have hs := sync_noise false noise f.cmd part n hq hn fuel hfuel l
  have hsl : syncLen false f.cmd n = n := by simp [syncLen]
  have hm4 : 4 ≤ n ∨ ∀ g, ¬ (f.cmd = 0x62#8 ∧ isExtended g) := by
    by_cases h : f.cmd = 0x62#8
    · left
      rw [h] at hn
      have : n = 7 := by rw [commandLen] at hn; simpa using hn.symm
      omega
    · right; rintro g ⟨h', -⟩; exact h h'
  have conv : ∀ b : Bytes, (f.cmd = 0x62#8 ∧ ∃ g, b[3]? = some g ∧ isExtended g) ↔
      ∃ g, b[3]? = some g ∧ (f.cmd = 0x62#8 ∧ isExtended g) := by
    intro b
    constructor
    · rintro ⟨h, g, h1, h2⟩; exact ⟨g, h1, h, h2⟩
    · rintro ⟨g, h1, h, h2⟩; exact ⟨h, g, h1, h2⟩
  have key := readFrame_after_sync false fuel _ _ f.cmd n hn hs
  rw [hsl] at key
  rcases key with ⟨body, r, l', hb', hr, hbl⟩ | ⟨e, s'', hr, -⟩
  · exfalso
    dsimp only at hb'
    have := split_unique (x := f.body) (b1 := body) (r1 := r ++ missing) (b2 := f.body) (r2 := [])
      (fun g => f.cmd = 0x62#8 ∧ isExtended g) hm4 (by rw [hb, hb']; simp) (by simp)
      (by rw [hbl]; congr 1; exact ite_iff (conv _)) (by rw [hl]; congr 1; exact ite_iff (conv _))
    simp at this
    exact hm this.2.2
  · exact ⟨e, s'', by unfold readPacket; rw [hr]⟩

theorem readAll_frames (items : List (Bytes × Frame)) (rest : Bytes) (hnoise : ∀ it ∈ items, Quiet it.1) (hframe : ∀ it ∈ items, it.2.wellFormed)
    (fuel n : Nat) (hfuel : ∀ it ∈ items, it.1.length < fuel) (hn : items.length < n) (r : Out Unit)
    (hr : ∀ m > 0, ∀ l, readAll false fuel m ⟨rest, l⟩ = some ([], r)) (l : Option Byte) :
    readAll false fuel n ⟨items.flatMap (fun it => it.1 ++ it.2.bytes) ++ rest, l⟩ = some (items.map (fun it => it.2.packet), r) := by
  induction items generalizing n l with
  | nil => simpa using hr n (by simpa using hn) l
  | cons it items ih =>
    obtain ⟨m, rfl⟩ : ∃ m, n = m + 1 := ⟨n - 1, by simp at hn; omega⟩
    obtain ⟨l', h⟩ := read_one it.1 it.2 (items.flatMap (fun it => it.1 ++ it.2.bytes) ++ rest) l fuel
      (hnoise it (by simp)) (hframe it (by simp)) (hfuel it (by simp))
    have := ih (fun i hi => hnoise i (by simp [hi])) (fun i hi => hframe i (by simp [hi])) m (fun i hi => hfuel i (by simp [hi]))
      (by simp at hn; omega) l'
    simp only [List.flatMap_cons, List.append_assoc] at h this ⊢
    simp only [readAll, h, this, List.map_cons]

/-- C187 where the port fails in the middle of a frame: the frames before it are delivered, the part is not, and the loop ends with the port's error,
which it logs; at the end of the file the error is that or `io.ErrUnexpectedEOF`. -/
theorem port_failure_cut_partial (items : List (List (BitVec 8) × Frame)) (noise : List (BitVec 8)) (cut : Frame) (part missing : List (BitVec 8))
    (e : Err) (f : Feed) (hnoise : ∀ it ∈ items, Quiet it.1) (hframe : ∀ it ∈ items, it.2.wellFormed)
    (hq : Quiet noise) (hcut : cut.wellFormed) (hbody : cut.body = part ++ missing) (hmissing : missing ≠ [])
    (hf : FailsAfter f (items.flatMap (fun it => it.1 ++ it.2.bytes) ++ (noise ++ 0x02#8 :: cut.cmd :: part)) e) :
    ∃ fuel₀, ∀ fuel ≥ fuel₀, ∀ n > items.length, ∃ e',
      portLoop false fuel n f = some (items.map (fun it => it.2.packet), .stopped e' (!Err.is e' .eof)) ∧
      (e ≠ .eof → e' = e) ∧ (e = .eof → e' = .eof ∨ e' = .unexpectedEOF) := by
  obtain ⟨t, ht, hfe⟩ := failsAfter_tail f _ e hf
  refine ⟨(items.map fun it => it.1.length).sum + noise.length + 1, fun fuel hfuel n hn => ?_⟩
  have hlen : ∀ it ∈ items, it.1.length < fuel := by
    intro it hit
    have : it.1.length ≤ (items.map fun it => it.1.length).sum := by
      clear hnoise hframe hf hn hfuel hfe
      induction items with
      | nil => simp at hit
      | cons x xs ih =>
        rw [List.map_cons, List.sum_cons]
        rcases List.mem_cons.mp hit with rfl | h
        · omega
        · have := ih h
          omega
    omega
  have hr : ∃ er, ∀ m > 0, ∀ l, readAll false fuel m ⟨noise ++ 0x02#8 :: cut.cmd :: part, l⟩ = some ([], .err er) := by
    obtain ⟨er, s, h⟩ := read_cut noise cut part missing none fuel hq hcut hbody hmissing (by omega)
    refine ⟨er, fun m hm l => ?_⟩
    obtain ⟨k, rfl⟩ : ∃ k, m = k + 1 := ⟨m - 1, by omega⟩
    have h2 : readPacket false fuel ⟨noise ++ 0x02#8 :: cut.cmd :: part, l⟩ = some (.err er, s) := by
      obtain ⟨n, hn, -⟩ := wellFormed_len cut hcut
      rw [← h]
      unfold readPacket readFrame
      rw [sync_noise false noise cut.cmd part n hq hn fuel (by omega) l, sync_noise false noise cut.cmd part n hq hn fuel (by omega) none]
    rw [readAll, h2]
  obtain ⟨er, hr⟩ := hr
  have h := readAll_frames items _ hnoise hframe fuel n hlen hn _ hr f.last
  obtain ⟨er', hor, her, hp⟩ := portLoop_feed false t f.after e ht fuel n _ _ _ h
  refine ⟨relabel e er', by rw [hfe]; exact hp, ?_, ?_⟩
  · intro he
    rcases hor with rfl | rfl <;> simp [relabel, he]
  · rintro rfl
    rcases hor with rfl | rfl <;> simp [relabel]

/-- A failure just after a start-of-text byte is swallowed: the frame is delivered as if nothing had happened, and the loop ends with whatever
error comes next. -/
theorem port_failure_swallowed (frame : Frame) (hframe : frame.wellFormed) (e e' : Err) (l : Option (BitVec 8)) (fuel n : Nat)
    (hfuel : 2 ≤ fuel) (hn : 2 ≤ n) :
    portLoop false fuel n ⟨.got 0x02#8 :: .fail e :: (frame.cmd :: frame.body).map .got, e', l⟩ =
      some ([frame.packet], .stopped e' (!Err.is e' .eof)) := by
  obtain ⟨k, rfl⟩ : ∃ k, fuel = k + 2 := ⟨fuel - 2, by omega⟩
  obtain ⟨m, rfl⟩ : ∃ m, n = m + 2 := ⟨n - 2, by omega⟩
  have h0 : commandLen 0#8 = none := by decide
  have hstep : readPacketPort false (k + 2) ⟨.got 0x02#8 :: .fail e :: (frame.cmd :: frame.body).map .got, e', l⟩ =
      readPacketPort false (k + 1) ⟨.got 0x02#8 :: (frame.cmd :: frame.body).map .got, e', none⟩ := by
    unfold readPacketPort readFramePort
    have : syncPort false (k + 2) ⟨.got 0x02#8 :: .fail e :: (frame.cmd :: frame.body).map .got, e', l⟩ =
        syncPort false (k + 1) ⟨.got 0x02#8 :: (frame.cmd :: frame.body).map .got, e', none⟩ := by
      rw [syncPort]
      simp [Feed.readByte, Feed.unreadByte, h0]
    rw [this]
  obtain ⟨l', hone⟩ := read_one [] frame [] none (k + 1) (by rintro ⟨a, c, b, h, -⟩; simp at h) hframe (by simp)
  rcases readPacket_port false [] e' e' (.inl ⟨rfl, rfl⟩) (k + 1) _ _ _ hone with ⟨x, hx, hp⟩ | ⟨er, s, -, hx, -⟩
  · simp only [Out.ok.injEq] at hx
    subst hx
    simp only [feedOf, List.nil_append, List.append_nil, Frame.bytes, List.map_cons, List.map_nil] at hp
    have hend : readPacketPort false (k + 2) ⟨[], e', l'⟩ = some (.err e', ⟨[], e', l'⟩) := by
      simp [readPacketPort, readFramePort, syncPort, Feed.readByte]
    rw [portLoop, hstep, List.map_cons, hp]
    dsimp only
    rw [portLoop, hend]
  · simp at hx

/-- A port that fails for good just after a start-of-text byte is never given up: the loop neither ends nor delivers anything. -/
theorem port_failure_spins (s : List (BitVec 8)) (hq : Quiet s) (he : s.getLast? = some 0x02#8) (e : Err) (l : Option (BitVec 8)) (fuel n : Nat) :
    portLoop false fuel n ⟨s.map .got, e, l⟩ = none := by
  have h0 : commandLen 0#8 = none := by decide
  have hs : ∀ (fuel : Nat) (s : Bytes) (l : Option Byte), Quiet s → s.getLast? = some 0x02#8 → syncPort false fuel ⟨s.map .got, e, l⟩ = none := by
    intro fuel
    induction fuel with
    | zero => intros; rfl
    | succ k ih =>
      intro s l hq he
      match s with
      | [] => simp at he
      | [x] =>
        simp only [List.getLast?_singleton, Option.some.injEq] at he
        subst he
        have := ih [0x02#8] none hq rfl
        simp only [List.map_cons, List.map_nil] at this
        simp [syncPort, Feed.readByte, Feed.unreadByte, h0, this]
      | x :: c :: cs =>
        have hq' := quiet_tail hq
        have he' : (c :: cs).getLast? = some 0x02#8 := by rw [List.getLast?_cons_cons] at he; exact he
        by_cases hx : x = 0x02#8
        · subst hx
          have hc := (not_known_iff c).mp (quiet_stx hq)
          have := ih (c :: cs) none hq' he'
          simp only [List.map_cons] at this
          simp [syncPort, Feed.readByte, Feed.unreadByte, hc, this]
        · have := ih (c :: cs) (some x) hq' he'
          simp only [List.map_cons] at this
          simp [syncPort, Feed.readByte, hx, this]
  cases n with
  | zero => rfl
  | succ n => rw [portLoop]; simp [readPacketPort, readFramePort, hs fuel s l hq he]

/-- C187 is false of the code: a port that fails for good after a lone start-of-text byte. -/
theorem port_failure_refuted :
    ¬ ∀ (f : Feed) (bytes : List (BitVec 8)) (e : Err), e ≠ .eof → FailsAfter f bytes e →
      ∃ fuel n ps, portLoop false fuel n f = some (ps, .stopped e true) := by
  intro h
  obtain ⟨fuel, n, ps, h⟩ := h ⟨[.got 0x02#8], .other 5, none⟩ [0x02#8] (.other 5) (by decide) (.inl ⟨rfl, rfl⟩)
  have := port_failure_spins [0x02#8] (by
    rintro ⟨a, c, b, h, -⟩
    rcases a with _ | ⟨_, _⟩ <;> simp at h) rfl (.other 5) none fuel n
  rw [List.map_cons, List.map_nil, h] at this
  simp at this

/-- The hypotheses are met: one frame, noise, and an unplugged adapter; the error is logged. -/
example : portLoop false 10 5 ⟨[0x15, 0x02, 0x6a, 0x06, 0x77].map .got ++ [.fail (.other 5), .got 1], .eof, none⟩ =
    some ([⟨0x6a#8, [], 0x06#8⟩], .stopped (.other 5) true) := by decide

example : FailsAfter ⟨[0x15, 0x02, 0x6a, 0x06, 0x77].map .got ++ [.fail (.other 5), .got 1], .eof, none⟩ [0x15, 0x02, 0x6a, 0x06, 0x77] (.other 5) :=
  .inr ⟨[.got 1], rfl⟩

/-- A message cut in the middle, at the end of the file and at an error. -/
example : portLoop false 10 5 ⟨[0x02, 0x50, 1, 2, 3].map .got, .eof, none⟩ = some ([], .stopped .unexpectedEOF true) ∧
    portLoop false 10 5 ⟨[0x02, 0x50, 1, 2, 3].map .got, .other 5, none⟩ = some ([], .stopped (.other 5) true) := by decide

end Insteon
