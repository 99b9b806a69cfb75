import Verif.Spec.Device
import Verif.Props.Command
import Verif.Props.Message
import Verif.Props.Plm

/-
Properties C39 - C45 and C52: talking to a device.
-/

namespace Insteon
open Spec

theorem command1_toNat (c : Command) : c.command1.toNat = c.toNat / 256 % 256 := by
  rw [command1_eq, BitVec.toNat_setWidth, extract_toNat]
  have : c.toNat / 2 ^ 8 % 256 < 2 ^ 64 := by omega
  rw [Nat.mod_eq_of_lt this]
  norm_num

theorem command2_toNat (c : Command) : c.command2.toNat = c.toNat % 256 := by
  rw [command2_eq, BitVec.toNat_setWidth, extract_toNat]
  have : c.toNat / 2 ^ 0 % 256 < 2 ^ 64 := by omega
  rw [Nat.mod_eq_of_lt this]
  simp

theorem cmdMatcher_iff (c : Command) (m : Message) :
    Matcher.cmd c m = true ↔ c.toNat / 256 % 256 = cmd1 m := by
  unfold Matcher.cmd Command.matches' cmd1
  rw [beq_iff_eq, ← BitVec.toNat_inj, command1_toNat, command1_toNat]

/-! ### C39, C40 -/

theorem prepare_standard (info : DeviceInfo) (msg : Message) (hp : msg.payload = []) :
    Device.prepare info msg = ⟨msg.src, info.address, 0x0f#8, msg.command, []⟩ := by
  obtain ⟨src, dst, flags, command, payload⟩ := msg
  dsimp only at hp
  subst hp
  simp only [Device.prepare, List.length_nil, Nat.lt_irrefl, if_false, ite_self]
  rfl

theorem prepare_extended (info : DeviceInfo) (msg : Message) (hp : msg.payload ≠ [])
    (hv : info.engineVersion ≠ 2#64) :
    Device.prepare info msg = ⟨msg.src, info.address, 0x1a#8, msg.command, msg.payload⟩ := by
  have hpos : 0 < msg.payload.length := List.length_pos_iff.mpr hp
  simp only [Device.prepare, hpos, if_true, verI2Cs, hv, if_false]
  rfl

theorem prepare_i2cs (info : DeviceInfo) (msg : Message) (hp : msg.payload ≠ [])
    (hv : info.engineVersion = 2#64) :
    Device.prepare info msg = ⟨msg.src, info.address, 0x1a#8, msg.command,
      setChecksum msg.command (fit (max 14 msg.payload.length) msg.payload)⟩ := by
  have hpos : 0 < msg.payload.length := List.length_pos_iff.mpr hp
  have hpad : (if msg.payload.length < 14 then copyPad 14 msg.payload else msg.payload) =
      fit (max 14 msg.payload.length) msg.payload := by
    split_ifs with h14
    · rw [copyPad_fit, Nat.max_eq_left (by omega)]
    · rw [Nat.max_eq_right (by omega), fit_self]
  simp only [Device.prepare, hpos, if_true, hv, hpad]
  rfl

/-- C39: a device write is one write of a message to the device's address, direct, extended exactly
when there is a payload; standard messages carry three hops of three. The command and the source
are the caller's; the caller's payload is sent as is unless the device is an I2CS device. -/
theorem device_write_framing {σ : Type} (info : DeviceInfo) (io : MsgIO σ) (s : σ) (msg : Message) :
    ∃ out, Device.write info io s msg = io.write s out ∧
      out.dst = info.address ∧ typeNumber out.flags = 0 ∧
      (isExtended out.flags ↔ msg.payload ≠ []) ∧
      (msg.payload = [] → hopsLeft out.flags = 3 ∧ maxHops out.flags = 3 ∧ out.payload = []) ∧
      out.command = msg.command ∧ out.src = msg.src ∧
      (info.engineVersion ≠ 2#64 → out.payload = msg.payload) := by
  refine ⟨_, rfl, ?_⟩
  have f1 : typeNumber 0x0f#8 = 0 ∧ ¬ isExtended 0x0f#8 ∧ hopsLeft 0x0f#8 = 3 ∧ maxHops 0x0f#8 = 3 := by decide
  have f2 : typeNumber 0x1a#8 = 0 ∧ isExtended 0x1a#8 := by decide
  by_cases hp : msg.payload = []
  · rw [prepare_standard info msg hp]
    exact ⟨rfl, f1.1, by simp [f1.2.1, hp], fun _ => ⟨f1.2.2.1, f1.2.2.2, rfl⟩, rfl, rfl, fun _ => hp.symm⟩
  · by_cases hv : info.engineVersion = 2#64
    · rw [prepare_i2cs info msg hp hv]
      exact ⟨rfl, f2.1, by simp [f2.2, hp], fun h => absurd h hp, rfl, rfl, fun h => absurd hv h⟩
    · rw [prepare_extended info msg hp hv]
      exact ⟨rfl, f2.1, by simp [f2.2, hp], fun h => absurd h hp, rfl, rfl, fun _ => rfl⟩

/-- C40, the part that holds: standard messages go out with three hops; extended ones with two. -/
theorem device_max_hops_partial (info : DeviceInfo) (msg : Message) :
    (msg.payload = [] → hopsLeft (Device.prepare info msg).flags = 3 ∧ maxHops (Device.prepare info msg).flags = 3) ∧
    (msg.payload ≠ [] → hopsLeft (Device.prepare info msg).flags = 2 ∧ maxHops (Device.prepare info msg).flags = 2) := by
  have f1 : hopsLeft 0x0f#8 = 3 ∧ maxHops 0x0f#8 = 3 := by decide
  have f2 : hopsLeft 0x1a#8 = 2 ∧ maxHops 0x1a#8 = 2 := by decide
  refine ⟨fun hp => ?_, fun hp => ?_⟩
  · rw [prepare_standard info msg hp]; exact f1
  · by_cases hv : info.engineVersion = 2#64
    · rw [prepare_i2cs info msg hp hv]; exact f2
    · rw [prepare_extended info msg hp hv]; exact f2

/-- C40 is false of the code: no extended message is sent with three hops. -/
theorem device_max_hops_refuted :
    ¬ ∀ (info : DeviceInfo) (msg : Message), maxHops (Device.prepare info msg).flags = 3 := by
  intro h
  exact absurd (h ⟨1, (1, 2), 0x43, 1⟩ ⟨0, 0, 0, 0x012f00, [1]⟩) (by decide)

example : Device.prepare ⟨0x112233, (1, 2), 0x43, 2⟩ ⟨0, 0, 0, 0x001100, []⟩ =
    ⟨0, 0x112233, 0x0f, 0x001100, []⟩ := by decide

/-! ### C41 -/

theorem foldl_toNat (buf : Bytes) (c : Byte) :
    (buf.foldl (fun sum b => sum + b) c).toNat = (c.toNat + byteSum buf) % 256 := by
  induction buf generalizing c with
  | nil => simp [byteSum, Nat.mod_eq_of_lt c.isLt]
  | cons b bs ih =>
    rw [List.foldl_cons, ih, BitVec.toNat_add, byteSum]
    omega

theorem neg_byte (b : Byte) : (~~~b + 1#8).toNat = (256 - b.toNat) % 256 := by
  revert b; decide +kernel

theorem checksum_toNat (cmd : Command) (buf : Bytes) :
    (checksum cmd buf).toNat = (256 - (cmd.toNat / 256 % 256 + cmd.toNat % 256 + byteSum buf) % 256) % 256 := by
  rw [checksum, neg_byte, foldl_toNat]
  have : ((cmd.command1 + cmd.command2).setWidth 8).toNat = (cmd.toNat / 256 % 256 + cmd.toNat % 256) % 256 := by
    rw [BitVec.toNat_setWidth, BitVec.toNat_add, command1_toNat, command2_toNat]
    omega
  rw [this]
  omega

theorem byteSum_append (a b : Bytes) : byteSum (a ++ b) = byteSum a + byteSum b := by
  induction a with
  | nil => simp [byteSum]
  | cons x xs ih => simp only [List.cons_append, byteSum, ih]; omega

theorem byteSum_setLast (buf : Bytes) (b c : Byte) (h : buf.getLast? = some b) :
    byteSum (buf.set (buf.length - 1) c) + b.toNat = byteSum buf + c.toNat := by
  rcases List.eq_nil_or_concat buf with rfl | ⟨xs, x, rfl⟩
  · simp at h
  · simp only [List.concat_eq_append, List.getLast?_append, List.getLast?_singleton, Option.some_or, Option.some.injEq] at h
    subst h
    simp [byteSum_append, byteSum]
    omega

theorem fit_nil (n : Nat) : fit n [] = List.replicate n 0#8 := by
  induction n with
  | zero => rfl
  | succ n ih => rw [fit, ih]; rfl

/-- The payload an I2CS device's extended message goes out with (C41): filled up with zeros to 14
bytes, cut nowhere, its last byte replaced. The checksum is right exactly when the replaced byte
was zero. -/
theorem i2cs_checksum_partial (info : DeviceInfo) (h : info.engineVersion = 2#64) (msg : Message)
    (hp : msg.payload ≠ []) :
    (Device.prepare info msg).payload.length = max 14 msg.payload.length ∧
    (Device.prepare info msg).payload.dropLast =
      (fit (max 14 msg.payload.length) msg.payload).dropLast ∧
    (checksumOk (Device.prepare info msg) ↔
      (fit (max 14 msg.payload.length) msg.payload).getLast? = some 0#8) := by
  have hpos : 0 < msg.payload.length := List.length_pos_iff.mpr hp
  rw [prepare_i2cs info msg hp h]
  obtain ⟨src, dst, flags, command, payload⟩ := msg
  dsimp only at hp hpos ⊢
  set buf := fit (max 14 payload.length) payload with hbuf
  have hlen : buf.length = max 14 payload.length := fit_length _ _
  have hne : buf ≠ [] := by
    intro h0
    rw [h0] at hlen
    simp at hlen
    omega
  refine ⟨by simp [setChecksum, hlen], ?_, ?_⟩
  · rcases List.eq_nil_or_concat buf with h0 | ⟨xs, x, h0⟩
    · exact absurd h0 hne
    · rw [h0]; simp [setChecksum]
  · obtain ⟨b, hb⟩ : ∃ b, buf.getLast? = some b := ⟨_, List.getLast?_eq_some_getLast hne⟩
    have hs := byteSum_setLast buf b (checksum command buf) hb
    have hc := checksum_toNat command buf
    unfold checksumOk cmd1 cmd2
    dsimp only
    rw [setChecksum, hb, Option.some.injEq]
    have hblt := b.isLt
    constructor
    · intro h0
      apply BitVec.eq_of_toNat_eq
      simp only [BitVec.toNat_ofNat, Nat.zero_mod]
      omega
    · intro h0
      rw [h0] at hs
      simp only [BitVec.toNat_ofNat, Nat.zero_mod] at hs
      omega

/-- Payloads of up to 13 bytes always get a valid checksum in 14 bytes. -/
theorem i2cs_short_checksum_partial (info : DeviceInfo) (h : info.engineVersion = 2#64) (msg : Message)
    (hp : msg.payload ≠ []) (h13 : msg.payload.length ≤ 13) :
    (Device.prepare info msg).payload.length = 14 ∧ checksumOk (Device.prepare info msg) ∧
    (Device.prepare info msg).payload.take msg.payload.length = msg.payload := by
  obtain ⟨h1, h2, h3⟩ := i2cs_checksum_partial info h msg hp
  rw [Nat.max_eq_left (by omega)] at h1 h2 h3
  have hfit : fit 14 msg.payload = msg.payload ++ List.replicate (14 - msg.payload.length) 0#8 := by
    rw [← copyPad_fit, copyPad, List.take_of_length_le (by omega)]
  refine ⟨h1, h3.mpr ?_, ?_⟩
  · rw [hfit]
    obtain ⟨k, hk⟩ : ∃ k, 14 - msg.payload.length = k + 1 := ⟨13 - msg.payload.length, by omega⟩
    rw [hk, List.replicate_succ', ← List.append_assoc, List.getLast?_append]
    simp
  · have : (Device.prepare info msg).payload.take msg.payload.length =
        (Device.prepare info msg).payload.dropLast.take msg.payload.length := by
      rw [List.dropLast_eq_take, List.take_take, h1, Nat.min_eq_left (by omega)]
    rw [this, h2, List.dropLast_eq_take, List.take_take, fit_length, Nat.min_eq_left (by omega), hfit,
      List.take_left]

/-- C41 is false of the code: a full payload whose last byte is not zero goes out with a wrong
checksum, and a longer payload with more than 14 bytes. -/
theorem i2cs_checksum_refuted :
    ¬ (∀ (info : DeviceInfo) (msg : Message), info.engineVersion = 2#64 → msg.payload ≠ [] →
        checksumOk (Device.prepare info msg)) ∧
    ¬ (∀ (info : DeviceInfo) (msg : Message), info.engineVersion = 2#64 → msg.payload ≠ [] →
        (Device.prepare info msg).payload.length = 14) := by
  refine ⟨fun h => ?_, fun h => ?_⟩
  · exact absurd (h ⟨1, (1, 2), 0x43, 2⟩ ⟨0, 0, 0, 0x012e00, [1, 2, 3, 4, 5, 6, 7, 8, 9, 10, 11, 12, 13, 14]⟩ rfl (by simp))
      (by decide)
  · exact absurd (h ⟨1, (1, 2), 0x43, 2⟩ ⟨0, 0, 0, 0x012e00, [1, 2, 3, 4, 5, 6, 7, 8, 9, 10, 11, 12, 13, 14, 15]⟩ rfl (by simp))
      (by decide)

/-- Sending the same message object again (C86): the first write left the checksum in the payload,
so the second goes out right only if that checksum was zero. -/
theorem i2cs_resend_partial (info : DeviceInfo) (h : info.engineVersion = 2#64) (msg : Message)
    (hp : msg.payload ≠ []) :
    checksumOk (Device.prepare info (Device.prepare info msg)) ↔
      (Device.prepare info msg).payload.getLast? = some 0#8 := by
  have h1 := i2cs_checksum_partial info h msg hp
  have hlen : 14 ≤ (Device.prepare info msg).payload.length := by rw [h1.1]; omega
  have hne : (Device.prepare info msg).payload ≠ [] := by
    intro h0; rw [h0] at hlen; simp at hlen
  have h2 := (i2cs_checksum_partial info h (Device.prepare info msg) hne).2.2
  rw [Nat.max_eq_right hlen, fit_self] at h2
  exact h2

/-- Two further attempts leave a payload of 14 bytes or more as it was. -/
theorem prepare_twice (info : DeviceInfo) (h : info.engineVersion = 2#64) (m : Message) (hl : 14 ≤ m.payload.length) :
    (Device.prepare info (Device.prepare info m)).payload = m.payload ∧ (Device.prepare info (Device.prepare info m)).command = m.command := by
  obtain ⟨src, dst, flags, command, payload⟩ := m
  dsimp only at hl ⊢
  have once : ∀ (a b : Address) (f : Flags) (xs : Bytes) (x : Byte), 13 ≤ xs.length → ∃ a' b' f',
      Device.prepare info ⟨a, b, f, command, xs ++ [x]⟩ = ⟨a', b', f', command, xs ++ [checksum command (xs ++ [x])]⟩ := by
    intro a b f xs x hx
    have hne : xs ++ [x] ≠ [] := by simp
    rw [prepare_i2cs info ⟨a, b, f, command, xs ++ [x]⟩ hne h]
    dsimp only
    rw [Nat.max_eq_right (by simp; omega), fit_self]
    refine ⟨a, info.address, 0x1a#8, ?_⟩
    rw [setChecksum, show (xs ++ [x]).set ((xs ++ [x]).length - 1) (checksum command (xs ++ [x])) = xs ++ [checksum command (xs ++ [x])] by simp]
  rcases List.eq_nil_or_concat payload with rfl | ⟨xs, x, rfl⟩
  · simp at hl
  · rw [List.concat_eq_append] at hl ⊢
    have hx : 13 ≤ xs.length := by simp at hl; omega
    obtain ⟨a1, b1, f1, h1⟩ := once src dst flags xs x hx
    obtain ⟨a2, b2, f2, h2⟩ := once a1 b1 f1 xs (checksum command (xs ++ [x])) hx
    rw [h1, h2]
    refine ⟨?_, rfl⟩
    dsimp only
    congr 2
    have c1 := checksum_toNat command (xs ++ [x])
    have c2 := checksum_toNat command (xs ++ [checksum command (xs ++ [x])])
    have s1 := byteSum_setLast (xs ++ [x]) x (checksum command (xs ++ [x])) (by simp)
    rw [show (xs ++ [x]).set ((xs ++ [x]).length - 1) (checksum command (xs ++ [x])) = xs ++ [checksum command (xs ++ [x])] by simp] at s1
    apply BitVec.eq_of_toNat_eq
    have := x.isLt
    have := (checksum command (xs ++ [checksum command (xs ++ [x])])).isLt
    omega

/-- C86, for any number of attempts: if the first one is right, every second one is, and the others are only if the checksum is zero. -/
theorem i2cs_attempts_partial (info : DeviceInfo) (h : info.engineVersion = 2#64) (msg : Message) (hp : msg.payload ≠ [])
    (hfirst : checksumOk (Device.prepare info msg)) (n : Nat) :
    checksumOk (Nat.repeat (Device.prepare info) (n + 1) msg) ↔ n % 2 = 0 ∨ (Device.prepare info msg).payload.getLast? = some 0#8 := by
  have hlen : ∀ n, 14 ≤ (Nat.repeat (Device.prepare info) (n + 1) msg).payload.length := by
    intro n
    induction n with
    | zero => show 14 ≤ (Device.prepare info msg).payload.length; rw [(i2cs_checksum_partial info h msg hp).1]; omega
    | succ n ih =>
      show 14 ≤ (Device.prepare info (Nat.repeat (Device.prepare info) (n + 1) msg)).payload.length
      rw [(i2cs_checksum_partial info h _ (by intro h0; rw [h0] at ih; simp at ih)).1]; omega
  induction n using Nat.twoStepInduction with
  | zero => exact ⟨fun _ => .inl rfl, fun _ => hfirst⟩
  | one => exact (i2cs_resend_partial info h msg hp).trans (by simp)
  | more n ih _ =>
    obtain ⟨e1, e2⟩ := prepare_twice info h (Nat.repeat (Device.prepare info) (n + 1) msg) (hlen n)
    have : checksumOk (Nat.repeat (Device.prepare info) (n + 2 + 1) msg) ↔ checksumOk (Nat.repeat (Device.prepare info) (n + 1) msg) := by
      show checksumOk (Device.prepare info (Device.prepare info (Nat.repeat (Device.prepare info) (n + 1) msg))) ↔ _
      unfold checksumOk cmd1 cmd2
      rw [e1, e2]
    have hn : (n + 2) % 2 = n % 2 := by omega
    rw [hn]
    exact this.trans ih

/-- The first attempt and the third are right, the second is not. -/
example : checksumOk (Nat.repeat (Device.prepare ⟨1, (1, 2), 0x43, 2⟩) 1 ⟨0, 0, 0, 0x010901, [5]⟩) ∧
    ¬ checksumOk (Nat.repeat (Device.prepare ⟨1, (1, 2), 0x43, 2⟩) 2 ⟨0, 0, 0, 0x010901, [5]⟩) ∧
    checksumOk (Nat.repeat (Device.prepare ⟨1, (1, 2), 0x43, 2⟩) 3 ⟨0, 0, 0, 0x010901, [5]⟩) := by decide

theorem i2cs_resend_refuted :
    ¬ ∀ (info : DeviceInfo) (msg : Message), info.engineVersion = 2#64 → msg.payload ≠ [] →
        checksumOk (Device.prepare info msg) → checksumOk (Device.prepare info (Device.prepare info msg)) := by
  intro h
  exact absurd (h ⟨1, (1, 2), 0x43, 2⟩ ⟨0, 0, 0, 0x010901, List.replicate 14 0⟩ rfl (by decide) (by decide)) (by decide)

example : (Device.prepare ⟨1, (1, 2), 0x43, 2⟩ ⟨0, 0, 0, 0x010901, [5]⟩).payload =
    [5, 0, 0, 0, 0, 0, 0, 0, 0, 0, 0, 0, 0, 0xf1] := by decide

/-! ### C42 -/

/-- C42: `Read` ends exactly when, after reading messages none of which match, it reads one that
matches and returns it, or an error occurs and is returned; the world is left as that read left it. -/
theorem read_first_match {σ : Type} (io : MsgIO σ) (f : Matcher) (s s' : σ) (r : MRes) :
    (∃ fuel, Dev.read io f fuel s = some (s', r)) ↔
      ∃ t, Skips io f s t ∧
        ((∃ m, io.read t = (s', .ret (some m) none) ∧ f m = true ∧ r = .ret (some m) none) ∨
         (∃ m e, io.read t = (s', .ret m (some e)) ∧ r = .ret m (some e)) ∨
         ((io.read t = (s', .ret none none) ∨ io.read t = (s', .panic)) ∧ r = .panic)) := by
  constructor
  · rintro ⟨fuel, h⟩
    induction fuel generalizing s with
    | zero => simp [Dev.read] at h
    | succ fuel ih =>
      rw [Dev.read] at h
      rcases hr : io.read s with ⟨s1, ⟨_ | m, _ | e⟩ | _⟩
      · rw [hr] at h
        simp only [Option.some.injEq, Prod.mk.injEq] at h
        obtain ⟨rfl, rfl⟩ := h
        exact ⟨s, .done s, Or.inr (Or.inr ⟨Or.inl hr, rfl⟩)⟩
      · rw [hr] at h
        simp only [Option.some.injEq, Prod.mk.injEq] at h
        obtain ⟨rfl, rfl⟩ := h
        exact ⟨s, .done s, Or.inr (Or.inl ⟨_, _, hr, rfl⟩)⟩
      · rw [hr] at h
        dsimp only at h
        split_ifs at h with hf
        · simp only [Option.some.injEq, Prod.mk.injEq] at h
          obtain ⟨rfl, rfl⟩ := h
          exact ⟨s, .done s, Or.inl ⟨m, hr, hf, rfl⟩⟩
        · obtain ⟨t, ht, hres⟩ := ih _ h
          exact ⟨t, .skip s s1 t m hr (by simpa using hf) ht, hres⟩
      · rw [hr] at h
        simp only [Option.some.injEq, Prod.mk.injEq] at h
        obtain ⟨rfl, rfl⟩ := h
        exact ⟨s, .done s, Or.inr (Or.inl ⟨_, _, hr, rfl⟩)⟩
      · rw [hr] at h
        simp only [Option.some.injEq, Prod.mk.injEq] at h
        obtain ⟨rfl, rfl⟩ := h
        exact ⟨s, .done s, Or.inr (Or.inr ⟨Or.inr hr, rfl⟩)⟩
  · rintro ⟨t, ht, hres⟩
    induction ht with
    | done s =>
      refine ⟨1, ?_⟩
      rw [Dev.read]
      rcases hres with ⟨m, hr, hf, rfl⟩ | ⟨m, e, hr, rfl⟩ | ⟨hr | hr, rfl⟩
      · rw [hr]; simp [hf]
      · rw [hr]
      · rw [hr]
      · rw [hr]
    | skip s s1 t m hr hf _ ih =>
      obtain ⟨fuel, h⟩ := ih hres
      refine ⟨fuel + 1, ?_⟩
      rw [Dev.read, hr]
      simp [hf, h]

theorem devRead_mono {σ : Type} (io : MsgIO σ) (f : Matcher) (fuel k : Nat) (s : σ) (r : σ × MRes)
    (h : Dev.read io f fuel s = some r) : Dev.read io f (fuel + k) s = some r := by
  induction fuel generalizing s with
  | zero => simp [Dev.read] at h
  | succ fuel ih =>
    have : fuel + 1 + k = (fuel + k) + 1 := by omega
    rw [this, Dev.read]
    rw [Dev.read] at h
    rcases hr : io.read s with ⟨s1, ⟨_ | m, _ | e⟩ | _⟩ <;> rw [hr] at h <;> dsimp only at h ⊢ <;> try exact h
    split_ifs at h ⊢ with hf
    · exact h
    · exact ih _ h

/-- The same on a list of incoming messages: the first match is returned, the messages before it are
consumed, the messages after it are not. -/
theorem read_first_match_stream (f : Matcher) (answer : Message → MRes) (skipped : List Message)
    (hs : ∀ m ∈ skipped, f m = false) (rest sent : List Message) (fuel : Nat) (hf : skipped.length < fuel) :
    (∀ m, f m = true → Dev.read (wireIO answer) f fuel ⟨skipped ++ m :: rest, sent⟩ =
        some (⟨rest, sent⟩, .ret (some m) none)) ∧
    Dev.read (wireIO answer) f fuel ⟨skipped, sent⟩ = some (⟨[], sent⟩, .ret none (some .eof)) := by
  induction skipped generalizing fuel with
  | nil =>
    obtain ⟨fuel, rfl⟩ : ∃ k, fuel = k + 1 := ⟨fuel - 1, by simp at hf; omega⟩
    refine ⟨fun m hm => ?_, ?_⟩
    · rw [Dev.read]; simp [wireIO, hm]
    · rw [Dev.read]; simp [wireIO]
  | cons x xs ih =>
    obtain ⟨fuel, rfl⟩ : ∃ k, fuel = k + 1 := ⟨fuel - 1, by simp at hf; omega⟩
    have := ih (fun m hm => hs m (by simp [hm])) fuel (by simp at hf; omega)
    have hx := hs x (by simp)
    refine ⟨fun m hm => ?_, ?_⟩
    · rw [Dev.read]; simp only [wireIO, List.cons_append, hx]; exact this.1 m hm
    · rw [Dev.read]; simp only [wireIO, hx]; exact this.2

example : Dev.read (wireIO acks) (Matcher.cmd 0x012f00) 5
    ⟨[⟨1, 2, 0x0f, 0x001100, []⟩, ⟨1, 2, 0x1f, 0x012f07, [1]⟩, ⟨1, 2, 0x1f, 0x012f00, [2]⟩], []⟩ =
    some (⟨[⟨1, 2, 0x1f, 0x012f00, [2]⟩], []⟩, .ret (some ⟨1, 2, 0x1f, 0x012f07, [1]⟩) none) := by decide

/-! ### C43 -/

/-- C43: one standard direct message 0x0d 0x00 is written; an ack gives its second command byte as
version; a NAK with second byte 0xff gives the I2CS version with the not-linked error; every other
NAK or error is passed on, with version 0. -/
theorem engine_version {σ : Type} (io : MsgIO σ) (s s' : σ) (dst : Address) (r : MRes)
    (h : io.write s ⟨0, dst, 0x0a#8, 0x000d00#64, []⟩ = (s', r)) :
    (∀ ack, r = .ret (some ack) none →
        getEngineVersion io s dst = (s', .ok (BitVec.ofNat 64 (cmd2 ack), none))) ∧
    (∀ ack, r = .ret (some ack) (some .devNak) → cmd2 ack = 0xff →
        getEngineVersion io s dst = (s', .ok (2#64, some .notLinked))) ∧
    (∀ ack, r = .ret (some ack) (some .devNak) → cmd2 ack ≠ 0xff →
        getEngineVersion io s dst = (s', .ok (0#64, some .devNak))) ∧
    (∀ a e, r = .ret a (some e) → e ≠ .devNak →
        getEngineVersion io s dst = (s', .ok (0#64, some e))) := by
  have hc : ∀ m : Message, m.command.command2 = BitVec.ofNat 64 (cmd2 m) := by
    intro m
    apply BitVec.eq_of_toNat_eq
    rw [command2_toNat, BitVec.toNat_ofNat, cmd2]
    omega
  have hff : ∀ m : Message, m.command.command2 = 0xff#64 ↔ cmd2 m = 0xff := by
    intro m
    rw [← BitVec.toNat_inj, command2_toNat, cmd2]
    rfl
  have h' : io.write s ⟨0, dst, Flags.standardDirectMessage, Cmd.getEngineVersion, []⟩ = (s', r) := h
  unfold getEngineVersion
  rw [h']
  refine ⟨?_, ?_, ?_, ?_⟩
  · rintro ack rfl; simp [hc]
  · rintro ack rfl hv; simp [hff, hv]
  · rintro ack rfl hv; simp [hff, hv]
  · rintro a e rfl hv
    cases a <;> simp [hv]

/-- A usable version (nil error) only ever comes from an acknowledged query. -/
theorem engine_version_sound {σ : Type} (io : MsgIO σ) (s s' : σ) (dst : Address) (v : EngineVersion)
    (h : getEngineVersion io s dst = (s', .ok (v, none))) :
    ∃ ack, io.write s ⟨0, dst, 0x0a#8, 0x000d00#64, []⟩ = (s', .ret (some ack) none) ∧ v.toNat = cmd2 ack := by
  unfold getEngineVersion at h
  rcases hw : io.write s ⟨0, dst, Flags.standardDirectMessage, Cmd.getEngineVersion, []⟩ with ⟨s1, ⟨_ | m, _ | e⟩ | _⟩ <;>
    rw [hw] at h
  · simp at h
  · dsimp only at h; split_ifs at h <;> simp at h
  · simp only [Prod.mk.injEq, Out.ok.injEq, and_true] at h
    obtain ⟨rfl, rfl⟩ := h
    exact ⟨m, hw, command2_toNat _⟩
  · dsimp only at h; split_ifs at h <;> simp at h
  · simp at h

example : getEngineVersion (wireIO fun m => .ret (some ⟨m.dst, 0, 0xaf, 0x000dff, []⟩) (some .devNak)) ⟨[], []⟩ 7#32 =
    (⟨[], [⟨0, 7, 0x0a, 0x000d00, []⟩]⟩, .ok (2, some .notLinked)) := by decide

/-! ### C44 -/

theorem id_matcher (m : Message) :
    Matcher.or [Matcher.cmd Cmd.setButtonPressedResponder, Matcher.cmd Cmd.setButtonPressedController] m = true ↔
      cmd1 m = 1 ∨ cmd1 m = 2 := by
  simp only [Matcher.or]
  have h1 := cmdMatcher_iff Cmd.setButtonPressedResponder m
  have h2 := cmdMatcher_iff Cmd.setButtonPressedController m
  have e1 : Cmd.setButtonPressedResponder.toNat / 256 % 256 = 1 := by decide
  have e2 : Cmd.setButtonPressedController.toNat / 256 % 256 = 2 := by decide
  rw [e1] at h1
  rw [e2] at h2
  split_ifs with a b
  · simp; left; exact (h1.mp a).symm
  · simp; right; exact (h2.mp b).symm
  · simp only [false_iff, not_or]
    exact ⟨fun h => a (h1.mpr h.symm), fun h => b (h2.mpr h.symm)⟩

/-- C44, what holds: the answer is taken from the first message received after the query whose first
command byte is 1 or 2, from whatever sender. If every such message comes from the queried device,
so does the answer. -/
theorem id_request_partial {σ : Type} (io : MsgIO σ) (fuel : Nat) (s s' : σ) (dst : Address)
    (fw : FirmwareVersion) (cat : DevCat)
    (h : idRequest io fuel s dst = some (s', .ok (fw, cat, none))) :
    ∃ s1 a t m, io.write s ⟨0, dst, 0x0a#8, 0x001000#64, []⟩ = (s1, .ret a none) ∧
      Skips io (fun m => decide (cmd1 m = 1 ∨ cmd1 m = 2)) s1 t ∧
      io.read t = (s', .ret (some m) none) ∧ (cmd1 m = 1 ∨ cmd1 m = 2) ∧
      fw.toNat = m.dst.toNat % 256 ∧ cat.1.toNat = m.dst.toNat / 65536 % 256 ∧
      cat.2.toNat = m.dst.toNat / 256 % 256 := by
  unfold idRequest at h
  rcases hw : io.write s ⟨0, dst, Flags.standardDirectMessage, Cmd.idRequest, []⟩ with ⟨s1, ⟨a, _ | e⟩ | _⟩ <;>
    rw [hw] at h
  · dsimp only at h
    have hfun : Matcher.or [Matcher.cmd Cmd.setButtonPressedResponder, Matcher.cmd Cmd.setButtonPressedController] =
        (fun m => decide (cmd1 m = 1 ∨ cmd1 m = 2)) := by
      funext m
      rw [Bool.eq_iff_iff, id_matcher, decide_eq_true_iff]
    split at h
    · simp at h
    · simp at h
    · simp at h
    · simp at h
    · rename_i s2 m hr
      simp only [Option.some.injEq, Prod.mk.injEq, Out.ok.injEq, and_true] at h
      obtain ⟨rfl, rfl, rfl⟩ := h
      rw [hfun] at hr
      obtain ⟨t, hsk, hres⟩ := (read_first_match io _ s1 s2 _).mp ⟨fuel, hr⟩
      rcases hres with ⟨m', h1, h2, h3⟩ | ⟨m', e, h1, h3⟩ | ⟨h1, h3⟩
      · simp only [MRes.ret.injEq, Option.some.injEq, and_true] at h3
        subst h3
        refine ⟨s1, a, t, m, hw, hsk, h1, by simpa using h2, ?_, ?_, ?_⟩
        · rw [BitVec.toNat_setWidth, byte32_toNat]; omega
        · dsimp only; rw [byte32_shr_toNat]; norm_num
        · dsimp only; rw [byte32_shr_toNat]; norm_num
      · simp at h3
      · simp at h3
  · simp at h
  · simp at h

/-- C44 is false of the code: a set-button broadcast of another device answers the query. -/
theorem id_request_refuted :
    ¬ ∀ (inbox : List Message) (dst : Address) (fuel : Nat) (w' : Wire) (fw : FirmwareVersion) (cat : DevCat),
      idRequest (wireIO acks) fuel ⟨inbox, []⟩ dst = some (w', .ok (fw, cat, none)) →
      ∃ m ∈ inbox, m.src = dst ∧ fw.toNat = m.dst.toNat % 256 := by
  intro h
  obtain ⟨m, hm, h1, h2⟩ := h [⟨0x999999, 0x012a43, 0x8b, 0x080100, []⟩, ⟨0x112233, 0x020b45, 0x8b, 0x080100, []⟩]
    0x112233 5 ⟨[⟨0x112233, 0x020b45, 0x8b, 0x080100, []⟩], [⟨0, 0x112233, 0x0a, 0x001000, []⟩]⟩ 0x43 (1, 0x2a) (by rfl)
  simp only [List.mem_cons, List.not_mem_nil, or_false] at hm
  rcases hm with rfl | rfl
  · exact absurd h1 (by decide)
  · exact absurd h2 (by decide)

/-- With only the queried device announcing itself, the answer is right, whatever other traffic there is. -/
theorem id_request_own_partial (answer : Message → MRes) (before after sent : List Message) (m : Message)
    (a : Option Message) (dst : Address) (fuel : Nat)
    (hack : answer ⟨0, dst, 0x0a#8, 0x001000#64, []⟩ = .ret a none)
    (hb : ∀ x ∈ before, cmd1 x ≠ 1 ∧ cmd1 x ≠ 2) (hm : cmd1 m = 1 ∨ cmd1 m = 2) (hf : before.length < fuel) :
    ∃ fw cat, idRequest (wireIO answer) fuel ⟨before ++ m :: after, sent⟩ dst =
        some (⟨after, sent ++ [⟨0, dst, 0x0a#8, 0x001000#64, []⟩]⟩, .ok (fw, cat, none)) ∧
      fw.toNat = m.dst.toNat % 256 ∧ cat.1.toNat = m.dst.toNat / 65536 % 256 ∧
      cat.2.toNat = m.dst.toNat / 256 % 256 := by
  have hr := (read_first_match_stream (Matcher.or [Matcher.cmd Cmd.setButtonPressedResponder,
    Matcher.cmd Cmd.setButtonPressedController]) answer before (by
      intro x hx
      rw [Bool.eq_false_iff, ne_eq, id_matcher]
      have := hb x hx
      tauto) after (sent ++ [⟨0, dst, 0x0a#8, 0x001000#64, []⟩]) fuel hf).1 m ((id_matcher m).mpr hm)
  refine ⟨(byte32 m.dst).setWidth 64, (byte32 (m.dst >>> 16), byte32 (m.dst >>> 8)), ?_, ?_, ?_, ?_⟩
  · unfold idRequest
    have hw : (wireIO answer).write ⟨before ++ m :: after, sent⟩ ⟨0, dst, Flags.standardDirectMessage, Cmd.idRequest, []⟩ =
        (⟨before ++ m :: after, sent ++ [⟨0, dst, 0x0a#8, 0x001000#64, []⟩]⟩, .ret a none) := by
      show (_, answer _) = _
      rw [← hack]; rfl
    rw [hw]
    dsimp only
    rw [hr]
  · rw [BitVec.toNat_setWidth, byte32_toNat]; omega
  · dsimp only; rw [byte32_shr_toNat]; norm_num
  · dsimp only; rw [byte32_shr_toNat]; norm_num

/-! ### C45 -/

/-- C45: the info carries the requested address; a device is returned exactly when there was no error or
the device said it is not linked; if the version query failed nothing more is done and its error is
returned; otherwise the identification query decides. -/
theorem open_device {σ : Type} (io : MsgIO σ) (fuel : Nat) (s s' : σ) (dst : Address) (dev : Bool)
    (info : DeviceInfo) (err : Option Err)
    (h : Dev.open io fuel s dst = some (s', .ok (dev, info, err))) :
    info.address = dst ∧ (dev = true ↔ err = none ∨ err = some .notLinked) ∧
    ∃ s1 e1, getEngineVersion io s dst = (s1, .ok (info.engineVersion, e1)) ∧
      (e1 ≠ none → s' = s1 ∧ err = e1 ∧ info.devCat = (0, 0) ∧ info.firmwareVersion = 0) ∧
      (e1 = none → idRequest io fuel s1 dst = some (s', .ok (info.firmwareVersion, info.devCat, err))) := by
  unfold Dev.open at h
  rcases hv : getEngineVersion io s dst with ⟨s1, ⟨v, _ | e⟩ | e | _⟩ <;> rw [hv] at h
  · dsimp only at h
    rcases hi : idRequest io fuel s1 dst with _ | ⟨s2, ⟨fw, cat, _ | e⟩ | e | _⟩ <;> rw [hi] at h
    · simp at h
    · simp only [Option.some.injEq, Prod.mk.injEq, Out.ok.injEq] at h
      obtain ⟨rfl, rfl, rfl, rfl⟩ := h
      exact ⟨rfl, by simp, s1, none, rfl, by simp, fun _ => hi⟩
    · simp only [Option.some.injEq, Prod.mk.injEq, Out.ok.injEq] at h
      obtain ⟨rfl, rfl, rfl, rfl⟩ := h
      exact ⟨rfl, by simp, s1, none, rfl, by simp, fun _ => hi⟩
    · simp at h
    · simp at h
  · simp only [Option.some.injEq, Prod.mk.injEq, Out.ok.injEq] at h
    obtain ⟨rfl, rfl, rfl, rfl⟩ := h
    exact ⟨rfl, by simp, s1, some e, rfl, fun _ => ⟨rfl, rfl, rfl, rfl⟩, by simp⟩
  · simp at h
  · simp at h

/-- Filters are applied in order, the first one nearest to the modem. -/
theorem filters_order {σ : Type} (fs gs : List (MsgIO σ → MsgIO σ)) (io : MsgIO σ) :
    applyFilters (fs ++ gs) io = applyFilters gs (applyFilters fs io) ∧
    ∀ f, applyFilters [f] io = f io := by
  refine ⟨?_, fun f => rfl⟩
  induction fs generalizing io with
  | nil => rfl
  | cons f fs ih => simp only [List.cons_append, applyFilters]; exact ih _

example : Dev.open (wireIO fun m => if m.command = 0x000d00 then .ret (some ⟨m.dst, 0, 0x2f, 0x000d02, []⟩) none else acks m) 5
    ⟨[⟨7, 0x012a43, 0x8b, 0x080100, []⟩], []⟩ 7 =
    some (⟨[], [⟨0, 7, 0x0a, 0x000d00, []⟩, ⟨0, 7, 0x0a, 0x001000, []⟩]⟩, .ok (true, ⟨7, (1, 0x2a), 0x43, 2⟩, none)) := by
  rfl

/-! ### C52 -/

/-- C52: matchers are Boolean combinations. -/
theorem matcher_algebra (fs : List Matcher) (f : Matcher) (m : Message) :
    (Matcher.and fs m = true ↔ ∀ g ∈ fs, g m = true) ∧
    (Matcher.or fs m = true ↔ ∃ g ∈ fs, g m = true) ∧
    (Matcher.not f m = true ↔ ¬ f m = true) := by
  refine ⟨?_, ?_, by simp [Matcher.not]⟩
  · induction fs with
    | nil => simp [Matcher.and]
    | cons g fs ih =>
      simp only [Matcher.and, List.mem_cons, forall_eq_or_imp]
      cases hg : g m
      · simp
      · simpa using ih
  · induction fs with
    | nil => simp [Matcher.or]
    | cons g fs ih =>
      simp only [Matcher.or, List.mem_cons, exists_eq_or_imp]
      cases hg : g m
      · simpa using ih
      · simp

/-- C52: the basic matchers, and `MatchAck`: not an ack or nak, and addressed to the ack's sender. -/
theorem matcher_basic (m a : Message) (c : Command) (x : Address) :
    (Matcher.cmd c m = true ↔ c.toNat / 256 % 256 = cmd1 m) ∧
    (Matcher.src x m = true ↔ m.src = x) ∧ (Matcher.dst x m = true ↔ m.dst = x) ∧
    (Matcher.ack m = true ↔ isAck m.flags ∨ isNak m.flags) ∧
    (Matcher.allLink m = true ↔ typeNumber m.flags = 2 ∨ typeNumber m.flags = 3 ∨ typeNumber m.flags = 6 ∨ typeNumber m.flags = 7) ∧
    (Matcher.matchAck a m = true ↔ ¬ isAck m.flags ∧ ¬ isNak m.flags ∧ m.dst = a.src) := by
  have hack : Matcher.ack m = true ↔ isAck m.flags ∨ isNak m.flags := by
    unfold Matcher.ack
    rw [Bool.or_eq_true, (flag_classification m.flags).1, (flag_classification m.flags).2.1]
  refine ⟨cmdMatcher_iff c m, by simp [Matcher.src], by simp [Matcher.dst], hack, ?_, ?_⟩
  · unfold Matcher.allLink typeNumber
    generalize m.flags = f
    revert f
    decide +kernel
  · unfold Matcher.matchAck
    rw [(matcher_algebra _ Matcher.ack m).1]
    simp only [List.mem_cons, List.not_mem_nil, or_false, forall_eq_or_imp, forall_eq]
    rw [(matcher_algebra [] Matcher.ack m).2.2, hack]
    simp [Matcher.dst, not_or, and_assoc]

example : Matcher.matchAck ⟨7, 0, 0x2f, 0x012f00, []⟩ ⟨1, 7, 0x1f, 0x012f00, []⟩ = true := by decide

end Insteon
