import Mathlib.Tactic.SplitIfs
import Verif.Model.DelayWriter
import Verif.Props.Message

/-
C173: writes that are delayed leave the network the time it needs.
-/

namespace Insteon

open DelayWriter

/-- A clock: it does not go back, and reading it gives the time it was read. -/
structure Spec.Clock {σ : Type} (clock : σ → σ × Int) (time : σ → Int) : Prop where
  shown : ∀ s, time s ≤ (clock s).2 ∧ (clock s).2 ≤ time (clock s).1

/-- The time a message of `len` bytes needs with `hops` further hops: a sixtieth of a second per byte and hop. -/
def Spec.onTheWay (hops len : Nat) : Int := 1000000000 * len * (hops + 1) / 60

open Spec

theorem timeSub_small (t u : Int) (h : -(2 ^ 63) ≤ t - u) (h' : t - u < 2 ^ 63) : timeSub t u = t - u := by
  unfold timeSub
  omega

/-- C173, what is proved: a write after a message was sent is delayed by the time the packet read last needs, counted from when `Write` is called, and
at least by the least delay set; so it starts after that packet has had the time it needs. It holds if a packet has been read in the last
hundred years. What is missing are writes before anything was read, see `delay_unread_refuted`. -/
theorem delay_spaced_partial {σ : Type} (w : PacketWriter σ) (clock : σ → σ × Int) (time : σ → Int) (hc : Clock clock time) (sleep : Int → σ → σ)
    (hs : ∀ n s, time s + n ≤ time (sleep n s)) (d : DelayWriter σ) (pkt last : Packet)
    (hlast : d.lastPkt = some last) (hcmd : last.command = 0x62#8 ∨ last.command = 0x64#8) (httl : d.lastTTL.toNat ≤ 3)
    (hlen : d.lastLen ≤ 1000) (hread : d.lastRead ≤ time d.inner) (hsoon : (clock (clock d.inner).1).2 - d.lastRead < 2 ^ 61) :
    ∃ start, (write w clock sleep d pkt).1.inner = (w.write start pkt).1 ∧ (write w clock sleep d pkt).2 = (w.write start pkt).2 ∧
      d.lastRead + onTheWay d.lastTTL.toNat d.lastLen ≤ time start ∧
      time d.inner + onTheWay d.lastTTL.toNat d.lastLen ≤ time start ∧ time d.inner + d.minDelay ≤ time start := by
  refine ⟨sleep (writeDelay clock d).2 (writeDelay clock d).1.inner, rfl, rfl, ?_⟩
  have hp : (propagationDelay d.lastTTL d.lastLen : Int) = onTheWay d.lastTTL.toNat d.lastLen := by
    rw [propagationDelay_partial _ _ (by omega)]
    unfold onTheWay
    push_cast
    rfl
  have hpb : 0 ≤ onTheWay d.lastTTL.toNat d.lastLen ∧ onTheWay d.lastTTL.toNat d.lastLen < 2 ^ 40 := by
    have h1 : 1000000000 * d.lastLen * (d.lastTTL.toNat + 1) ≤ 1000000000 * 1000 * 4 :=
      Nat.mul_le_mul (Nat.mul_le_mul (Nat.le_refl _) hlen) (by omega)
    have h2 : onTheWay d.lastTTL.toNat d.lastLen = ((1000000000 * d.lastLen * (d.lastTTL.toNat + 1) / 60 : Nat) : Int) := by
      unfold onTheWay
      push_cast
      rfl
    rw [h2]
    omega
  have hw := hs (writeDelay clock d).2 (writeDelay clock d).1.inner
  have c1 := hc.shown d.inner
  have c2 := hc.shown (clock d.inner).1
  have hwd : writeDelay clock d = ({ d with inner := (clock (clock d.inner).1).1 },
      if onTheWay d.lastTTL.toNat d.lastLen + ((clock (clock d.inner).1).2 - (clock d.inner).2) < d.minDelay then d.minDelay
      else onTheWay d.lastTTL.toNat d.lastLen + ((clock (clock d.inner).1).2 - (clock d.inner).2)) := by
    unfold writeDelay
    rw [hlast]
    dsimp only
    rw [if_pos hcmd, hp, timeSub_small (clock d.inner).2 _ (by omega) (by omega), timeSub_small _ _ (by omega) (by omega)]
    have he : (clock (clock d.inner).1).2 - (d.lastRead + ((clock d.inner).2 - (d.lastRead + onTheWay d.lastTTL.toNat d.lastLen))) =
        onTheWay d.lastTTL.toNat d.lastLen + ((clock (clock d.inner).1).2 - (clock d.inner).2) := by omega
    rw [he]
  rw [hwd] at hw ⊢
  dsimp only at hw ⊢
  split at hw <;> rename_i hlt
  · rw [if_pos hlt]
    omega
  · rw [if_neg hlt]
    omega

/-- Reading keeps what `delay_spaced_partial` needs: the packet read, its hops left and the time. -/
theorem delay_read {σ : Type} (w : PacketWriter σ) (clock : σ → σ × Int) (time : σ → Int) (hc : Clock clock time)
    (hw : ∀ s, time s ≤ time (w.read s).1) (d d' : DelayWriter σ) (pkt : Packet) (h : DelayWriter.readPacket w clock d = (d', .ret (some pkt) none)) :
    time d.inner ≤ d'.lastRead ∧ d'.lastRead ≤ time d'.inner ∧ d'.lastLen = pkt.payload.length ∧ d'.lastPkt = d.lastPkt ∧ d'.minDelay = d.minDelay ∧
    (pkt.command = 0x50#8 ∨ pkt.command = 0x51#8 → ∃ flags, pkt.payload[6]? = some flags ∧ d'.lastTTL.toNat = flags.toNat % 4) ∧
    (pkt.command = 0x64#8 → d'.lastTTL.toNat = 3) ∧
    (pkt.command ≠ 0x50#8 → pkt.command ≠ 0x51#8 → pkt.command ≠ 0x64#8 → d'.lastTTL = d.lastTTL) := by
  unfold DelayWriter.readPacket at h
  have hr := hw d.inner
  rcases hx : w.read d.inner with ⟨s, ⟨_ | p, _ | e⟩ | _⟩ <;> rw [hx] at h hr <;> simp only [Prod.mk.injEq, PRes.ret.injEq, reduceCtorEq, and_false, false_and] at h
  have c := hc.shown s
  dsimp only at h hr
  have hand : ∀ b : Byte, (b &&& 0x03#8).toNat = b.toNat % 4 := by decide +kernel
  by_cases h1 : p.command = PCmd.stdMsgReceived ∨ p.command = PCmd.extMsgReceived
  · rw [if_pos h1] at h
    rcases hb : p.payload[6]? with _ | b <;> rw [hb] at h <;> simp only [Prod.mk.injEq, PRes.ret.injEq, reduceCtorEq, and_false, Option.some.injEq, and_true] at h
    obtain ⟨rfl, rfl⟩ := h
    refine ⟨by dsimp only; omega, by dsimp only; omega, rfl, rfl, rfl, fun _ => ⟨b, hb, hand b⟩, ?_, ?_⟩
    · intro h2
      rcases h1 with h1 | h1 <;> rw [h1] at h2 <;> exact absurd h2 (by decide)
    · intro h2 h3
      rcases h1 with h1 | h1
      · exact absurd h1 h2
      · exact absurd h1 h3
  · rw [if_neg h1] at h
    by_cases h2 : p.command = PCmd.startAllLink
    · rw [if_pos h2] at h
      simp only [Prod.mk.injEq, PRes.ret.injEq, Option.some.injEq, and_true] at h
      obtain ⟨rfl, rfl⟩ := h
      exact ⟨by dsimp only; omega, by dsimp only; omega, rfl, rfl, rfl, fun h => absurd h h1, fun _ => rfl, fun _ _ h => absurd h2 h⟩
    · rw [if_neg h2] at h
      simp only [Prod.mk.injEq, PRes.ret.injEq, Option.some.injEq, and_true] at h
      obtain ⟨rfl, rfl⟩ := h
      exact ⟨by dsimp only; omega, by dsimp only; omega, rfl, rfl, rfl, fun h => absurd h h1, fun h => absurd h h2, fun _ _ _ => rfl⟩

/-- C173 in full is false of the code: if nothing has been read since the start, the second message is held back for 292 years. (The zero time of Go is more
than 2 ^ 64 nanoseconds ago since the year 586.) -/
theorem delay_unread_refuted {σ : Type} (clock : σ → σ × Int) (d : DelayWriter σ) (last : Packet) (hread : d.lastRead = 0)
    (hlast : d.lastPkt = some last) (hcmd : last.command = 0x62#8 ∨ last.command = 0x64#8) (httl : d.lastTTL.toNat ≤ 3) (hlen : d.lastLen ≤ 1000)
    (hnow : ∀ s, 2 ^ 64 + 2 ^ 41 ≤ (clock s).2) : 2 ^ 63 - 1 ≤ (writeDelay clock d).2 := by
  have hpb : (propagationDelay d.lastTTL d.lastLen : Int) < 2 ^ 41 := by
    rw [propagationDelay_partial _ _ (by omega)]
    have h1 : 1000000000 * d.lastLen * (d.lastTTL.toNat + 1) ≤ 1000000000 * 1000 * 4 :=
      Nat.mul_le_mul (Nat.mul_le_mul (Nat.le_refl _) hlen) (by omega)
    omega
  have n1 := hnow d.inner
  have n2 := hnow (clock d.inner).1
  unfold writeDelay
  rw [hlast]
  dsimp only
  rw [if_pos hcmd, hread]
  dsimp only
  have e1 : timeSub (clock d.inner).2 (0 + (propagationDelay d.lastTTL d.lastLen : Int)) = 2 ^ 63 - 1 := by
    unfold timeSub
    omega
  have e2 : timeSub (clock (clock d.inner).1).2 (0 + (2 ^ 63 - 1)) = 2 ^ 63 - 1 := by
    unfold timeSub
    omega
  rw [e1, e2]
  split_ifs
  · omega
  · omega

/-- C173 in full is false of the code: used as the other writers are used, by its `WritePacket`, it does not wait at all. -/
theorem delay_unused_refuted {σ : Type} (w : PacketWriter σ) (clock : σ → σ × Int) (d : DelayWriter σ) (pkt : Packet) :
    ((asWriter w clock).write d pkt).1.inner = (w.write d.inner pkt).1 ∧ ((asWriter w clock).write d pkt).2 = (w.write d.inner pkt).2 ∧
    ((asWriter w clock).write d pkt).1.lastPkt = d.lastPkt := ⟨rfl, rfl, rfl⟩

/-- A clock that takes a microsecond to read. -/
def slowClock (s : Nat) : Nat × Int := (s + 1000, s + 500)

/-- The hypotheses of `delay_spaced_partial` are met, and the write starts 600 ms (and a bit) after it was asked for. -/
example : Clock slowClock (fun s => (s : Int)) ∧ (∀ (n : Int) (s : Nat), (s : Int) + n ≤ ((fun n s => s + n.toNat : Int → Nat → Nat) n s : Nat)) ∧
    (write ⟨fun s _ => (s, .ret none none), fun s => (s, .ret none none)⟩ slowClock (fun n s => s + n.toNat)
      ⟨5000000000, 3, 9, 0, 4000000000, some ⟨0x62, [], 0⟩⟩ ⟨0x62, [], 0⟩).1.inner = 5600003000 := by
  refine ⟨⟨fun s => ?_⟩, fun n s => ?_, by decide⟩
  · simp only [slowClock]
    omega
  · dsimp only
    omega

end Insteon
