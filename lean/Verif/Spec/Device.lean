import Verif.Model.Device
import Verif.Spec.Wire

/-
Specification vocabulary for devices: streams of received messages, checksums, retries.
-/

namespace Insteon.Spec

/-- From `s` to `t` by reading messages none of which satisfies `f`. -/
inductive Skips {σ : Type} (io : MsgIO σ) (f : Message → Bool) : σ → σ → Prop where
  | done (s : σ) : Skips io f s s
  | skip (s s1 t : σ) (m : Message) : io.read s = (s1, .ret (some m) none) → f m = false →
      Skips io f s1 t → Skips io f s t

/-- A world that is a list of messages still to be received (end of stream is an error) and a log of the
messages written, each acknowledged by `answer`. -/
structure Wire where
  inbox : List Message
  sent : List Message
deriving DecidableEq, Repr

/-- The message writer of such a world. -/
def wireIO (answer : Message → MRes) : MsgIO Wire where
  read := fun w => match w.inbox with
    | [] => (w, .ret none (some .eof))
    | m :: rest => ({ w with inbox := rest }, .ret (some m) none)
  write := fun w m => ({ w with sent := w.sent ++ [m] }, answer m)

/-- An answer that is always a positive acknowledgement from the addressed device. -/
def acks (m : Message) : MRes := .ret (some ⟨m.dst, m.src, 0x2f#8, m.command, []⟩) none

/-- First and second command byte of a message, as numbers. -/
def cmd1 (m : Message) : Nat := m.command.toNat / 256 % 256
def cmd2 (m : Message) : Nat := m.command.toNat % 256

/-- Sum of some bytes. -/
def byteSum : List (BitVec 8) → Nat
  | [] => 0
  | b :: bs => b.toNat + byteSum bs

/-- A message's checksum is right: command bytes and payload sum to zero modulo 256. -/
def checksumOk (m : Message) : Prop := (cmd1 m + cmd2 m + byteSum m.payload) % 256 = 0

instance (m : Message) : Decidable (checksumOk m) := by unfold checksumOk; infer_instance

/-- State and result of writing `m` again and again: after `k` attempts, and the outcome of attempt `k`
(counting from 0). -/
def wAfter {σ : Type} (w : σ → Message → σ × MRes) (m : Message) (s : σ) : Nat → σ
  | 0 => s
  | k + 1 => (w (wAfter w m s k) m).1
def wOutcome {σ : Type} (w : σ → Message → σ × MRes) (m : Message) (s : σ) (k : Nat) : MRes :=
  (w (wAfter w m s k) m).2

/-- A device read timeout. -/
def isTimeout : MRes → Prop
  | .ret _ e => e = some .devReadTimeout
  | .panic => False

/-- What a duplicate filter should deliver: from the messages seen so far (newest first) and the
messages still to come, the next message none of whose nine predecessors is a duplicate. -/
def dedupRead : List Message → List Message → Option Message × List Message × List Message
  | seen, [] => (none, seen, [])
  | seen, m :: rest =>
    if (seen.take 9).any (fun d => m.duplicate d) then dedupRead (m :: seen) rest
    else (some m, m :: seen, rest)

end Insteon.Spec
