import Verif.Spec.ModemDb

/-
Specification of a modem (`ModemKind`) on an unreliable serial line: every command the host sends meets a fate.
-/

namespace Insteon.Spec

/-- What happens to one command: it is carried out and answered; the modem refuses it (NAK) without doing
anything; it does not reach the modem; it is carried out, but only the first packets of the answer, maybe none,
reach the host; the host cannot even send it. -/
inductive LineFate where
  | done
  | refused
  | lost
  | cut (kept : Nat)
  | unsent (why : Nat)
deriving DecidableEq, Repr

/-- The modem's refusal of the bytes of a host frame: it echoes them with a NAK. -/
def refusal (bytes : List (BitVec 8)) : Packet := ⟨bytes.getD 1 0#8, bytes.drop 2, 0x15#8⟩

/-- A modem on such a line. The state is the modem and the fates of the next commands; when no fate is left
the line works. -/
def ModemKind.faultyIO (k : ModemKind) : PlmIO (ModemSt × List LineFate) where
  tx := fun s bytes => match s.2 with
    | [] => ((k.receive s.1 bytes, []), none)
    | .done :: fs => ((k.receive s.1 bytes, fs), none)
    | .refused :: fs => (({ s.1 with inbox := s.1.inbox ++ [refusal bytes] }, fs), none)
    | .lost :: fs => ((s.1, fs), none)
    | .cut kept :: fs =>
      let m := k.receive s.1 bytes
      (({ m with inbox := s.1.inbox ++ (m.inbox.drop s.1.inbox.length).take kept }, fs), none)
    | .unsent why :: fs => ((s.1, fs), some (.other why))
  rxPacket := fun s => match s.1.inbox with
    | [] => (s, .timeout)
    | p :: ps => (({ s.1 with inbox := ps }, s.2), .packet p)
  rxMsg := fun s => (s, .timeout)

/-- A line on which nothing is lost, and no command is refused more than three times in a row. -/
def Bearable (fs : List LineFate) : Prop :=
  (∀ f ∈ fs, f = .done ∨ f = .refused) ∧ ¬ [LineFate.refused, .refused, .refused, .refused] <:+: fs

end Insteon.Spec
