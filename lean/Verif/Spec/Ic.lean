import Mathlib.Data.List.Forall2
import Verif.Spec.Text
import Verif.Spec.Live
import Verif.Spec.LinkOps
import Verif.Spec.ModemDb
import Verif.Model.Plm

/-
Specification vocabulary for the commands of cmd/ic.
-/

namespace Insteon.Spec

/-! ### Arguments -/

/-- Exactly two hex digits with value `v`. -/
def HexPair (s : List (BitVec 8)) (v : Nat) : Prop := s.length = 2 ∧ HexField s v

/-- The usual way to write a command: two pairs of hex digits, possibly with a period in between. -/
def CommandText (s : List (BitVec 8)) (v1 v2 : Nat) : Prop :=
  ∃ f1 f2, (s = f1 ++ f2 ∨ s = f1 ++ ascii "." ++ f2) ∧ HexPair f1 v1 ∧ HexPair f2 v2

/-- `t` is `s` without its first period. -/
def Undotted (s t : List (BitVec 8)) : Prop :=
  (t = s ∧ 0x2e#8 ∉ s) ∨ ∃ a b, s = a ++ 0x2e#8 :: b ∧ 0x2e#8 ∉ a ∧ t = a ++ b

/-- Two characters read as a signed hex number: two digits below 80, or a sign and one digit; `v` is the byte. -/
def SignedByte (s : List (BitVec 8)) (v : Nat) : Prop :=
  (HexPair s v ∧ v < 128) ∨ (∃ d, s = ascii "+" ++ [d] ∧ IsHexDigit d v) ∨
    (∃ d x, s = ascii "-" ++ [d] ∧ IsHexDigit d x ∧ v = (256 - x) % 256)

/-- The hex digits `ds` have the value `v`. -/
def HexNumber (ds : List (BitVec 8)) (v : Nat) : Prop :=
  ∃ vs, List.Forall₂ IsHexDigit ds vs ∧ v = vs.foldl (fun n d => 16 * n + d) 0

/-- Text that begins, after blanks, with a hex number of value `v`; what follows is not looked at. -/
def ByteArg (s : List (BitVec 8)) (v : Nat) : Prop :=
  ∃ w ds rest, s = w ++ ds ++ rest ∧ Blank w ∧ ds ≠ [] ∧ HexNumber ds v ∧ ¬ StartsHex rest

/-! ### A modem's configuration -/

/-- What happens to a command: carried out and confirmed; refused; lost on the way to the modem; carried out, but the reply is lost; the
serial port reports an error. -/
inductive CfgFate where
  | done
  | refused
  | lost
  | replyLost
  | portError (e : Err)

/-- A modem with its configuration byte, the replies on their way to the host and the fates of the commands to come (afterwards all
are carried out). -/
structure CfgModem where
  cfg : BitVec 8
  inbox : List Packet
  fates : List CfgFate

/-- The effect of a command on the configuration and the reply: 0x73 asks for the configuration, 0x6b sets it. -/
def CfgModem.command (cfg : BitVec 8) : List (BitVec 8) → Option (BitVec 8 × Packet)
  | [0x02, 0x73] => some (cfg, ⟨0x73#8, [cfg, 0#8, 0#8], 0x06#8⟩)
  | [0x02, 0x6b, b] => some (b, ⟨0x6b#8, [b], 0x06#8⟩)
  | _ => none

/-- The serial port with the modem behind it. -/
def cfgIO : PlmIO CfgModem where
  tx := fun m bytes =>
    match CfgModem.command m.cfg bytes with
    | none => (m, none)
    | some (cfg, reply) =>
      match m.fates with
      | [] => (⟨cfg, m.inbox ++ [reply], []⟩, none)
      | .done :: fs => (⟨cfg, m.inbox ++ [reply], fs⟩, none)
      | .refused :: fs => (⟨m.cfg, m.inbox ++ [{ reply with ack := 0x15#8 }], fs⟩, none)
      | .lost :: fs => (⟨m.cfg, m.inbox, fs⟩, none)
      | .replyLost :: fs => (⟨cfg, m.inbox, fs⟩, none)
      | .portError e :: fs => (⟨m.cfg, m.inbox, fs⟩, some e)
  rxPacket := fun m => match m.inbox with
    | [] => (m, .timeout)
    | p :: ps => ({ m with inbox := ps }, .packet p)
  rxMsg := fun m => (m, .timeout)

/-- The letters of the four switches and their bits. -/
def flagLetters : List (List (BitVec 8) × Nat) := [(ascii "L", 7), (ascii "M", 6), (ascii "A", 5), (ascii "D", 4)]

/-- The four switches of `cfg'` are those of `cfg`, but switch `pos` is `on`. -/
def Switched (pos : Nat) (on : Bool) (cfg cfg' : BitVec 8) : Prop :=
  ∀ i, 4 ≤ i → i < 8 → cfg'.getLsbD i = if i = pos then on else cfg.getLsbD i

/-! ### Opening devices of a network -/

/-- Opening the device with an address: a device that does not answer is an error without a device; one that does not know the modem is
opened, but with the error that it is not linked. -/
def netOpen (nd : NetDef) (who : BitVec 32 → Option Nat) (stranger : BitVec 32 → Bool) (n : Net) (a : BitVec 32) :
    Net × Option (Linkable Net) × Option Err :=
  match who a with
  | none => (n, none, some .devReadTimeout)
  | some d => (n, some (netDevice nd d), if stranger a then some .notLinked else none)

/-! ### A modem without room -/

/-- A modem that refuses to store records: everything else is as for other modems. -/
def fullIO (k : ModemKind) : PlmIO ModemSt where
  tx := fun m bytes => match bytes with
    | 0x02 :: 0x6f :: op :: r =>
      if op = 0x80#8 then (k.receive m bytes, none) else ({ m with inbox := m.inbox ++ [⟨0x6f#8, op :: r, 0x15#8⟩] }, none)
    | _ => (k.receive m bytes, none)
  rxPacket := k.io.rxPacket
  rxMsg := k.io.rxMsg

/-! ### Listening -/

/-- What comes in while a modem is listened to: a packet, or nothing for longer than the timeout. -/
inductive Hearing where
  | packet (p : Packet)
  | quiet

/-- A PLM whose message queue gets this; afterwards it is quiet. -/
def hearingIO : PlmIO (List Hearing) where
  tx := fun s _ => (s, none)
  rxPacket := fun s => (s, .timeout)
  rxMsg := fun s => match s with
    | .packet p :: s => (s, .packet p)
    | .quiet :: s => (s, .timeout)
    | [] => ([], .timeout)

/-- The messages among it. -/
def Hearing.of (s : List (Option Message)) : List Hearing := s.map fun
  | some m => .packet (heard m).packet
  | none => .quiet

end Insteon.Spec
