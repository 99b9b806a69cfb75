import Verif.Model.Logs
import Verif.Spec.IcDevice

/-
Specification vocabulary for logs.
-/

namespace Insteon.Spec

/-- What a program asks of a serial port. -/
inductive PortOp where
  | read (n : Nat)
  | write (b : List (BitVec 8))

/-- What it gets: the bytes read or the number of bytes written, and an error. -/
inductive PortResult where
  | read (b : List (BitVec 8)) (e : Option Err)
  | write (n : Nat) (e : Option Err)
deriving DecidableEq

/-- A program that uses the port: what it asks next depends on what it got so far. -/
abbrev PortUser := List PortResult → Option PortOp

/-- The first `n` requests of the program, with what it got. -/
def useOf {σ : Type} (p : SerialPort σ) (user : PortUser) : Nat → σ → List (PortOp × PortResult) → σ × List (PortOp × PortResult)
  | 0, s, seen => (s, seen)
  | n + 1, s, seen => match user (seen.map Prod.snd) with
    | none => (s, seen)
    | some (.read k) => let r := p.read s k; useOf p user n r.1 (seen ++ [(.read k, .read r.2.1 r.2.2)])
    | some (.write b) => let r := p.write s b; useOf p user n r.1 (seen ++ [(.write b, .write r.2.1 r.2.2)])

/-- Bytes that came from the port or were sent to it. -/
inductive PortTraffic where
  | rx (b : List (BitVec 8))
  | tx (b : List (BitVec 8))

/-- The traffic of one request. A read without bytes is none. -/
def trafficOf : PortOp × PortResult → List PortTraffic
  | (.read _, .read [] _) => []
  | (.read _, .read b _) => [.rx b]
  | (.write b, _) => [.tx b]
  | _ => []

/-- Bytes as two hex digits each, with blanks between. -/
def hexBytes : List (BitVec 8) → List (BitVec 8)
  | [] => []
  | [b] => hexPair b.toNat
  | b :: rest => hexPair b.toNat ++ [0x20] ++ hexBytes rest

/-- The line in the log. -/
def PortTraffic.line : PortTraffic → List (BitVec 8)
  | .rx b => ascii "RX " ++ hexBytes b
  | .tx b => ascii "TX " ++ hexBytes b

/-- What a flag was set to last, false if it was not. -/
def lastSetting (names : List String) (args : List (String × Bool)) : Bool :=
  ((args.filter fun a => a.1 ∈ names).getLast?.map Prod.snd).getD false

end Insteon.Spec
