import Verif.Spec.Live
import Verif.Model.Snoop

/-
Specification vocabulary for listening on a serial line: what host and modem say to each other.
-/

namespace Insteon.Spec

/-- `c` consists of the elements of `a` and those of `b`, each in their order. -/
inductive Interleaving {α : Type} : List α → List α → List α → Prop
  | nil : Interleaving [] [] []
  | left (x : α) {a b c : List α} : Interleaving a b c → Interleaving (x :: a) b (x :: c)
  | right (x : α) {a b c : List α} : Interleaving a b c → Interleaving a (x :: b) (x :: c)

/-- What a modem says: it passes on a message, accepts or refuses a request to send one, or reports something else. -/
inductive FromModem where
  | heard (m : Message)
  | accepted (m : Message)
  | refused (m : Message)
  | other (f : Frame)

/-- The frame on the line. -/
def FromModem.frame : FromModem → Frame
  | .heard m => Spec.heard m
  | .accepted m => reply m 0x06#8
  | .refused m => reply m 0x15#8
  | .other f => f

/-- Real messages; other frames are well-formed and carry no message. -/
def FromModem.ok : FromModem → Prop
  | .heard m => Proper m
  | .accepted m => Proper m
  | .refused m => Proper m
  | .other f => f.wellFormed ∧ f.cmd ≠ 0x50#8 ∧ f.cmd ≠ 0x51#8 ∧ f.cmd ≠ 0x62#8

/-- What a host says: a request to send a message, or something else. -/
inductive FromHost where
  | send (m : Message)
  | other (f : Frame)

/-- The frame on the line. -/
def FromHost.frame : FromHost → Frame
  | .send m => ⟨0x62#8, afterSource m⟩
  | .other f => f

/-- Real messages; of the other host commands those that are framed correctly when listened to (C27). -/
def FromHost.ok : FromHost → Prop
  | .send m => Proper m
  | .other f => f.hostFormed ∧ (f.cmd = 0x61#8 ∨ f.cmd = 0x63#8 ∨ f.cmd = 0x64#8)

/-- A request does not name its sender. -/
def anonymous (m : Message) : Message := { m with src := 0#32 }

/-- The messages a modem passes on. -/
def heardIn (l : List (List (BitVec 8) × FromModem)) : List Message :=
  l.filterMap fun x => match x.2 with | .heard m => some m | _ => none

/-- The messages a modem passes on or refuses to send. -/
def heardOrRefusedIn (l : List (List (BitVec 8) × FromModem)) : List Message :=
  l.filterMap fun x => match x.2 with | .heard m => some m | .refused m => some (anonymous m) | _ => none

/-- The messages a host asks to have sent. -/
def sentIn (l : List (List (BitVec 8) × FromHost)) : List Message :=
  l.filterMap fun x => match x.2 with | .send m => some (anonymous m) | _ => none

/-- The bytes on the two lines, with noise in front of each frame. -/
def modemLine (l : List (List (BitVec 8) × FromModem)) : List (BitVec 8) := line (l.map fun x => (x.1, x.2.frame))
def hostLine (l : List (List (BitVec 8) × FromHost)) : List (BitVec 8) := line (l.map fun x => (x.1, x.2.frame))

end Insteon.Spec
