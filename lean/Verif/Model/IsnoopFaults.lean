import Verif.Model.Isnoop

/-
cmd/isnoop/main.go once more, with a serial port, a standard input and a standard output that can fail
-/

namespace Insteon

/-- The program, and whether the goroutine that copies from the modem to the standard output has ended (cmd/isnoop/main.go 78). -/
structure IsnoopF where
  base : Isnoop
  deaf : Bool

/-- Steps: a step without failure; a read of the copying fails or is at its end (the serial port for `.modem`, the standard input for `.host`); a write of
the copying fails after `n` bytes (the standard output for `.modem`, the serial port for `.host`). -/
inductive FaultEv where
  | fine (e : IsnoopEv)
  | readFails (side : Side)
  | writeFails (side : Side) (n : Nat)
deriving DecidableEq, Repr

namespace IsnoopF

/-- The program started (cmd/isnoop/main.go 66-79). -/
def init (stdin modem : Bytes) : IsnoopF := ⟨Isnoop.init stdin modem, false⟩

/-- Steps of the goroutine that copies from the modem to the standard output (cmd/isnoop/main.go 69, 78). -/
def ofModemCopy : IsnoopEv → Bool
  | .read .modem _ => true
  | .write .modem => true
  | _ => false

/-- `io.Copy` returns on an error, which nobody looks at: its goroutine ends, and `main` if it was called there (cmd/isnoop/main.go 78-80). -/
def copyEnds (s : IsnoopF) : Side → IsnoopF
  | .modem => { s with deaf := true }
  | .host => { s with base := { s.base with over := true } }

variable (errText : Err → Bytes) (db : Option (Address → Option DeviceInfo))

/-- One step (cmd/isnoop/main.go 72-80); `none` if it is not possible. What was read and not written stays in `chunk`. -/
def step (s : IsnoopF) (e : FaultEv) : Option IsnoopF :=
  match e with
  | .fine e =>
    if s.deaf ∧ ofModemCopy e = true then none
    else (Isnoop.step errText db s.base e).map fun b => { s with base := b }
  | .readFails side =>
    if s.base.over ∨ (s.deaf ∧ side = .modem) then none
    else if (s.base.lane side).chunk = [] then some (s.copyEnds side) else none
  | .writeFails side n =>
    if s.base.over ∨ (s.deaf ∧ side = .modem) then none
    else
      let l := s.base.lane side
      if l.chunk ≠ [] ∧ l.tee = [] ∧ n < l.chunk.length then
        some ({ s with base := s.base.setLane side { l with out := l.out ++ l.chunk.take n, chunk := l.chunk.drop n } }.copyEnds side)
      else none

/-- A schedule carried out (cmd/isnoop/main.go 72-80); `none` if some step is not possible. -/
def run (s : IsnoopF) : List FaultEv → Option IsnoopF
  | [] => some s
  | e :: es =>
    match step errText db s e with
    | none => none
    | some s => run s es

end IsnoopF

end Insteon
