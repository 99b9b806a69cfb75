import Verif.Model.IcDevice
import Verif.Model.LinkTimed

/-
The commands of `ic plm` that open devices, with the database and the waits (cmd/ic/plm.go 127-188), and the exit status of `ic`.
-/

namespace Insteon

namespace IcPlm
variable {σ : Type}

/-- `link` (cmd/ic/plm.go 127-157) with `open` (cmd/ic/main.go 103-119, nothing is asked): what is printed on the standard output, and the error. What is printed on the
standard error is left out. A device is returned along with `ErrNotLinked` (devices/device.go 178-180); using a device that is nil panics. -/
def linkCmd (f : FileFault) (io : MsgIO σ) (fuel : Nat) (sleep : Nat → σ → σ) (filters : List (MsgIO σ → MsgIO σ)) (modem : LinkTimed.Party σ)
    (controller responder : Bool) (group : Group) : List Address → FileDb → σ → Option (σ × FileDb × Bytes × Out (Option Err))
  | [], db, s => some (s, db, [], .ok none)
  | addr :: rest, db, s =>
    match FileDb.openDevice f db io fuel s addr filters with
    | none => none
    | some (s, db, .panic) => some (s, db, lit "Linking to " ++ addr.string ++ lit "...", .panic)
    | some (s, db, .err e) => some (s, db, lit "Linking to " ++ addr.string ++ lit "...", .err e)
    | some (s, db, .ok (device, err)) =>
      if err = none ∨ err = some .notLinked then
        match device with
        | none => some (s, db, lit "Linking to " ++ addr.string ++ lit "...", if controller ∨ responder then .panic else .ok none)
        | some (info, dio) =>
          let r := LinkTimed.linkBoth controller responder group modem (LinkTimed.Party.device info dio sleep) s
          some (r.1, db, lit "Linking to " ++ addr.string ++ lit "...", r.2)
      else
        (linkCmd f io fuel sleep filters modem controller responder group rest db s).map fun r =>
          (r.1, r.2.1, lit "Linking to " ++ addr.string ++ lit "..." ++ r.2.2.1, r.2.2.2)

/-- `unlinkCmd` (cmd/ic/plm.go 159-188) as registered: the field `addresses` of the command, which nothing sets, is gone through, so nothing is done. -/
def unlinkCmd (_addresses : List Address) (db : FileDb) (s : σ) : Option (σ × FileDb × Bytes × Out (Option Err)) := some (s, db, [], .ok none)

/-- `open` (cmd/ic/main.go 103-119) with the question, as the commands for a device use it: `answer` is what the user types when asked (`cli.Query`), whether it is y; then
the device is linked by `link` as above. What is printed meanwhile comes first. -/
def openAsk (f : FileFault) (io : MsgIO σ) (fuel : Nat) (sleep : Nat → σ → σ) (filters : List (MsgIO σ → MsgIO σ)) (modem : LinkTimed.Party σ) (answer : Bytes → Bool)
    (db : FileDb) (s : σ) (addr : Address) : Option (σ × FileDb × Bytes × Out (Option (IcDev.Opened σ) × Option Err)) :=
  match FileDb.openDevice f db io fuel s addr filters with
  | none => none
  | some (s, db, .panic) => some (s, db, [], .panic)
  | some (s, db, .err e) => some (s, db, [], .err e)
  | some (s, db, .ok (device, err)) =>
    if err = some .notLinked then
      if answer (IcDev.question addr) then
        match linkCmd f io fuel sleep filters modem true false 1#8 [addr] db s with
        | none => none
        | some (s, db, text, .panic) => some (s, db, IcDev.question addr ++ text, .panic)
        | some (s, db, text, .err e) => some (s, db, IcDev.question addr ++ text, .err e)
        | some (s, db, text, .ok err) => some (s, db, IcDev.question addr ++ text, .ok (device, err))
      else some (s, db, IcDev.question addr, .ok (device, err))
    else some (s, db, [], .ok (device, err))

end IcPlm

/-- The exit status of `ic` for what became of the command: `main` (cmd/ic/main.go 121-127) exits with 1 on an error; a crashed Go program exits with 2. -/
def Ic.exitStatus : Out (Option Err) → Nat
  | .ok none => 0
  | .ok (some _) => 1
  | .err _ => 1
  | .panic => 2

end Insteon
