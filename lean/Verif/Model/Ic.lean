import Verif.Model.LinkOps
import Verif.Model.LinkText
import Verif.Model.PlmLinks
import Verif.Model.Names
import Verif.Model.Monitor

/-
util/vars.go and the commands of cmd/ic and cmd/anonymize. The command line framework (github.com/abates/cli) is not modelled: each
command is the function it registers. What is printed to the terminal, other than by the monitor, is left out.
-/

namespace Insteon
namespace Ic
variable {σ : Type}

/-! ### Arguments -/

/-- `Addresses.Set` (util/vars.go 11-21): receiver and arguments → receiver and error. -/
def addressesSet : List Address → List Bytes → List Address × Option Err
  | as, [] => (as, none)
  | as, s :: ss =>
    match Address.set 0#32 s with
    | (_, some e) => (as, some e)
    | (a, none) => addressesSet (as ++ [a]) ss

/-- `Addresses.String` (util/vars.go 27-33). -/
def addressesString (as : List Address) : Bytes := joinWith [ch ' '] (as.map Address.string)

/-- `dataVar.Set` (cmd/ic/vars.go 27-38). -/
def dataSet : Bytes → List Bytes → Bytes × Option Err
  | d, [] => (d, none)
  | d, s :: ss =>
    match scanHexByte none s with
    | none => (d, some (.other 50))
    | some (b, _) => dataSet (d ++ [b]) ss

/-- The digits of `strconv.ParseUint(s, 16, _)`: all characters must be hex digits. -/
def hexDigits : Bytes → Option (List Nat)
  | [] => some []
  | b :: s =>
    match hexVal b, hexDigits s with
    | some v, some vs => some (v :: vs)
    | _, _ => none

/-- `strconv.ParseInt(s, 16, 8)`: optional sign, at least one digit, value from -128 to 127. -/
def parseInt8 (s : Bytes) : Option Int :=
  let neg := s.head? = some (ch '-')
  let ds := if s.head? = some (ch '-') ∨ s.head? = some (ch '+') then s.drop 1 else s
  if ds = [] then none
  else match hexDigits ds with
    | none => none
    | some vs =>
      let n := hexNumber vs
      if neg then (if 128 < n then none else some (-(n : Int)))
      else (if 128 ≤ n then none else some n)

/-- The text without its first period (cmd/ic/vars.go 49-52). -/
def withoutPeriod : Bytes → Bytes
  | [] => []
  | b :: s => if b = ch '.' then s else b :: withoutPeriod s

/-- `cmdVar.Set` (cmd/ic/vars.go 47-71): receiver and argument → receiver and error. -/
def cmdSet (cmd : Command) (str : Bytes) : Command × Option Err :=
  let str := withoutPeriod str
  if str.length ≠ 4 then (cmd, some (.other 51))
  else match parseInt8 (str.take 2) with
    | none => (cmd, some (.other 52))
    | some c1 =>
      match parseInt8 (str.drop 2) with
      | none => (cmd, some (.other 53))
      | some c2 => (((BitVec.ofInt 64 c1 &&& 0xff#64) <<< 8) ||| (BitVec.ofInt 64 c2 &&& 0xff#64), none)

/-! ### cmd/ic/plm.go -/

/-- The change of the configuration in `flagCmd` (cmd/ic/plm.go 197-224), `none` for an unknown flag. -/
def changeFlag (set : Bool) (flag : Bytes) (c : Config) : Option Config :=
  if flag = lit "L" then some (if set then c.setAutomaticLinking else c.clearAutomaticLinking)
  else if flag = lit "M" then some (if set then c.setMonitorMode else c.clearMonitorMode)
  else if flag = lit "A" then some (if set then c.setAutomaticLED else c.clearAutomaticLED)
  else if flag = lit "D" then some (if set then c.setDeadmanMode else c.clearDeadmanMode)
  else none

/-- `flagCmd` (cmd/ic/plm.go 190-228). -/
def flagCmd (io : PlmIO σ) (retries : Int) (set : Bool) (flag : Bytes) (s : σ) : σ × Out (Option Err) :=
  match Plm.config io retries s with
  | (s, .panic) => (s, .panic)
  | (s, .err e) => (s, .err e)
  | (s, .ok (_, some e)) => (s, .ok (some e))
  | (s, .ok (c, none)) =>
    match changeFlag set flag c with
    | none => (s, .ok (some (.other 54)))
    | some c => Plm.setConfig io retries s c

/-- `resetCmd` (cmd/ic/plm.go 102-108); `yes` is whether the question was answered with y. -/
def resetCmd (io : PlmIO σ) (retries : Int) (yes : Bool) (s : σ) : σ × Out (Option Err) :=
  if yes then Plm.reset io retries s else (s, .ok none)

/-- `link` (cmd/ic/plm.go 127-157). `opened` is `open(modem, addr, false)` (cmd/ic/main.go 103-119) with the device as a
`Linkable`. Using the nil device panics. -/
def linkCmd (opened : σ → Address → σ × Option (Linkable σ) × Option Err) (modem : Linkable σ) (controller responder : Bool) (group : Group) :
    List Address → σ → σ × Out (Option Err)
  | [], s => (s, .ok none)
  | addr :: rest, s =>
    match opened s addr with
    | (s, device, err) =>
      let err := if err = some .notLinked then none else err
      match err with
      | some _ => linkCmd opened modem controller responder group rest s
      | none =>
        match device with
        | none => (s, if controller ∨ responder then .panic else .ok none)
        | some device =>
          let r := if controller then LinkOps.forceLink group modem device s else (s, none)
          let r := if r.2 = none ∧ responder = true then LinkOps.forceLink group device modem r.1 else r
          (r.1, .ok r.2)

/-- The loop of `unlinkCmd` (cmd/ic/plm.go 162-186) over the field `addresses`. -/
def unlinkLoop (opened : σ → Address → σ × Option (Linkable σ) × Option Err) (modem : Linkable σ) (group : Group) :
    List Address → σ → σ × Out (Option Err)
  | [], s => (s, .ok none)
  | addr :: rest, s =>
    match opened s addr with
    | (s, none, none) => (s, .panic)
    | (s, some device, none) =>
      let r := LinkOps.unlink group device modem s
      let r := if r.2 = none ∨ r.2 = some .notLinked then LinkOps.unlink group modem device r.1 else r
      (r.1, .ok r.2)
    | (s, _, some e) => if e = .notLinked then unlinkLoop opened modem group rest s else (s, .ok (some e))

/-- `unlinkCmd` (cmd/ic/plm.go 159-188) as registered: the field `addresses` of the command, not the argument, is gone through; nothing ever
sets it or the field `group` (cmd/ic/plm.go 39-44, 56). -/
def unlinkCmd (opened : σ → Address → σ × Option (Linkable σ) × Option Err) (modem : Linkable σ) (_addresses : List Address) (s : σ) :
    σ × Out (Option Err) :=
  unlinkLoop opened modem 0#8 [] s

/-! ### cmd/ic/device.go -/

/-- `editLinks` (cmd/ic/device.go 100-115) over the two methods of a `Linkable` it uses; `edit` is the user's editor (`cli.Edit`). -/
def editLinks (links : σ → Option (σ × Out (List LinkRecord × Option Err)))
    (writeLinks : σ → List LinkRecord → Option (σ × Out (Option Err))) (edit : Bytes → Except Err Bytes) (s : σ) :
    Option (σ × Out (Option Err)) :=
  match links s with
  | none => none
  | some (s, .panic) => some (s, .panic)
  | some (s, .err e) => some (s, .err e)
  | some (s, .ok (dbLinks, _)) =>
    if dbLinks.length = 0 then some (s, .ok (some (.other 55)))
    else
      let input := linksToText dbLinks true
      match edit input with
      | .error e => some (s, .ok (some e))
      | .ok output =>
        if input = output then some (s, .ok none)
        else match textToLinks output with
          | (_, some e) => some (s, .ok (some e))
          | (newLinks, none) => writeLinks s newLinks

/-- `plmCmd.editCmd` (cmd/ic/plm.go 98-100): the state is the world and the modem's cached links. -/
def plmEdit (w : PacketWriter σ) (retries : Int) (fuel : Nat) (edit : Bytes → Except Err Bytes) (s : σ × List LinkRecord) :
    Option ((σ × List LinkRecord) × Out (Option Err)) :=
  editLinks
    (fun s => match PlmLinks.links w retries fuel s.1 s.2 with
      | none => none
      | some (t, .ok (ls, e)) => some ((t, ls), .ok (ls, e))
      | some (t, .err e) => some ((t, s.2), .err e)
      | some (t, .panic) => some ((t, s.2), .panic))
    (fun s ls => match PlmLinks.writeLinks w s.1 s.2 ls with
      | (t, .ok (cached, e)) => some ((t, cached), .ok e)
      | (t, .err e) => some ((t, s.2), .err e)
      | (t, .panic) => some ((t, s.2), .panic))
    edit s

/-! ### cmd/ic/monitor.go -/

/-- The start of `monCmd` (cmd/ic/monitor.go 38-47): monitor mode is switched on. -/
def monConfig (io : PlmIO σ) (retries : Int) (s : σ) : σ × Out (Option Err) :=
  match Plm.config io retries s with
  | (s, .panic) => (s, .panic)
  | (s, .err e) => (s, .err e)
  | (s, .ok (_, some e)) => (s, .ok (some e))
  | (s, .ok (c, none)) => Plm.setConfig io retries s c.setMonitorMode

/-- The loop of `monCmd` (cmd/ic/monitor.go 50-51) for a number of reads: the state and, if the loop has ended, its result. -/
def monLoop (io : MsgIO σ) : Nat → σ → σ × Option (Out Err)
  | 0, s => (s, none)
  | n + 1, s =>
    match io.read s with
    | (s, .panic) => (s, some .panic)
    | (s, .ret _ none) => monLoop io n s
    | (s, .ret _ (some e)) => if e.is .insReadTimeout then monLoop io n s else (s, some (.ok e))

/-! ### cmd/anonymize -/

/-- The comment lines (cmd/anonymize/main.go 26-34). -/
def commentLines (input : Bytes) : List Bytes :=
  let cs := (splitLines input).filter fun l => l.head? == some (ch '#')
  if cs = [] then [] else cs ++ [[]]

/-- `main` of cmd/anonymize (cmd/anonymize/main.go 26-49): the new content of the file, or the error on which the file stays as it is. -/
def anonymizeFile (rand : Nat → BitVec 32) (input : Bytes) : Except Err Bytes :=
  match textToLinks input with
  | (_, some e) => .error e
  | (links, none) => .ok (joinWith [0x0a#8] (commentLines input) ++ linksToText (LinkOps.anonymize rand links []) false)

end Ic
end Insteon
