import Verif.Model.PlmLinks
import Verif.Model.Names
import Verif.Model.Show

/-
The methods of the modem that are single commands (plm/plm.go 207-263, plm/linkdb.go 212-233), their requests as text and
`ic plm info` (cmd/ic/plm.go 110-125).
-/

namespace Insteon

/-- `Version.String` (plm/info.go 25). -/
def plmVersionString (v : Byte) : Bytes := decByte v

/-- `Info.String` (plm/info.go 33-35). -/
def Info.string (i : Info) : Bytes :=
  i.address.string ++ lit " category " ++ devCatString i.devCat0 i.devCat1 ++ lit " version " ++ plmVersionString i.firmware

/-- `manageRecordRequest.String` (plm/linkdb.go 40-42). -/
def ManageRecord.string (m : ManageRecord) : Bytes := hex2 m.cmd ++ lit " " ++ m.link.string

/-- `allLinkReq.String` (plm/linkdb.go 79-81); `%d` does not use `Group.String`. -/
def allLinkReqString (mode : Byte) (group : Group) : Bytes := hex2 mode ++ lit " " ++ decByte group

/-- `PLM.String` (plm/plm.go 261-263): the new cached address and the text. -/
def Plm.string {σ : Type} (io : PlmIO σ) (retries : Int) (s : σ) (cached : Address) : σ × Address × Out Bytes :=
  match Plm.address io retries s cached with
  | (s, .ok a) => (s, a, .ok (lit "PLM (" ++ a.string ++ lit ")"))
  | (s, _) => (s, cached, .panic)

/-- Calls of the modem that are one command, without their results. -/
inductive ModemCall where
  | info
  | reset
  | config
  | setConfig (c : Config)
  | enterLinking (g : Group)
  | exitLinking
  | enterUnlinking (g : Group)
  | setCategory (c : Byte)
  | rfSleep
  | updateLinks (ls : List LinkRecord)
deriving DecidableEq, Repr

/-- A `(*Packet, error)` of which only the error is used. -/
def PRes.error : PRes → Out (Option Err)
  | .ret _ e => .ok e
  | .panic => .panic

/-- The error of a call that also returns a value. -/
def Out.second {α : Type} : Out (α × Option Err) → Out (Option Err)
  | .ok (_, e) => .ok e
  | .err e => .err e
  | .panic => .panic

/-- The call and its error: plm/plm.go 207-248, plm/linkdb.go 212-233. The two methods that are not implemented return
`ErrNotImplemented` of the package plm (plm/plm.go 35, 240-248). -/
def ModemCall.exec {σ : Type} (io : PlmIO σ) (retries : Int) (s : σ) : ModemCall → σ × Out (Option Err)
  | .info => ((Plm.info io retries s).1, (Plm.info io retries s).2.second)
  | .reset => Plm.reset io retries s
  | .config => ((Plm.config io retries s).1, (Plm.config io retries s).2.second)
  | .setConfig c => Plm.setConfig io retries s c
  | .enterLinking g => ((PlmLinks.enterLinkingMode (Plm.asWriter io) s g).1, (PlmLinks.enterLinkingMode (Plm.asWriter io) s g).2.error)
  | .exitLinking => ((PlmLinks.exitLinkingMode (Plm.asWriter io) s).1, (PlmLinks.exitLinkingMode (Plm.asWriter io) s).2.error)
  | .enterUnlinking g =>
    ((PlmLinks.enterUnlinkingMode (Plm.asWriter io) s g).1, (PlmLinks.enterUnlinkingMode (Plm.asWriter io) s g).2.error)
  | .setCategory _ => (s, .ok (some (.other 61)))
  | .rfSleep => (s, .ok (some (.other 61)))
  | .updateLinks _ => (s, .ok PlmLinks.updateLinks)

/-- `plmCmd.infoCmd` (cmd/ic/plm.go 110-125): what is printed and the error. `sort` is what `sort.Sort` makes of the links;
`cached` are the links the modem object holds. -/
def plmInfoCmd {σ : Type} (sort : List LinkRecord → List LinkRecord) (io : PlmIO σ) (retries : Int) (fuel : Nat) (s : σ)
    (cached : List LinkRecord) : Option (σ × Bytes × Out (Option Err)) :=
  let t0 := lit "PLM Info\n"
  match Plm.info io retries s with
  | (s, .ok (_, some e)) => some (s, t0, .ok (some e))
  | (s, .ok (some i, none)) =>
    let t1 := t0 ++ lit "      Address: " ++ i.address.string ++ lit "\n" ++
      lit "     Category: " ++ hex2 i.devCat0 ++ lit " Sub-Category: " ++ hex2 i.devCat1 ++ lit "\n" ++
      lit "     Firmware: " ++ decByte i.firmware ++ lit "\n"
    match Plm.config io retries s with
    | (s, .ok (_, some e)) => some (s, t1, .ok (some e))
    | (s, .ok (c, none)) =>
      let t2 := t1 ++ lit "       Config: " ++ c.string ++ lit "\n"
      match PlmLinks.links (Plm.asWriter io) retries fuel s cached with
      | none => none
      | some (s, .ok (links, none)) => some (s, t2 ++ printLinks sort links, .ok none)
      | some (s, .ok (_, some e)) => some (s, t2, .ok (some e))
      | some (s, _) => some (s, t2, .panic)
    | (s, _) => some (s, t1, .panic)
  | (s, _) => some (s, t0, .panic)

end Insteon
