import Verif.Model.LinkOps
import Verif.Model.LinkText
import Verif.Model.Database
import Verif.Model.Ic
import Verif.Model.Show
import Verif.Model.DevCatTable

/-
The project's own unit tests for the package util and for the arguments of cmd/ic, carried over to the model (see
Tests/Insteon.lean). The texts are the files of util/testdata.
-/

namespace Insteon.Tests
open Insteon

/-- The devices of the tests (util/link_test.go 348-414): the links of the controller and of the responder, and the log
of commands. -/
structure Devs where
  c : List LinkRecord
  r : List LinkRecord
  log : List Bytes
deriving DecidableEq

/-- `testLinkable`, and `testWritableLinkable` if `wr` is true (util/link_test.go 348-414). -/
def testLinkable (name : Bytes) (address : Address) (ctl wr : Bool) : Linkable Devs where
  ident := if ctl then 0 else 1
  address s := (s, address)
  enterLinkingMode s g := ({ s with log := s.log ++ [name ++ lit " EnterLinkingMode " ++ decByte g] }, none)
  enterUnlinkingMode s g := ({ s with log := s.log ++ [name ++ lit " EnterUnlinkingMode " ++ decByte g] }, none)
  exitLinkingMode s := ({ s with log := s.log ++ [name ++ lit " ExitLinkingMode"] }, none)
  links s := (s, if ctl then s.c else s.r, none)
  updateLinks s _ := (s, none)
  writeLinks s ls := (if ctl then { s with c := ls } else { s with r := ls }, none)
  writeLink :=
    if wr then some fun s i l =>
      let s := { s with log := s.log ++ [name ++ lit " WriteLink " ++ Json.intText i ++ lit " " ++ l.string] }
      let ls := if ctl then s.c else s.r
      if i < ls.length then
        (if ctl then { s with c := s.c.set i.toNat l } else { s with r := s.r.set i.toNat l }, none)
      else if i = ls.length then (if ctl then { s with c := s.c ++ [l] } else { s with r := s.r ++ [l] }, none)
      else (s, some (.other 1))
    else none

/-- The controller of the tests. -/
def ctl (wr : Bool) : Linkable Devs := testLinkable (lit "controller") 1 true wr
/-- The responder of the tests. -/
def rsp (wr : Bool) : Linkable Devs := testLinkable (lit "responder") 2 false wr

/-- Links ordered as the program prints them. -/
def sortLinks (ls : List LinkRecord) : List LinkRecord := ls.insertionSort fun a b => !linkLess b a

/-! util/link_test.go 139-149 -/
example : LinkOps.fixCrosslinks [⟨0x82, 1, 0x658221, 0x00, 0x1c, 0x01⟩, ⟨0x02, 0, 0x629a0f, 0x00, 0x00, 0x00⟩, ⟨0x82, 1, 0x629a0f, 0x00, 0x1c, 0x01⟩, ⟨0x02, 1, 0x629a0f, 0x03, 0x15, 0x9e⟩, ⟨0xc2, 1, 0x104dc7, 0x03, 0x1c, 0x01⟩, ⟨0x82, 1, 0x104dc7, 0xfe, 0x1c, 0x01⟩, ⟨0xc2, 1, 0x0704bb, 0x03, 0x1c, 0x01⟩, ⟨0x82, 1, 0x0704bb, 0xfe, 0x1c, 0x01⟩, ⟨0xc2, 1, 0x5a8581, 0x03, 0x1c, 0x01⟩, ⟨0x82, 1, 0x5a8581, 0xfe, 0x1c, 0x01⟩, ⟨0x82, 1, 0xe9d186, 0xfe, 0x1c, 0x01⟩, ⟨0xc2, 1, 0xe9d186, 0x03, 0x1c, 0x01⟩] [0x629a0f] =
    [⟨0x82, 1, 0x658221, 0x00, 0x1c, 0x01⟩, ⟨0xc2, 1, 0x629a0f, 0x00, 0x1c, 0x01⟩, ⟨0x82, 1, 0x629a0f, 0x00, 0x1c, 0x01⟩, ⟨0x02, 1, 0x629a0f, 0x03, 0x15, 0x9e⟩, ⟨0xc2, 1, 0x104dc7, 0x03, 0x1c, 0x01⟩, ⟨0x82, 1, 0x104dc7, 0xfe, 0x1c, 0x01⟩, ⟨0xc2, 1, 0x0704bb, 0x03, 0x1c, 0x01⟩, ⟨0x82, 1, 0x0704bb, 0xfe, 0x1c, 0x01⟩, ⟨0xc2, 1, 0x5a8581, 0x03, 0x1c, 0x01⟩, ⟨0x82, 1, 0x5a8581, 0xfe, 0x1c, 0x01⟩, ⟨0x82, 1, 0xe9d186, 0xfe, 0x1c, 0x01⟩, ⟨0xc2, 1, 0xe9d186, 0x03, 0x1c, 0x01⟩] := by decide +kernel
example : LinkOps.fixCrosslinks [⟨0xc2, 1, 0x658221, 0x00, 0x1c, 0x01⟩, ⟨0x02, 0, 0x629a0f, 0x00, 0x00, 0x00⟩, ⟨0x82, 1, 0x629a0f, 0x00, 0x1c, 0x01⟩, ⟨0x02, 1, 0x629a0f, 0x03, 0x15, 0x9e⟩, ⟨0xc2, 1, 0x104dc7, 0x03, 0x1c, 0x01⟩, ⟨0x82, 1, 0x104dc7, 0xfe, 0x1c, 0x01⟩, ⟨0xc2, 1, 0x0704bb, 0x03, 0x1c, 0x01⟩, ⟨0x82, 1, 0x0704bb, 0xfe, 0x1c, 0x01⟩, ⟨0xc2, 1, 0x5a8581, 0x03, 0x1c, 0x01⟩, ⟨0x82, 1, 0x5a8581, 0xfe, 0x1c, 0x01⟩, ⟨0x82, 1, 0xe9d186, 0xfe, 0x1c, 0x01⟩, ⟨0xc2, 1, 0xe9d186, 0x03, 0x1c, 0x01⟩] [0x658221, 0x629a0f] =
    [⟨0xc2, 1, 0x658221, 0x00, 0x1c, 0x01⟩, ⟨0x82, 1, 0x658221, 0x00, 0x1c, 0x01⟩, ⟨0x82, 1, 0x629a0f, 0x00, 0x1c, 0x01⟩, ⟨0xc2, 1, 0x629a0f, 0x00, 0x1c, 0x01⟩, ⟨0xc2, 1, 0x104dc7, 0x03, 0x1c, 0x01⟩, ⟨0x82, 1, 0x104dc7, 0xfe, 0x1c, 0x01⟩, ⟨0xc2, 1, 0x0704bb, 0x03, 0x1c, 0x01⟩, ⟨0x82, 1, 0x0704bb, 0xfe, 0x1c, 0x01⟩, ⟨0xc2, 1, 0x5a8581, 0x03, 0x1c, 0x01⟩, ⟨0x82, 1, 0x5a8581, 0xfe, 0x1c, 0x01⟩, ⟨0x82, 1, 0xe9d186, 0xfe, 0x1c, 0x01⟩, ⟨0xc2, 1, 0xe9d186, 0x03, 0x1c, 0x01⟩] := by decide +kernel
example : LinkOps.fixCrosslinks [⟨0x82, 1, 0x658221, 0x00, 0x1c, 0x01⟩, ⟨0x02, 0, 0x629a0f, 0x00, 0x00, 0x00⟩, ⟨0x82, 1, 0x629a0f, 0x00, 0x1c, 0x01⟩, ⟨0xc2, 1, 0x629a0f, 0x03, 0x15, 0x9e⟩, ⟨0xc2, 1, 0x104dc7, 0x03, 0x1c, 0x01⟩, ⟨0x82, 1, 0x104dc7, 0xfe, 0x1c, 0x01⟩, ⟨0xc2, 1, 0x0704bb, 0x03, 0x1c, 0x01⟩, ⟨0x82, 1, 0x0704bb, 0xfe, 0x1c, 0x01⟩, ⟨0xc2, 1, 0x5a8581, 0x03, 0x1c, 0x01⟩, ⟨0x82, 1, 0x5a8581, 0xfe, 0x1c, 0x01⟩, ⟨0x82, 1, 0xe9d186, 0xfe, 0x1c, 0x01⟩, ⟨0xc2, 1, 0xe9d186, 0x03, 0x1c, 0x01⟩] [0x629a0f] =
    [⟨0x82, 1, 0x658221, 0x00, 0x1c, 0x01⟩, ⟨0x02, 0, 0x629a0f, 0x00, 0x00, 0x00⟩, ⟨0x82, 1, 0x629a0f, 0x00, 0x1c, 0x01⟩, ⟨0xc2, 1, 0x629a0f, 0x03, 0x15, 0x9e⟩, ⟨0xc2, 1, 0x104dc7, 0x03, 0x1c, 0x01⟩, ⟨0x82, 1, 0x104dc7, 0xfe, 0x1c, 0x01⟩, ⟨0xc2, 1, 0x0704bb, 0x03, 0x1c, 0x01⟩, ⟨0x82, 1, 0x0704bb, 0xfe, 0x1c, 0x01⟩, ⟨0xc2, 1, 0x5a8581, 0x03, 0x1c, 0x01⟩, ⟨0x82, 1, 0x5a8581, 0xfe, 0x1c, 0x01⟩, ⟨0x82, 1, 0xe9d186, 0xfe, 0x1c, 0x01⟩, ⟨0xc2, 1, 0xe9d186, 0x03, 0x1c, 0x01⟩] := by decide +kernel
example : LinkOps.fixCrosslinks [⟨0x82, 1, 0x658221, 0x00, 0x1c, 0x01⟩, ⟨0x82, 1, 0x629a0f, 0x00, 0x1c, 0x01⟩, ⟨0xc2, 1, 0x104dc7, 0x03, 0x1c, 0x01⟩, ⟨0x82, 1, 0x104dc7, 0xfe, 0x1c, 0x01⟩, ⟨0xc2, 1, 0x0704bb, 0x03, 0x1c, 0x01⟩, ⟨0x82, 1, 0x0704bb, 0xfe, 0x1c, 0x01⟩, ⟨0xc2, 1, 0x5a8581, 0x03, 0x1c, 0x01⟩, ⟨0x82, 1, 0x5a8581, 0xfe, 0x1c, 0x01⟩, ⟨0x82, 1, 0xe9d186, 0xfe, 0x1c, 0x01⟩, ⟨0xc2, 1, 0xe9d186, 0x03, 0x1c, 0x01⟩] [0x629a0f] =
    [⟨0x82, 1, 0x658221, 0x00, 0x1c, 0x01⟩, ⟨0x82, 1, 0x629a0f, 0x00, 0x1c, 0x01⟩, ⟨0xc2, 1, 0x104dc7, 0x03, 0x1c, 0x01⟩, ⟨0x82, 1, 0x104dc7, 0xfe, 0x1c, 0x01⟩, ⟨0xc2, 1, 0x0704bb, 0x03, 0x1c, 0x01⟩, ⟨0x82, 1, 0x0704bb, 0xfe, 0x1c, 0x01⟩, ⟨0xc2, 1, 0x5a8581, 0x03, 0x1c, 0x01⟩, ⟨0x82, 1, 0x5a8581, 0xfe, 0x1c, 0x01⟩, ⟨0x82, 1, 0xe9d186, 0xfe, 0x1c, 0x01⟩, ⟨0xc2, 1, 0xe9d186, 0x03, 0x1c, 0x01⟩, ⟨0xc2, 1, 0x629a0f, 0x00, 0x1c, 0x01⟩] := by decide +kernel
/-! util/link_test.go 18-51 -/
example : (LinkOps.addLinks (ctl false) [⟨0xc2, 1, 0x629a0f, 0x00, 0x1c, 0x01⟩] ⟨[⟨0x82, 1, 0x658221, 0x00, 0x1c, 0x01⟩, ⟨0x02, 0, 0x629a0f, 0x00, 0x00, 0x00⟩, ⟨0x82, 1, 0x629a0f, 0x00, 0x1c, 0x01⟩, ⟨0x02, 1, 0x629a0f, 0x03, 0x15, 0x9e⟩, ⟨0xc2, 1, 0x104dc7, 0x03, 0x1c, 0x01⟩, ⟨0x82, 1, 0x104dc7, 0xfe, 0x1c, 0x01⟩, ⟨0xc2, 1, 0x0704bb, 0x03, 0x1c, 0x01⟩, ⟨0x82, 1, 0x0704bb, 0xfe, 0x1c, 0x01⟩, ⟨0xc2, 1, 0x5a8581, 0x03, 0x1c, 0x01⟩, ⟨0x82, 1, 0x5a8581, 0xfe, 0x1c, 0x01⟩, ⟨0x82, 1, 0xe9d186, 0xfe, 0x1c, 0x01⟩, ⟨0xc2, 1, 0xe9d186, 0x03, 0x1c, 0x01⟩], [], []⟩ |> fun r => (r.1.c, r.2)) =
    ([⟨0x82, 1, 0x658221, 0x00, 0x1c, 0x01⟩, ⟨0xc2, 1, 0x629a0f, 0x00, 0x1c, 0x01⟩, ⟨0x82, 1, 0x629a0f, 0x00, 0x1c, 0x01⟩, ⟨0x02, 1, 0x629a0f, 0x03, 0x15, 0x9e⟩, ⟨0xc2, 1, 0x104dc7, 0x03, 0x1c, 0x01⟩, ⟨0x82, 1, 0x104dc7, 0xfe, 0x1c, 0x01⟩, ⟨0xc2, 1, 0x0704bb, 0x03, 0x1c, 0x01⟩, ⟨0x82, 1, 0x0704bb, 0xfe, 0x1c, 0x01⟩, ⟨0xc2, 1, 0x5a8581, 0x03, 0x1c, 0x01⟩, ⟨0x82, 1, 0x5a8581, 0xfe, 0x1c, 0x01⟩, ⟨0x82, 1, 0xe9d186, 0xfe, 0x1c, 0x01⟩, ⟨0xc2, 1, 0xe9d186, 0x03, 0x1c, 0x01⟩], none) := by decide +kernel
example : (LinkOps.addLinks (ctl true) [⟨0xc2, 1, 0x629a0f, 0x00, 0x1c, 0x01⟩] ⟨[⟨0x82, 1, 0x658221, 0x00, 0x1c, 0x01⟩, ⟨0x02, 0, 0x629a0f, 0x00, 0x00, 0x00⟩, ⟨0x82, 1, 0x629a0f, 0x00, 0x1c, 0x01⟩, ⟨0x02, 1, 0x629a0f, 0x03, 0x15, 0x9e⟩, ⟨0xc2, 1, 0x104dc7, 0x03, 0x1c, 0x01⟩, ⟨0x82, 1, 0x104dc7, 0xfe, 0x1c, 0x01⟩, ⟨0xc2, 1, 0x0704bb, 0x03, 0x1c, 0x01⟩, ⟨0x82, 1, 0x0704bb, 0xfe, 0x1c, 0x01⟩, ⟨0xc2, 1, 0x5a8581, 0x03, 0x1c, 0x01⟩, ⟨0x82, 1, 0x5a8581, 0xfe, 0x1c, 0x01⟩, ⟨0x82, 1, 0xe9d186, 0xfe, 0x1c, 0x01⟩, ⟨0xc2, 1, 0xe9d186, 0x03, 0x1c, 0x01⟩], [], []⟩ |> fun r => (r.1.c, r.2)) =
    ([⟨0x82, 1, 0x658221, 0x00, 0x1c, 0x01⟩, ⟨0xc2, 1, 0x629a0f, 0x00, 0x1c, 0x01⟩, ⟨0x82, 1, 0x629a0f, 0x00, 0x1c, 0x01⟩, ⟨0x02, 1, 0x629a0f, 0x03, 0x15, 0x9e⟩, ⟨0xc2, 1, 0x104dc7, 0x03, 0x1c, 0x01⟩, ⟨0x82, 1, 0x104dc7, 0xfe, 0x1c, 0x01⟩, ⟨0xc2, 1, 0x0704bb, 0x03, 0x1c, 0x01⟩, ⟨0x82, 1, 0x0704bb, 0xfe, 0x1c, 0x01⟩, ⟨0xc2, 1, 0x5a8581, 0x03, 0x1c, 0x01⟩, ⟨0x82, 1, 0x5a8581, 0xfe, 0x1c, 0x01⟩, ⟨0x82, 1, 0xe9d186, 0xfe, 0x1c, 0x01⟩, ⟨0xc2, 1, 0xe9d186, 0x03, 0x1c, 0x01⟩], none) := by decide +kernel
example : (LinkOps.addLinks (ctl false) [⟨0x82, 1, 0x658221, 0x00, 0x1c, 0x01⟩, ⟨0xc2, 1, 0x629a0f, 0x00, 0x1c, 0x01⟩] ⟨[⟨0xc2, 1, 0x658221, 0x00, 0x1c, 0x01⟩, ⟨0x02, 0, 0x629a0f, 0x00, 0x00, 0x00⟩, ⟨0x82, 1, 0x629a0f, 0x00, 0x1c, 0x01⟩, ⟨0x02, 1, 0x629a0f, 0x03, 0x15, 0x9e⟩, ⟨0xc2, 1, 0x104dc7, 0x03, 0x1c, 0x01⟩, ⟨0x82, 1, 0x104dc7, 0xfe, 0x1c, 0x01⟩, ⟨0xc2, 1, 0x0704bb, 0x03, 0x1c, 0x01⟩, ⟨0x82, 1, 0x0704bb, 0xfe, 0x1c, 0x01⟩, ⟨0xc2, 1, 0x5a8581, 0x03, 0x1c, 0x01⟩, ⟨0x82, 1, 0x5a8581, 0xfe, 0x1c, 0x01⟩, ⟨0x82, 1, 0xe9d186, 0xfe, 0x1c, 0x01⟩, ⟨0xc2, 1, 0xe9d186, 0x03, 0x1c, 0x01⟩], [], []⟩ |> fun r => (r.1.c, r.2)) =
    ([⟨0xc2, 1, 0x658221, 0x00, 0x1c, 0x01⟩, ⟨0x82, 1, 0x658221, 0x00, 0x1c, 0x01⟩, ⟨0x82, 1, 0x629a0f, 0x00, 0x1c, 0x01⟩, ⟨0xc2, 1, 0x629a0f, 0x00, 0x1c, 0x01⟩, ⟨0xc2, 1, 0x104dc7, 0x03, 0x1c, 0x01⟩, ⟨0x82, 1, 0x104dc7, 0xfe, 0x1c, 0x01⟩, ⟨0xc2, 1, 0x0704bb, 0x03, 0x1c, 0x01⟩, ⟨0x82, 1, 0x0704bb, 0xfe, 0x1c, 0x01⟩, ⟨0xc2, 1, 0x5a8581, 0x03, 0x1c, 0x01⟩, ⟨0x82, 1, 0x5a8581, 0xfe, 0x1c, 0x01⟩, ⟨0x82, 1, 0xe9d186, 0xfe, 0x1c, 0x01⟩, ⟨0xc2, 1, 0xe9d186, 0x03, 0x1c, 0x01⟩], none) := by decide +kernel
example : (LinkOps.addLinks (ctl true) [⟨0x82, 1, 0x658221, 0x00, 0x1c, 0x01⟩, ⟨0xc2, 1, 0x629a0f, 0x00, 0x1c, 0x01⟩] ⟨[⟨0xc2, 1, 0x658221, 0x00, 0x1c, 0x01⟩, ⟨0x02, 0, 0x629a0f, 0x00, 0x00, 0x00⟩, ⟨0x82, 1, 0x629a0f, 0x00, 0x1c, 0x01⟩, ⟨0x02, 1, 0x629a0f, 0x03, 0x15, 0x9e⟩, ⟨0xc2, 1, 0x104dc7, 0x03, 0x1c, 0x01⟩, ⟨0x82, 1, 0x104dc7, 0xfe, 0x1c, 0x01⟩, ⟨0xc2, 1, 0x0704bb, 0x03, 0x1c, 0x01⟩, ⟨0x82, 1, 0x0704bb, 0xfe, 0x1c, 0x01⟩, ⟨0xc2, 1, 0x5a8581, 0x03, 0x1c, 0x01⟩, ⟨0x82, 1, 0x5a8581, 0xfe, 0x1c, 0x01⟩, ⟨0x82, 1, 0xe9d186, 0xfe, 0x1c, 0x01⟩, ⟨0xc2, 1, 0xe9d186, 0x03, 0x1c, 0x01⟩], [], []⟩ |> fun r => (r.1.c, r.2)) =
    ([⟨0xc2, 1, 0x658221, 0x00, 0x1c, 0x01⟩, ⟨0x82, 1, 0x658221, 0x00, 0x1c, 0x01⟩, ⟨0x82, 1, 0x629a0f, 0x00, 0x1c, 0x01⟩, ⟨0xc2, 1, 0x629a0f, 0x00, 0x1c, 0x01⟩, ⟨0xc2, 1, 0x104dc7, 0x03, 0x1c, 0x01⟩, ⟨0x82, 1, 0x104dc7, 0xfe, 0x1c, 0x01⟩, ⟨0xc2, 1, 0x0704bb, 0x03, 0x1c, 0x01⟩, ⟨0x82, 1, 0x0704bb, 0xfe, 0x1c, 0x01⟩, ⟨0xc2, 1, 0x5a8581, 0x03, 0x1c, 0x01⟩, ⟨0x82, 1, 0x5a8581, 0xfe, 0x1c, 0x01⟩, ⟨0x82, 1, 0xe9d186, 0xfe, 0x1c, 0x01⟩, ⟨0xc2, 1, 0xe9d186, 0x03, 0x1c, 0x01⟩], none) := by decide +kernel
example : (LinkOps.addLinks (ctl false) [⟨0xc2, 1, 0x629a0f, 0x00, 0x1c, 0x01⟩] ⟨[⟨0x82, 1, 0x658221, 0x00, 0x1c, 0x01⟩, ⟨0x82, 1, 0x629a0f, 0x00, 0x1c, 0x01⟩, ⟨0xc2, 1, 0x104dc7, 0x03, 0x1c, 0x01⟩, ⟨0x82, 1, 0x104dc7, 0xfe, 0x1c, 0x01⟩, ⟨0xc2, 1, 0x0704bb, 0x03, 0x1c, 0x01⟩, ⟨0x82, 1, 0x0704bb, 0xfe, 0x1c, 0x01⟩, ⟨0xc2, 1, 0x5a8581, 0x03, 0x1c, 0x01⟩, ⟨0x82, 1, 0x5a8581, 0xfe, 0x1c, 0x01⟩, ⟨0x82, 1, 0xe9d186, 0xfe, 0x1c, 0x01⟩, ⟨0xc2, 1, 0xe9d186, 0x03, 0x1c, 0x01⟩], [], []⟩ |> fun r => (r.1.c, r.2)) =
    ([⟨0x82, 1, 0x658221, 0x00, 0x1c, 0x01⟩, ⟨0x82, 1, 0x629a0f, 0x00, 0x1c, 0x01⟩, ⟨0xc2, 1, 0x104dc7, 0x03, 0x1c, 0x01⟩, ⟨0x82, 1, 0x104dc7, 0xfe, 0x1c, 0x01⟩, ⟨0xc2, 1, 0x0704bb, 0x03, 0x1c, 0x01⟩, ⟨0x82, 1, 0x0704bb, 0xfe, 0x1c, 0x01⟩, ⟨0xc2, 1, 0x5a8581, 0x03, 0x1c, 0x01⟩, ⟨0x82, 1, 0x5a8581, 0xfe, 0x1c, 0x01⟩, ⟨0x82, 1, 0xe9d186, 0xfe, 0x1c, 0x01⟩, ⟨0xc2, 1, 0xe9d186, 0x03, 0x1c, 0x01⟩, ⟨0xc2, 1, 0x629a0f, 0x00, 0x1c, 0x01⟩], none) := by decide +kernel
example : (LinkOps.addLinks (ctl true) [⟨0xc2, 1, 0x629a0f, 0x00, 0x1c, 0x01⟩] ⟨[⟨0x82, 1, 0x658221, 0x00, 0x1c, 0x01⟩, ⟨0x82, 1, 0x629a0f, 0x00, 0x1c, 0x01⟩, ⟨0xc2, 1, 0x104dc7, 0x03, 0x1c, 0x01⟩, ⟨0x82, 1, 0x104dc7, 0xfe, 0x1c, 0x01⟩, ⟨0xc2, 1, 0x0704bb, 0x03, 0x1c, 0x01⟩, ⟨0x82, 1, 0x0704bb, 0xfe, 0x1c, 0x01⟩, ⟨0xc2, 1, 0x5a8581, 0x03, 0x1c, 0x01⟩, ⟨0x82, 1, 0x5a8581, 0xfe, 0x1c, 0x01⟩, ⟨0x82, 1, 0xe9d186, 0xfe, 0x1c, 0x01⟩, ⟨0xc2, 1, 0xe9d186, 0x03, 0x1c, 0x01⟩], [], []⟩ |> fun r => (r.1.c, r.2)) =
    ([⟨0x82, 1, 0x658221, 0x00, 0x1c, 0x01⟩, ⟨0x82, 1, 0x629a0f, 0x00, 0x1c, 0x01⟩, ⟨0xc2, 1, 0x104dc7, 0x03, 0x1c, 0x01⟩, ⟨0x82, 1, 0x104dc7, 0xfe, 0x1c, 0x01⟩, ⟨0xc2, 1, 0x0704bb, 0x03, 0x1c, 0x01⟩, ⟨0x82, 1, 0x0704bb, 0xfe, 0x1c, 0x01⟩, ⟨0xc2, 1, 0x5a8581, 0x03, 0x1c, 0x01⟩, ⟨0x82, 1, 0x5a8581, 0xfe, 0x1c, 0x01⟩, ⟨0x82, 1, 0xe9d186, 0xfe, 0x1c, 0x01⟩, ⟨0xc2, 1, 0xe9d186, 0x03, 0x1c, 0x01⟩, ⟨0xc2, 1, 0x629a0f, 0x00, 0x1c, 0x01⟩], none) := by decide +kernel
/-! util/link_test.go 53-65 -/
example : (Ic.addressesSet [] [lit "00.00.01", lit "00.00.02", lit "00.00.03", lit "00.00.04", lit "00.00.05", lit "00.00.06"]).2 = none ∧
    LinkOps.anonymize (fun _ => 0) [⟨0x82, 1, 0x658221, 0x00, 0x1c, 0x01⟩, ⟨0x02, 0, 0x629a0f, 0x00, 0x00, 0x00⟩, ⟨0x82, 1, 0x629a0f, 0x00, 0x1c, 0x01⟩, ⟨0x02, 1, 0x629a0f, 0x03, 0x15, 0x9e⟩, ⟨0xc2, 1, 0x104dc7, 0x03, 0x1c, 0x01⟩, ⟨0x82, 1, 0x104dc7, 0xfe, 0x1c, 0x01⟩, ⟨0xc2, 1, 0x0704bb, 0x03, 0x1c, 0x01⟩, ⟨0x82, 1, 0x0704bb, 0xfe, 0x1c, 0x01⟩, ⟨0xc2, 1, 0x5a8581, 0x03, 0x1c, 0x01⟩, ⟨0x82, 1, 0x5a8581, 0xfe, 0x1c, 0x01⟩, ⟨0x82, 1, 0xe9d186, 0xfe, 0x1c, 0x01⟩, ⟨0xc2, 1, 0xe9d186, 0x03, 0x1c, 0x01⟩]
      (Ic.addressesSet [] [lit "00.00.01", lit "00.00.02", lit "00.00.03", lit "00.00.04", lit "00.00.05", lit "00.00.06"]).1 =
    [⟨0x82, 1, 0x000001, 0x00, 0x1c, 0x01⟩, ⟨0x02, 0, 0x000002, 0x00, 0x00, 0x00⟩, ⟨0x82, 1, 0x000002, 0x00, 0x1c, 0x01⟩, ⟨0x02, 1, 0x000002, 0x03, 0x15, 0x9e⟩, ⟨0xc2, 1, 0x000003, 0x03, 0x1c, 0x01⟩, ⟨0x82, 1, 0x000003, 0xfe, 0x1c, 0x01⟩, ⟨0xc2, 1, 0x000004, 0x03, 0x1c, 0x01⟩, ⟨0x82, 1, 0x000004, 0xfe, 0x1c, 0x01⟩, ⟨0xc2, 1, 0x000005, 0x03, 0x1c, 0x01⟩, ⟨0x82, 1, 0x000005, 0xfe, 0x1c, 0x01⟩, ⟨0x82, 1, 0x000006, 0xfe, 0x1c, 0x01⟩, ⟨0xc2, 1, 0x000006, 0x03, 0x1c, 0x01⟩] := by decide +kernel
/-! util/link_test.go 67-79, 334-346 -/
example : (dumpLinkDatabase (ctl false) ⟨[⟨0xc2, 1, 0x010203, 0x00, 0x00, 0x00⟩, ⟨0x82, 1, 0x010203, 0x00, 0x00, 0x00⟩, ⟨0xc2, 1, 0x040506, 0x00, 0x00, 0x00⟩, ⟨0x82, 1, 0x040506, 0x00, 0x00, 0x00⟩], [], []⟩).2 = (utf8! "links\n- [0xc2, 0x01, 0x01, 0x02, 0x03, 0x00, 0x00, 0x00]\n- [0x82, 0x01, 0x01, 0x02, 0x03, 0x00, 0x00, 0x00]\n- [0xc2, 0x01, 0x04, 0x05, 0x06, 0x00, 0x00, 0x00]\n- [0x82, 0x01, 0x04, 0x05, 0x06, 0x00, 0x00, 0x00]\n", none) := by decide +kernel
example : (dumpLinkDatabase (ctl false) ⟨[], [], []⟩).2 = (lit "no links\n", none) := by decide +kernel
example : (printLinkDatabase sortLinks (ctl false) ⟨[⟨0xc2, 1, 0x010203, 0x00, 0x00, 0x00⟩, ⟨0x82, 1, 0x010203, 0x00, 0x00, 0x00⟩, ⟨0xc2, 1, 0x040506, 0x00, 0x00, 0x00⟩, ⟨0x82, 1, 0x040506, 0x00, 0x00, 0x00⟩], [], []⟩).2 = (utf8! "Link Database:\n    Flags Group Address    Data\n    UC        1 01.02.03   00 00 00\n    UR        1 01.02.03   00 00 00\n    UC        1 04.05.06   00 00 00\n    UR        1 04.05.06   00 00 00\n", none) := by decide +kernel
example : (printLinkDatabase sortLinks (ctl false) ⟨[], [], []⟩).2 = (lit "Link Database:\n    No links defined\n", none) := by decide +kernel
/-! util/link_test.go 81-107 -/
example : (LinkOps.findDuplicateLinks (ctl false) (fun a b => a.equal b) ⟨[⟨0xc0, 1, 0x010203, 0, 0, 0⟩, ⟨0x80, 1, 0x010203, 0, 0, 0⟩, ⟨0xc0, 1, 0x040506, 0, 0, 0⟩, ⟨0x80, 1, 0x040506, 0, 0, 0⟩], [], []⟩).2 = ([], none) := by decide +kernel
example : (LinkOps.findDuplicateLinks (ctl false) (fun a b => a.equal b) ⟨[⟨0xc0, 1, 0x010203, 0, 0, 0⟩, ⟨0x80, 1, 0x010203, 0, 0, 0⟩, ⟨0xc0, 1, 0x040506, 0, 0, 0⟩, ⟨0x80, 1, 0x040506, 0, 0, 0⟩] ++ [⟨0xc0, 1, 0x010203, 0, 0, 0⟩], [], []⟩).2 = ([⟨0xc0, 1, 0x010203, 0, 0, 0⟩], none) := by decide +kernel
/-! util/link_test.go 109-137 -/
example : (LinkOps.findLinkRecord (ctl false) true 0x010203 1 ⟨[⟨0xc2, 1, 0x010203, 0x00, 0x00, 0x00⟩, ⟨0x82, 1, 0x010203, 0x00, 0x00, 0x00⟩, ⟨0xc2, 1, 0x040506, 0x00, 0x00, 0x00⟩, ⟨0x82, 1, 0x040506, 0x00, 0x00, 0x00⟩], [], []⟩).2 = (([⟨0xc2, 1, 0x010203, 0x00, 0x00, 0x00⟩] : List LinkRecord).headD .zero, none) := by decide +kernel
example : (LinkOps.findLinkRecord (ctl false) true 0x100203 1 ⟨[⟨0xc2, 1, 0x010203, 0x00, 0x00, 0x00⟩, ⟨0x82, 1, 0x010203, 0x00, 0x00, 0x00⟩, ⟨0xc2, 1, 0x040506, 0x00, 0x00, 0x00⟩, ⟨0x82, 1, 0x040506, 0x00, 0x00, 0x00⟩], [], []⟩).2.2.isSome := by decide +kernel
/-! util/link_test.go 151-180 -/
example : let r := LinkOps.forceLink 2 (ctl false) (rsp false) ⟨[], [], []⟩
    let u := LinkOps.unlink 2 (ctl false) (rsp false) r.1
    r.2 = none ∧ u.2 = none ∧ u.1.log = [lit "controller EnterLinkingMode 2", lit "responder EnterLinkingMode 2", lit "controller ExitLinkingMode",
      lit "responder ExitLinkingMode", lit "controller EnterUnlinkingMode 2", lit "responder EnterLinkingMode 2",
      lit "controller ExitLinkingMode", lit "responder ExitLinkingMode"] := by decide +kernel
/-! util/link_test.go 182-233 -/
example : linksToText [⟨0xc0, 1, 0x010203, 0, 0, 0⟩, ⟨0x80, 1, 0x010203, 0, 0, 0⟩, ⟨0xc0, 1, 0x040506, 0, 0, 0⟩, ⟨0x80, 1, 0x040506, 0, 0, 0⟩] false = utf8! "UC        1 01.02.03   00 00 00\nUR        1 01.02.03   00 00 00\nUC        1 04.05.06   00 00 00\nUR        1 04.05.06   00 00 00\n" := by decide +kernel
example : linksToText [⟨0xc0, 1, 0x010203, 0, 0, 0⟩, ⟨0x80, 1, 0x010203, 0, 0, 0⟩, ⟨0xc0, 1, 0x040506, 0, 0, 0⟩, ⟨0x80, 1, 0x040506, 0, 0, 0⟩] true = utf8! "#\n# Lines beginning with a # are ignored\n# DO NOT delete lines, this will cause the entries to\n# shift up and then the last entry will be in the database twice\n# To delete a record simply mark it 'Available' by changing the\n# first letter of the Flags to 'A'\n#\n# Flags Group Address    Data\nUC        1 01.02.03   00 00 00\nUR        1 01.02.03   00 00 00\nUC        1 04.05.06   00 00 00\nUR        1 04.05.06   00 00 00\n" ∧
    (let r := textToLinks (linksToText [⟨0xc0, 1, 0x010203, 0, 0, 0⟩, ⟨0x80, 1, 0x010203, 0, 0, 0⟩, ⟨0xc0, 1, 0x040506, 0, 0, 0⟩, ⟨0x80, 1, 0x040506, 0, 0, 0⟩] true)
     r.2 = none ∧ r.1.length = 4 ∧ ((List.zipWith (fun a b => LinkRecord.equal a b) [⟨0xc0, 1, 0x010203, 0, 0, 0⟩, ⟨0x80, 1, 0x010203, 0, 0, 0⟩, ⟨0xc0, 1, 0x040506, 0, 0, 0⟩, ⟨0x80, 1, 0x040506, 0, 0, 0⟩] r.1).all id) = true) := by decide +kernel
/-! util/link_test.go 235-280: the first half of the links belongs to the controller, the second half to the responder -/
example : let ls : List LinkRecord := [⟨0xc2, 1, 0x000002, 0x00, 0x00, 0x01⟩, ⟨0x82, 1, 0x000002, 0x00, 0x00, 0x01⟩, ⟨0xc2, 1, 0x000001, 0x00, 0x00, 0x01⟩, ⟨0x82, 1, 0x000001, 0x00, 0x00, 0x01⟩]
    (LinkOps.unlinkAll (ctl true) (rsp true) ⟨ls.take (ls.length / 2), ls.drop (ls.length / 2), []⟩).1.log = [lit "controller EnterUnlinkingMode 1", lit "responder EnterLinkingMode 1", lit "controller ExitLinkingMode", lit "responder ExitLinkingMode", lit "responder EnterUnlinkingMode 1", lit "controller EnterLinkingMode 1", lit "responder ExitLinkingMode", lit "controller ExitLinkingMode"] := by decide +kernel
example : let ls : List LinkRecord := []
    (LinkOps.link 1 (ctl true) (rsp true) ⟨ls.take (ls.length / 2), ls.drop (ls.length / 2), []⟩).1.log = [lit "controller EnterLinkingMode 1", lit "responder EnterLinkingMode 1", lit "controller ExitLinkingMode", lit "responder ExitLinkingMode"] := by decide +kernel
example : let ls : List LinkRecord := [⟨0x42, 1, 0x000002, 0x00, 0x00, 0x00⟩, ⟨0x82, 1, 0x000001, 0x00, 0x00, 0x00⟩]
    (LinkOps.link 1 (ctl true) (rsp true) ⟨ls.take (ls.length / 2), ls.drop (ls.length / 2), []⟩).1.log = [lit "responder WriteLink 0 AR 1 00.00.01 0x00 0x00 0x00", lit "controller EnterLinkingMode 1", lit "responder EnterLinkingMode 1", lit "controller ExitLinkingMode", lit "responder ExitLinkingMode"] := by decide +kernel
example : let ls : List LinkRecord := [⟨0xc2, 1, 0x000002, 0x00, 0x00, 0x00⟩, ⟨0x02, 1, 0x000001, 0x00, 0x00, 0x00⟩]
    (LinkOps.link 1 (ctl true) (rsp true) ⟨ls.take (ls.length / 2), ls.drop (ls.length / 2), []⟩).1.log = [lit "controller WriteLink 0 AC 1 00.00.02 0x00 0x00 0x00", lit "controller EnterLinkingMode 1", lit "responder EnterLinkingMode 1", lit "controller ExitLinkingMode", lit "responder ExitLinkingMode"] := by decide +kernel
/-! util/database_test.go 13-72: a missing file, a device put, and the file read again -/
example : let i : DeviceInfo := ⟨0x050607, (1, 2), 3, 4⟩
    let n := FileDb.new none
    n.2.isSome ∧ n.1.mem.get 0x050607 = none ∧
    (match FileDb.put .none n.1 i with
      | some (db, none) => db.mem.get 0x050607 == some i && (FileDb.new db.file).2 == none && (FileDb.new db.file).1.mem.get 0x050607 == some i
      | _ => false) = true := by decide +kernel
/-! util/vars_test.go 10-37 -/
example : Ic.addressesSet [] [lit "01.02.03"] = ([0x010203], none) ∧ Ic.addressesString [0x010203] = lit "01.02.03" := by decide +kernel
/-! cmd/ic/vars_test.go 12-41: the values; `dataVar.String` is not in the model -/
example : Ic.dataSet [] [lit "01"] = ([1], none) ∧ Ic.dataSet [] [lit "01", lit "02"] = ([1, 2], none) ∧ Ic.dataSet [] [lit "a", lit "b"] = ([10, 11], none) := by decide +kernel
/-! cmd/ic/vars_test.go 43-70 -/
example : Ic.cmdSet 0 (lit "01.02") = (0x0102, none) ∧ Ic.cmdSet 0 (lit "0102") = (0x0102, none) := by decide +kernel
example : (Ic.cmdSet 0 (lit "123")).2.isSome ∧ (Ic.cmdSet 0 (lit "xx.01")).2.isSome ∧ (Ic.cmdSet 0 (lit "01.xx")).2.isSome := by decide +kernel
/-! The texts of the files above, read (util/link_test.go 282-332) -/
example : textToLinks (utf8! "# 62.9a.0f\nUR        1 65.82.21   00 1c 01\nAR        0 62.9a.0f   00 00 00\nUR        1 62.9a.0f   00 1c 01\nAR        1 62.9a.0f   03 15 9e\nUC        1 10.4d.c7   03 1c 01\nUR        1 10.4d.c7   fe 1c 01\nUC        1 07.04.bb   03 1c 01\nUR        1 07.04.bb   fe 1c 01\nUC        1 5a.85.81   03 1c 01\nUR        1 5a.85.81   fe 1c 01\nUR        1 e9.d1.86   fe 1c 01\nUC        1 e9.d1.86   03 1c 01\n") =
    ([⟨0x82, 1, 0x658221, 0x00, 0x1c, 0x01⟩, ⟨0x02, 0, 0x629a0f, 0x00, 0x00, 0x00⟩, ⟨0x82, 1, 0x629a0f, 0x00, 0x1c, 0x01⟩, ⟨0x02, 1, 0x629a0f, 0x03, 0x15, 0x9e⟩, ⟨0xc2, 1, 0x104dc7, 0x03, 0x1c, 0x01⟩, ⟨0x82, 1, 0x104dc7, 0xfe, 0x1c, 0x01⟩, ⟨0xc2, 1, 0x0704bb, 0x03, 0x1c, 0x01⟩, ⟨0x82, 1, 0x0704bb, 0xfe, 0x1c, 0x01⟩, ⟨0xc2, 1, 0x5a8581, 0x03, 0x1c, 0x01⟩, ⟨0x82, 1, 0x5a8581, 0xfe, 0x1c, 0x01⟩, ⟨0x82, 1, 0xe9d186, 0xfe, 0x1c, 0x01⟩, ⟨0xc2, 1, 0xe9d186, 0x03, 0x1c, 0x01⟩], none) := by decide +kernel
example : textToLinks (utf8! "UR        1 65.82.21   00 1c 01\nUC        1 62.9a.0f   00 1c 01\nUR        1 62.9a.0f   00 1c 01\nAR        1 62.9a.0f   03 15 9e\nUC        1 10.4d.c7   03 1c 01\nUR        1 10.4d.c7   fe 1c 01\nUC        1 07.04.bb   03 1c 01\nUR        1 07.04.bb   fe 1c 01\nUC        1 5a.85.81   03 1c 01\nUR        1 5a.85.81   fe 1c 01\nUR        1 e9.d1.86   fe 1c 01\nUC        1 e9.d1.86   03 1c 01\n") =
    ([⟨0x82, 1, 0x658221, 0x00, 0x1c, 0x01⟩, ⟨0xc2, 1, 0x629a0f, 0x00, 0x1c, 0x01⟩, ⟨0x82, 1, 0x629a0f, 0x00, 0x1c, 0x01⟩, ⟨0x02, 1, 0x629a0f, 0x03, 0x15, 0x9e⟩, ⟨0xc2, 1, 0x104dc7, 0x03, 0x1c, 0x01⟩, ⟨0x82, 1, 0x104dc7, 0xfe, 0x1c, 0x01⟩, ⟨0xc2, 1, 0x0704bb, 0x03, 0x1c, 0x01⟩, ⟨0x82, 1, 0x0704bb, 0xfe, 0x1c, 0x01⟩, ⟨0xc2, 1, 0x5a8581, 0x03, 0x1c, 0x01⟩, ⟨0x82, 1, 0x5a8581, 0xfe, 0x1c, 0x01⟩, ⟨0x82, 1, 0xe9d186, 0xfe, 0x1c, 0x01⟩, ⟨0xc2, 1, 0xe9d186, 0x03, 0x1c, 0x01⟩], none) := by decide +kernel
example : textToLinks (utf8! "# 65.82.21\n# 62.9a.0f\nUC        1 65.82.21   00 1c 01\nAR        0 62.9a.0f   00 00 00\nUR        1 62.9a.0f   00 1c 01\nAR        1 62.9a.0f   03 15 9e\nUC        1 10.4d.c7   03 1c 01\nUR        1 10.4d.c7   fe 1c 01\nUC        1 07.04.bb   03 1c 01\nUR        1 07.04.bb   fe 1c 01\nUC        1 5a.85.81   03 1c 01\nUR        1 5a.85.81   fe 1c 01\nUR        1 e9.d1.86   fe 1c 01\nUC        1 e9.d1.86   03 1c 01\n") =
    ([⟨0xc2, 1, 0x658221, 0x00, 0x1c, 0x01⟩, ⟨0x02, 0, 0x629a0f, 0x00, 0x00, 0x00⟩, ⟨0x82, 1, 0x629a0f, 0x00, 0x1c, 0x01⟩, ⟨0x02, 1, 0x629a0f, 0x03, 0x15, 0x9e⟩, ⟨0xc2, 1, 0x104dc7, 0x03, 0x1c, 0x01⟩, ⟨0x82, 1, 0x104dc7, 0xfe, 0x1c, 0x01⟩, ⟨0xc2, 1, 0x0704bb, 0x03, 0x1c, 0x01⟩, ⟨0x82, 1, 0x0704bb, 0xfe, 0x1c, 0x01⟩, ⟨0xc2, 1, 0x5a8581, 0x03, 0x1c, 0x01⟩, ⟨0x82, 1, 0x5a8581, 0xfe, 0x1c, 0x01⟩, ⟨0x82, 1, 0xe9d186, 0xfe, 0x1c, 0x01⟩, ⟨0xc2, 1, 0xe9d186, 0x03, 0x1c, 0x01⟩], none) := by decide +kernel
example : textToLinks (utf8! "UC        1 65.82.21   00 1c 01\nUR        1 65.82.21   00 1c 01\nUR        1 62.9a.0f   00 1c 01\nUC        1 62.9a.0f   00 1c 01\nUC        1 10.4d.c7   03 1c 01\nUR        1 10.4d.c7   fe 1c 01\nUC        1 07.04.bb   03 1c 01\nUR        1 07.04.bb   fe 1c 01\nUC        1 5a.85.81   03 1c 01\nUR        1 5a.85.81   fe 1c 01\nUR        1 e9.d1.86   fe 1c 01\nUC        1 e9.d1.86   03 1c 01\n") =
    ([⟨0xc2, 1, 0x658221, 0x00, 0x1c, 0x01⟩, ⟨0x82, 1, 0x658221, 0x00, 0x1c, 0x01⟩, ⟨0x82, 1, 0x629a0f, 0x00, 0x1c, 0x01⟩, ⟨0xc2, 1, 0x629a0f, 0x00, 0x1c, 0x01⟩, ⟨0xc2, 1, 0x104dc7, 0x03, 0x1c, 0x01⟩, ⟨0x82, 1, 0x104dc7, 0xfe, 0x1c, 0x01⟩, ⟨0xc2, 1, 0x0704bb, 0x03, 0x1c, 0x01⟩, ⟨0x82, 1, 0x0704bb, 0xfe, 0x1c, 0x01⟩, ⟨0xc2, 1, 0x5a8581, 0x03, 0x1c, 0x01⟩, ⟨0x82, 1, 0x5a8581, 0xfe, 0x1c, 0x01⟩, ⟨0x82, 1, 0xe9d186, 0xfe, 0x1c, 0x01⟩, ⟨0xc2, 1, 0xe9d186, 0x03, 0x1c, 0x01⟩], none) := by decide +kernel
example : textToLinks (utf8! "# 62.9a.0f\nUR        1 65.82.21   00 1c 01\nAR        0 62.9a.0f   00 00 00\nUR        1 62.9a.0f   00 1c 01\nUC        1 62.9a.0f   03 15 9e\nUC        1 10.4d.c7   03 1c 01\nUR        1 10.4d.c7   fe 1c 01\nUC        1 07.04.bb   03 1c 01\nUR        1 07.04.bb   fe 1c 01\nUC        1 5a.85.81   03 1c 01\nUR        1 5a.85.81   fe 1c 01\nUR        1 e9.d1.86   fe 1c 01\nUC        1 e9.d1.86   03 1c 01\n") =
    ([⟨0x82, 1, 0x658221, 0x00, 0x1c, 0x01⟩, ⟨0x02, 0, 0x629a0f, 0x00, 0x00, 0x00⟩, ⟨0x82, 1, 0x629a0f, 0x00, 0x1c, 0x01⟩, ⟨0xc2, 1, 0x629a0f, 0x03, 0x15, 0x9e⟩, ⟨0xc2, 1, 0x104dc7, 0x03, 0x1c, 0x01⟩, ⟨0x82, 1, 0x104dc7, 0xfe, 0x1c, 0x01⟩, ⟨0xc2, 1, 0x0704bb, 0x03, 0x1c, 0x01⟩, ⟨0x82, 1, 0x0704bb, 0xfe, 0x1c, 0x01⟩, ⟨0xc2, 1, 0x5a8581, 0x03, 0x1c, 0x01⟩, ⟨0x82, 1, 0x5a8581, 0xfe, 0x1c, 0x01⟩, ⟨0x82, 1, 0xe9d186, 0xfe, 0x1c, 0x01⟩, ⟨0xc2, 1, 0xe9d186, 0x03, 0x1c, 0x01⟩], none) := by decide +kernel
example : textToLinks (utf8! "UR        1 65.82.21   00 1c 01\nAR        0 62.9a.0f   00 00 00\nUR        1 62.9a.0f   00 1c 01\nUC        1 62.9a.0f   03 15 9e\nUC        1 10.4d.c7   03 1c 01\nUR        1 10.4d.c7   fe 1c 01\nUC        1 07.04.bb   03 1c 01\nUR        1 07.04.bb   fe 1c 01\nUC        1 5a.85.81   03 1c 01\nUR        1 5a.85.81   fe 1c 01\nUR        1 e9.d1.86   fe 1c 01\nUC        1 e9.d1.86   03 1c 01\n") =
    ([⟨0x82, 1, 0x658221, 0x00, 0x1c, 0x01⟩, ⟨0x02, 0, 0x629a0f, 0x00, 0x00, 0x00⟩, ⟨0x82, 1, 0x629a0f, 0x00, 0x1c, 0x01⟩, ⟨0xc2, 1, 0x629a0f, 0x03, 0x15, 0x9e⟩, ⟨0xc2, 1, 0x104dc7, 0x03, 0x1c, 0x01⟩, ⟨0x82, 1, 0x104dc7, 0xfe, 0x1c, 0x01⟩, ⟨0xc2, 1, 0x0704bb, 0x03, 0x1c, 0x01⟩, ⟨0x82, 1, 0x0704bb, 0xfe, 0x1c, 0x01⟩, ⟨0xc2, 1, 0x5a8581, 0x03, 0x1c, 0x01⟩, ⟨0x82, 1, 0x5a8581, 0xfe, 0x1c, 0x01⟩, ⟨0x82, 1, 0xe9d186, 0xfe, 0x1c, 0x01⟩, ⟨0xc2, 1, 0xe9d186, 0x03, 0x1c, 0x01⟩], none) := by decide +kernel
example : textToLinks (utf8! "# 62.9a.0f\nUR        1 65.82.21   00 1c 01\nUR        1 62.9a.0f   00 1c 01\nUC        1 10.4d.c7   03 1c 01\nUR        1 10.4d.c7   fe 1c 01\nUC        1 07.04.bb   03 1c 01\nUR        1 07.04.bb   fe 1c 01\nUC        1 5a.85.81   03 1c 01\nUR        1 5a.85.81   fe 1c 01\nUR        1 e9.d1.86   fe 1c 01\nUC        1 e9.d1.86   03 1c 01\n") =
    ([⟨0x82, 1, 0x658221, 0x00, 0x1c, 0x01⟩, ⟨0x82, 1, 0x629a0f, 0x00, 0x1c, 0x01⟩, ⟨0xc2, 1, 0x104dc7, 0x03, 0x1c, 0x01⟩, ⟨0x82, 1, 0x104dc7, 0xfe, 0x1c, 0x01⟩, ⟨0xc2, 1, 0x0704bb, 0x03, 0x1c, 0x01⟩, ⟨0x82, 1, 0x0704bb, 0xfe, 0x1c, 0x01⟩, ⟨0xc2, 1, 0x5a8581, 0x03, 0x1c, 0x01⟩, ⟨0x82, 1, 0x5a8581, 0xfe, 0x1c, 0x01⟩, ⟨0x82, 1, 0xe9d186, 0xfe, 0x1c, 0x01⟩, ⟨0xc2, 1, 0xe9d186, 0x03, 0x1c, 0x01⟩], none) := by decide +kernel
example : textToLinks (utf8! "UR        1 65.82.21   00 1c 01\nUR        1 62.9a.0f   00 1c 01\nUC        1 10.4d.c7   03 1c 01\nUR        1 10.4d.c7   fe 1c 01\nUC        1 07.04.bb   03 1c 01\nUR        1 07.04.bb   fe 1c 01\nUC        1 5a.85.81   03 1c 01\nUR        1 5a.85.81   fe 1c 01\nUR        1 e9.d1.86   fe 1c 01\nUC        1 e9.d1.86   03 1c 01\nUC        1 62.9a.0f   00 1c 01\n") =
    ([⟨0x82, 1, 0x658221, 0x00, 0x1c, 0x01⟩, ⟨0x82, 1, 0x629a0f, 0x00, 0x1c, 0x01⟩, ⟨0xc2, 1, 0x104dc7, 0x03, 0x1c, 0x01⟩, ⟨0x82, 1, 0x104dc7, 0xfe, 0x1c, 0x01⟩, ⟨0xc2, 1, 0x0704bb, 0x03, 0x1c, 0x01⟩, ⟨0x82, 1, 0x0704bb, 0xfe, 0x1c, 0x01⟩, ⟨0xc2, 1, 0x5a8581, 0x03, 0x1c, 0x01⟩, ⟨0x82, 1, 0x5a8581, 0xfe, 0x1c, 0x01⟩, ⟨0x82, 1, 0xe9d186, 0xfe, 0x1c, 0x01⟩, ⟨0xc2, 1, 0xe9d186, 0x03, 0x1c, 0x01⟩, ⟨0xc2, 1, 0x629a0f, 0x00, 0x1c, 0x01⟩], none) := by decide +kernel
example : textToLinks (lit "UC        1 62.9a.0f   00 1c 01\n") =
    ([⟨0xc2, 1, 0x629a0f, 0x00, 0x1c, 0x01⟩], none) := by decide +kernel
example : textToLinks (utf8! "# UC        1 62.9a.0f   00 1c 01\nUR        1 65.82.21   00 1c 01\nAR        0 62.9a.0f   00 00 00\nUR        1 62.9a.0f   00 1c 01\nAR        1 62.9a.0f   03 15 9e\nUC        1 10.4d.c7   03 1c 01\nUR        1 10.4d.c7   fe 1c 01\nUC        1 07.04.bb   03 1c 01\nUR        1 07.04.bb   fe 1c 01\nUC        1 5a.85.81   03 1c 01\nUR        1 5a.85.81   fe 1c 01\nUR        1 e9.d1.86   fe 1c 01\nUC        1 e9.d1.86   03 1c 01\n") =
    ([⟨0x82, 1, 0x658221, 0x00, 0x1c, 0x01⟩, ⟨0x02, 0, 0x629a0f, 0x00, 0x00, 0x00⟩, ⟨0x82, 1, 0x629a0f, 0x00, 0x1c, 0x01⟩, ⟨0x02, 1, 0x629a0f, 0x03, 0x15, 0x9e⟩, ⟨0xc2, 1, 0x104dc7, 0x03, 0x1c, 0x01⟩, ⟨0x82, 1, 0x104dc7, 0xfe, 0x1c, 0x01⟩, ⟨0xc2, 1, 0x0704bb, 0x03, 0x1c, 0x01⟩, ⟨0x82, 1, 0x0704bb, 0xfe, 0x1c, 0x01⟩, ⟨0xc2, 1, 0x5a8581, 0x03, 0x1c, 0x01⟩, ⟨0x82, 1, 0x5a8581, 0xfe, 0x1c, 0x01⟩, ⟨0x82, 1, 0xe9d186, 0xfe, 0x1c, 0x01⟩, ⟨0xc2, 1, 0xe9d186, 0x03, 0x1c, 0x01⟩], none) := by decide +kernel
example : textToLinks (utf8! "UR        1 65.82.21   00 1c 01\nUC        1 62.9a.0f   00 1c 01\n") =
    ([⟨0x82, 1, 0x658221, 0x00, 0x1c, 0x01⟩, ⟨0xc2, 1, 0x629a0f, 0x00, 0x1c, 0x01⟩], none) := by decide +kernel
example : textToLinks (utf8! "# UR        1 65.82.21   00 1c 01\n# UC        1 62.9a.0f   00 1c 01\nUC        1 65.82.21   00 1c 01\nAR        0 62.9a.0f   00 00 00\nUR        1 62.9a.0f   00 1c 01\nAR        1 62.9a.0f   03 15 9e\nUC        1 10.4d.c7   03 1c 01\nUR        1 10.4d.c7   fe 1c 01\nUC        1 07.04.bb   03 1c 01\nUR        1 07.04.bb   fe 1c 01\nUC        1 5a.85.81   03 1c 01\nUR        1 5a.85.81   fe 1c 01\nUR        1 e9.d1.86   fe 1c 01\nUC        1 e9.d1.86   03 1c 01\n") =
    ([⟨0xc2, 1, 0x658221, 0x00, 0x1c, 0x01⟩, ⟨0x02, 0, 0x629a0f, 0x00, 0x00, 0x00⟩, ⟨0x82, 1, 0x629a0f, 0x00, 0x1c, 0x01⟩, ⟨0x02, 1, 0x629a0f, 0x03, 0x15, 0x9e⟩, ⟨0xc2, 1, 0x104dc7, 0x03, 0x1c, 0x01⟩, ⟨0x82, 1, 0x104dc7, 0xfe, 0x1c, 0x01⟩, ⟨0xc2, 1, 0x0704bb, 0x03, 0x1c, 0x01⟩, ⟨0x82, 1, 0x0704bb, 0xfe, 0x1c, 0x01⟩, ⟨0xc2, 1, 0x5a8581, 0x03, 0x1c, 0x01⟩, ⟨0x82, 1, 0x5a8581, 0xfe, 0x1c, 0x01⟩, ⟨0x82, 1, 0xe9d186, 0xfe, 0x1c, 0x01⟩, ⟨0xc2, 1, 0xe9d186, 0x03, 0x1c, 0x01⟩], none) := by decide +kernel
example : textToLinks (utf8! "# UC        1 62.9a.0f   00 1c 01\nUR        1 65.82.21   00 1c 01\nUR        1 62.9a.0f   00 1c 01\nUC        1 10.4d.c7   03 1c 01\nUR        1 10.4d.c7   fe 1c 01\nUC        1 07.04.bb   03 1c 01\nUR        1 07.04.bb   fe 1c 01\nUC        1 5a.85.81   03 1c 01\nUR        1 5a.85.81   fe 1c 01\nUR        1 e9.d1.86   fe 1c 01\nUC        1 e9.d1.86   03 1c 01\n") =
    ([⟨0x82, 1, 0x658221, 0x00, 0x1c, 0x01⟩, ⟨0x82, 1, 0x629a0f, 0x00, 0x1c, 0x01⟩, ⟨0xc2, 1, 0x104dc7, 0x03, 0x1c, 0x01⟩, ⟨0x82, 1, 0x104dc7, 0xfe, 0x1c, 0x01⟩, ⟨0xc2, 1, 0x0704bb, 0x03, 0x1c, 0x01⟩, ⟨0x82, 1, 0x0704bb, 0xfe, 0x1c, 0x01⟩, ⟨0xc2, 1, 0x5a8581, 0x03, 0x1c, 0x01⟩, ⟨0x82, 1, 0x5a8581, 0xfe, 0x1c, 0x01⟩, ⟨0x82, 1, 0xe9d186, 0xfe, 0x1c, 0x01⟩, ⟨0xc2, 1, 0xe9d186, 0x03, 0x1c, 0x01⟩], none) := by decide +kernel
example : textToLinks (utf8! "# 00.00.01\n# 00.00.02\n# 00.00.03\n# 00.00.04\n# 00.00.05\n# 00.00.06\nUR        1 65.82.21   00 1c 01\nAR        0 62.9a.0f   00 00 00\nUR        1 62.9a.0f   00 1c 01\nAR        1 62.9a.0f   03 15 9e\nUC        1 10.4d.c7   03 1c 01\nUR        1 10.4d.c7   fe 1c 01\nUC        1 07.04.bb   03 1c 01\nUR        1 07.04.bb   fe 1c 01\nUC        1 5a.85.81   03 1c 01\nUR        1 5a.85.81   fe 1c 01\nUR        1 e9.d1.86   fe 1c 01\nUC        1 e9.d1.86   03 1c 01\n") =
    ([⟨0x82, 1, 0x658221, 0x00, 0x1c, 0x01⟩, ⟨0x02, 0, 0x629a0f, 0x00, 0x00, 0x00⟩, ⟨0x82, 1, 0x629a0f, 0x00, 0x1c, 0x01⟩, ⟨0x02, 1, 0x629a0f, 0x03, 0x15, 0x9e⟩, ⟨0xc2, 1, 0x104dc7, 0x03, 0x1c, 0x01⟩, ⟨0x82, 1, 0x104dc7, 0xfe, 0x1c, 0x01⟩, ⟨0xc2, 1, 0x0704bb, 0x03, 0x1c, 0x01⟩, ⟨0x82, 1, 0x0704bb, 0xfe, 0x1c, 0x01⟩, ⟨0xc2, 1, 0x5a8581, 0x03, 0x1c, 0x01⟩, ⟨0x82, 1, 0x5a8581, 0xfe, 0x1c, 0x01⟩, ⟨0x82, 1, 0xe9d186, 0xfe, 0x1c, 0x01⟩, ⟨0xc2, 1, 0xe9d186, 0x03, 0x1c, 0x01⟩], none) := by decide +kernel
example : textToLinks (utf8! "UR        1 00.00.01   00 1c 01\nAR        0 00.00.02   00 00 00\nUR        1 00.00.02   00 1c 01\nAR        1 00.00.02   03 15 9e\nUC        1 00.00.03   03 1c 01\nUR        1 00.00.03   fe 1c 01\nUC        1 00.00.04   03 1c 01\nUR        1 00.00.04   fe 1c 01\nUC        1 00.00.05   03 1c 01\nUR        1 00.00.05   fe 1c 01\nUR        1 00.00.06   fe 1c 01\nUC        1 00.00.06   03 1c 01\n") =
    ([⟨0x82, 1, 0x000001, 0x00, 0x1c, 0x01⟩, ⟨0x02, 0, 0x000002, 0x00, 0x00, 0x00⟩, ⟨0x82, 1, 0x000002, 0x00, 0x1c, 0x01⟩, ⟨0x02, 1, 0x000002, 0x03, 0x15, 0x9e⟩, ⟨0xc2, 1, 0x000003, 0x03, 0x1c, 0x01⟩, ⟨0x82, 1, 0x000003, 0xfe, 0x1c, 0x01⟩, ⟨0xc2, 1, 0x000004, 0x03, 0x1c, 0x01⟩, ⟨0x82, 1, 0x000004, 0xfe, 0x1c, 0x01⟩, ⟨0xc2, 1, 0x000005, 0x03, 0x1c, 0x01⟩, ⟨0x82, 1, 0x000005, 0xfe, 0x1c, 0x01⟩, ⟨0x82, 1, 0x000006, 0xfe, 0x1c, 0x01⟩, ⟨0xc2, 1, 0x000006, 0x03, 0x1c, 0x01⟩], none) := by decide +kernel
example : textToLinks (utf8! "UC        1 01.02.03   00 00 00\nUR        1 01.02.03   00 00 00\nUC        1 04.05.06   00 00 00\nUR        1 04.05.06   00 00 00\n") =
    ([⟨0xc2, 1, 0x010203, 0x00, 0x00, 0x00⟩, ⟨0x82, 1, 0x010203, 0x00, 0x00, 0x00⟩, ⟨0xc2, 1, 0x040506, 0x00, 0x00, 0x00⟩, ⟨0x82, 1, 0x040506, 0x00, 0x00, 0x00⟩], none) := by decide +kernel
example : textToLinks (lit "") =
    ([], none) := by decide +kernel
example : textToLinks (utf8! "# found:UC        1 01.02.03   00 00 00\n# not_found:UC        1 10.02.03   00 00 00\nUC        1 01.02.03   00 00 00\nUR        1 01.02.03   00 00 00\nUC        1 04.05.06   00 00 00\nUR        1 04.05.06   00 00 00\n") =
    ([⟨0xc2, 1, 0x010203, 0x00, 0x00, 0x00⟩, ⟨0x82, 1, 0x010203, 0x00, 0x00, 0x00⟩, ⟨0xc2, 1, 0x040506, 0x00, 0x00, 0x00⟩, ⟨0x82, 1, 0x040506, 0x00, 0x00, 0x00⟩], none) := by decide +kernel
example : textToLinks (lit "UC        1 01.02.03   00 00 00") =
    ([⟨0xc2, 1, 0x010203, 0x00, 0x00, 0x00⟩], none) := by decide +kernel
example : textToLinks (utf8! "UC        1 00.00.02   00 00 01\nUR        1 00.00.02   00 00 01\nUC        1 00.00.01   00 00 01\nUR        1 00.00.01   00 00 01\n") =
    ([⟨0xc2, 1, 0x000002, 0x00, 0x00, 0x01⟩, ⟨0x82, 1, 0x000002, 0x00, 0x00, 0x01⟩, ⟨0xc2, 1, 0x000001, 0x00, 0x00, 0x01⟩, ⟨0x82, 1, 0x000001, 0x00, 0x00, 0x01⟩], none) := by decide +kernel
example : textToLinks (lit "# 1\n\n") =
    ([], none) := by decide +kernel
example : textToLinks (lit "# 1\nAC 1 00.00.02 00 00 00\nUR 1 00.00.01 00 00 00\n") =
    ([⟨0x42, 1, 0x000002, 0x00, 0x00, 0x00⟩, ⟨0x82, 1, 0x000001, 0x00, 0x00, 0x00⟩], none) := by decide +kernel
example : textToLinks (lit "# 1\nUC 1 00.00.02 00 00 00\nAR 1 00.00.01 00 00 00\n") =
    ([⟨0xc2, 1, 0x000002, 0x00, 0x00, 0x00⟩, ⟨0x02, 1, 0x000001, 0x00, 0x00, 0x00⟩], none) := by decide +kernel

end Insteon.Tests
