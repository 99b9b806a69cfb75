import Verif.Model.LinkOps

/-
util/link.go with its debug logs: `ForceLink` and `Unlink` print the devices with `%s` and `%v`, which calls their `String` methods. That
of the modem (plm/plm.go 261-263) calls its `Address` method; that of a device (devices/basic.go 182-184) calls no method that does anything.
-/

namespace Insteon

/-- A device with what its `String` method does to the world. -/
structure Shown (σ : Type) where
  dev : Linkable σ
  string : σ → σ

/-- The modem: `PLM.String` (plm/plm.go 261-263) calls `Address`. -/
def Shown.modem {σ : Type} (d : Linkable σ) : Shown σ := ⟨d, fun s => (d.address s).1⟩

/-- A device: `BasicDevice.String` (devices/basic.go 182-184) only looks at fields. -/
def Shown.device {σ : Type} (d : Linkable σ) : Shown σ := ⟨d, fun s => s⟩

/-- `LogDebug.Printf` with one device among its arguments: `fmt` is whether the arguments are formatted. Up to Go 1.16 (go.mod 3) they always are, later
only if the log goes somewhere. -/
def Shown.log {σ : Type} (fmt : Bool) (d : Shown σ) (s : σ) : σ := if fmt then d.string s else s

namespace LinkLogs
variable {σ : Type}

/-- `ForceLink` (util/link.go 298-326). -/
def forceLink (fmt : Bool) (group : Group) (controller responder : Shown σ) (s : σ) : σ × Option Err :=
  let s := controller.log fmt s
  match controller.dev.enterLinkingMode s group with
  | (s, some e) => (s, some e)
  | (s, none) =>
    let r := responder.dev.enterLinkingMode s group
    let s := (controller.dev.exitLinkingMode r.1).1
    let s := (responder.dev.exitLinkingMode s).1
    (s, r.2)

/-- `Unlink` (util/link.go 390-404). -/
def unlink (fmt : Bool) (group : Group) (controller responder : Shown σ) (s : σ) : σ × Option Err :=
  let s := controller.log fmt s
  match controller.dev.enterUnlinkingMode s group with
  | (s, some e) => (s, some e)
  | (s, none) =>
    let s := responder.log fmt s
    let r := responder.dev.enterLinkingMode s group
    let s := (controller.dev.exitLinkingMode r.1).1
    let s := (responder.dev.exitLinkingMode s).1
    (s, r.2)

/-- `Link` (util/link.go 333-366). -/
def link (fmt : Bool) (group : Group) (controller responder : Shown σ) (s : σ) : σ × Option Err :=
  let a := responder.dev.address s
  match LinkOps.findLinkRecord controller.dev true a.2 group a.1 with
  | (s, controllerLink, err) =>
    if err = some .linkNotFound then
      let a := controller.dev.address s
      match LinkOps.findLinkRecord responder.dev false a.2 group a.1 with
      | (s, responderLink, err) =>
        let r := if err = none then LinkOps.removeLinks responder.dev [responderLink] s else (s, err)
        if r.2 = none ∨ r.2 = some .linkNotFound then forceLink fmt group controller responder r.1 else r
    else if err = none then
      let a := controller.dev.address s
      match LinkOps.findLinkRecord responder.dev false a.2 group a.1 with
      | (s, _, err) =>
        if err = some .linkNotFound then
          let r := LinkOps.removeLinks controller.dev [controllerLink] s
          if r.2 = none then forceLink fmt group controller responder r.1 else r
        else (s, err)
    else (s, err)

/-- `CrossLink` (util/link.go 284-293). -/
def crossLink (fmt : Bool) (group : Group) (d1 d2 : Shown σ) (s : σ) : σ × Option Err :=
  let r := link fmt group d1 d2 s
  if r.2 = none ∨ LinkOps.isErr r.2 .alreadyLinked = true then
    let r := link fmt group d2 d1 r.1
    if LinkOps.isErr r.2 .alreadyLinked then (r.1, none) else r
  else r

/-- The loop of `UnlinkAll` (util/link.go 373-381). -/
def unlinkLoop (fmt : Bool) (controller responder : Shown σ) : List LinkRecord → Option Err → σ → σ × Option Err
  | [], err, s => (s, err)
  | l :: rest, err, s =>
    let a := responder.dev.address s
    if l.address = a.2 then
      let r := if l.flags.controller then unlink fmt l.group controller responder a.1
        else unlink fmt l.group responder controller a.1
      unlinkLoop fmt controller responder rest r.2 r.1
    else unlinkLoop fmt controller responder rest err a.1

/-- `UnlinkAll` (util/link.go 370-384). -/
def unlinkAll (fmt : Bool) (controller responder : Shown σ) (s : σ) : σ × Option Err :=
  match controller.dev.links s with
  | (s, _, some e) => (s, some e)
  | (s, links, none) => unlinkLoop fmt controller responder links none s

end LinkLogs

end Insteon
