import Verif.Model.Link

/-
util/link.go: operations on link databases and linking sessions (the text functions are in LinkText.lean).
-/

namespace Insteon

/-- `devices.Linkable` (devices/device.go 104-147) with the optional `devices.WriteLink` (devices/device.go 149-151)
over an arbitrary state shared by all devices. `ident` stands for the identity of the pointer in the interface value,
which is what `d1 != d2` compares. Implementations that panic, and interface values whose comparison panics, are
not represented; log output is left out. -/
structure Linkable (σ : Type) where
  ident : Nat
  address : σ → σ × Address
  enterLinkingMode : σ → Group → σ × Option Err
  enterUnlinkingMode : σ → Group → σ × Option Err
  exitLinkingMode : σ → σ × Option Err
  links : σ → σ × List LinkRecord × Option Err
  updateLinks : σ → List LinkRecord → σ × Option Err
  writeLinks : σ → List LinkRecord → σ × Option Err
  writeLink : Option (σ → Int → LinkRecord → σ × Option Err)

namespace LinkOps
variable {σ : Type}

/-- The inner loop of `FindDuplicateLinks` (util/link.go 110-115). -/
def dupInner (equal : LinkRecord → LinkRecord → Bool) (l1 : LinkRecord) : List LinkRecord → List LinkRecord
  | [] => []
  | l2 :: rest => if equal l1 l2 then l2 :: dupInner equal l1 rest else dupInner equal l1 rest

/-- The outer loop of `FindDuplicateLinks` (util/link.go 109-116). -/
def dupOuter (equal : LinkRecord → LinkRecord → Bool) : List LinkRecord → List LinkRecord
  | [] => []
  | l1 :: rest => dupInner equal l1 rest ++ dupOuter equal rest

/-- `FindDuplicateLinks` (util/link.go 105-119). -/
def findDuplicateLinks (d : Linkable σ) (equal : LinkRecord → LinkRecord → Bool) (s : σ) :
    σ × List LinkRecord × Option Err :=
  match d.links s with
  | (s, links, none) => (s, dupOuter equal links, none)
  | (s, _, some e) => (s, [], some e)

/-- The loop of `FindLinkRecord` (util/link.go 128-134): found record and error. -/
def findLoop (controller : Bool) (address : Address) (group : Group) : List LinkRecord → LinkRecord × Option Err
  | [] => (.zero, some .linkNotFound)
  | l :: rest =>
    if (!l.flags.available && (l.flags.controller == controller) && (l.address == address) && (l.group == group)) = true
    then (l, none) else findLoop controller address group rest

/-- `FindLinkRecord` (util/link.go 124-137). -/
def findLinkRecord (d : Linkable σ) (controller : Bool) (address : Address) (group : Group) (s : σ) :
    σ × LinkRecord × Option Err :=
  match d.links s with
  | (s, links, none) => (s, findLoop controller address group links)
  | (s, _, some e) => (s, .zero, some e)

/-- The loop of `Anonymize` (util/link.go 150-163): the map `index` as an association list, the replacements left,
and the numbers `rand.Int31()` will return from here on. -/
def anonLoop (index : List (Address × Address)) (repl : List Address) (rand : Nat → BitVec 32) :
    List LinkRecord → List LinkRecord
  | [] => []
  | l :: rest =>
    match index.lookup l.address with
    | some a => { l with address := a } :: anonLoop index repl rand rest
    | none =>
      match repl with
      | a :: repl => { l with address := a } :: anonLoop ((l.address, a) :: index) repl rand rest
      | [] =>
        let a := 0x00ffffff#32 &&& rand 0
        { l with address := a } :: anonLoop ((l.address, a) :: index) [] (fun n => rand (n + 1)) rest

/-- `Anonymize` (util/link.go 147-165); `rand` are the results of the successive calls of `rand.Int31()`. -/
def anonymize (rand : Nat → BitVec 32) (links : List LinkRecord) (replacements : List Address) : List LinkRecord :=
  anonLoop [] replacements rand links

/-- The search for a counterpart in `MissingCrosslinks` (util/link.go 183-190). -/
def counterpart (forAddr : Address) (l1 : LinkRecord) : List LinkRecord → Bool
  | [] => false
  | l2 :: rest =>
    if l2.address = forAddr ∧ l1.group = l2.group ∧ l1.flags.controller = l2.flags.responder then true
    else counterpart forAddr l1 rest

/-- The mirrored record (util/link.go 194-199). -/
def flipRole (l : LinkRecord) : LinkRecord :=
  { l with flags := if l.flags.controller then l.flags.setResponder else l.flags.setController }

/-- The loop over the links for one address (util/link.go 176-202); `processed` are the keys of the map. -/
def missLoop (forAddr : Address) (processed : List Address) : List LinkRecord → List LinkRecord
  | [] => []
  | l1 :: rest =>
    if l1.flags.available ∨ l1.address ≠ forAddr ∨ l1.address ∈ processed then missLoop forAddr processed rest
    else if counterpart forAddr l1 rest then missLoop forAddr (l1.address :: processed) rest
    else flipRole l1 :: missLoop forAddr (l1.address :: processed) rest

/-- `MissingCrosslinks` (util/link.go 172-205). -/
def missingCrosslinks (links : List LinkRecord) : List Address → List LinkRecord
  | [] => []
  | a :: rest => missLoop a [] links ++ missingCrosslinks links rest

/-- The first loop of `AddLinks` (util/link.go 210-225) on a device with `WriteLink`, from index `i` on: the links
still to add, and error. -/
def addWrite (wr : σ → Int → LinkRecord → σ × Option Err) :
    Nat → List LinkRecord → List LinkRecord → σ → σ × List LinkRecord × Option Err
  | _, [], adds, s => (s, adds, none)
  | i, existing :: rest, adds, s =>
    match adds with
    | [] => addWrite wr (i + 1) rest [] s
    | a :: as =>
      if existing.flags.available then
        match wr s i a with
        | (s, none) => addWrite wr (i + 1) rest as s
        | (s, some e) => (s, as, some e)
      else addWrite wr (i + 1) rest (a :: as) s

/-- The first loop of `AddLinks` (util/link.go 210-225) on a device without `WriteLink`: `newLinks` and the links still
to add. -/
def addCollect : List LinkRecord → List LinkRecord → List LinkRecord × List LinkRecord
  | [], adds => ([], adds)
  | existing :: rest, adds =>
    match adds with
    | [] => let r := addCollect rest []; (existing :: r.1, r.2)
    | a :: as =>
      if existing.flags.available then let r := addCollect rest as; (a :: r.1, r.2)
      else let r := addCollect rest (a :: as); (existing :: r.1, r.2)

/-- The appending loop of `AddLinks` (util/link.go 230-232): each error replaces the one before. -/
def addAppend (wr : σ → Int → LinkRecord → σ × Option Err) : Nat → List LinkRecord → Option Err → σ → σ × Option Err
  | _, [], err, s => (s, err)
  | i, l :: rest, _, s => let r := wr s i l; addAppend wr (i + 1) rest r.2 r.1

/-- `AddLinks` (util/link.go 207-243). -/
def addLinks (d : Linkable σ) (adds : List LinkRecord) (s : σ) : σ × Option Err :=
  match d.links s with
  | (s, _, some e) => (s, some e)
  | (s, existing, none) =>
    match d.writeLink with
    | some wr =>
      match addWrite wr 0 existing adds s with
      | (s, _, some e) => (s, some e)
      | (s, adds, none) => addAppend wr existing.length adds none s
    | none =>
      let r := addCollect existing adds
      let newLinks := r.1 ++ r.2
      if newLinks.length > 0 then d.writeLinks s newLinks else (s, none)

/-- Replacing the first available record (util/link.go 250-256); `none` when there is none. -/
def replaceAvailable (m : LinkRecord) : List LinkRecord → Option (List LinkRecord)
  | [] => none
  | l :: rest => if l.flags.available then some (m :: rest) else (replaceAvailable m rest).map (l :: ·)

/-- The loop of `fixCrosslinks` (util/link.go 248-260). Simplification: `append(links, m)` copies; with spare capacity
in the array of `links` it would write there. -/
def fixLoop (links : List LinkRecord) : List LinkRecord → List LinkRecord → List LinkRecord
  | [], newLinks => newLinks
  | m :: rest, newLinks =>
    match replaceAvailable m newLinks with
    | some r => fixLoop links rest r
    | none => fixLoop links rest (links ++ [m])

/-- `fixCrosslinks` (util/link.go 245-262). -/
def fixCrosslinks (links : List LinkRecord) (forAddresses : List Address) : List LinkRecord :=
  fixLoop links (missingCrosslinks links forAddresses) links

/-- The loop of `RemoveLinks` (util/link.go 410-422) on a device with `WriteLink`, from index `i` on. The error of
`WriteLink` is dropped. -/
def removeWrite (wr : σ → Int → LinkRecord → σ × Option Err) (remove : List LinkRecord) : Nat → List LinkRecord → σ → σ
  | _, [], s => s
  | i, l :: rest, s =>
    if remove.any (fun r => l.equal r) then
      removeWrite wr remove (i + 1) rest (wr s i { l with flags := l.flags.setAvailable }).1
    else removeWrite wr remove (i + 1) rest s

/-- The loop of `RemoveLinks` (util/link.go 410-422) on a device without `WriteLink`: `removeLinks`. -/
def removeCollect (remove : List LinkRecord) : List LinkRecord → List LinkRecord
  | [] => []
  | l :: rest =>
    if remove.any (fun r => l.equal r) then { l with flags := l.flags.setAvailable } :: removeCollect remove rest
    else removeCollect remove rest

/-- `RemoveLinks` (util/link.go 406-429). -/
def removeLinks (d : Linkable σ) (remove : List LinkRecord) (s : σ) : σ × Option Err :=
  match d.links s with
  | (s, _, some e) => (s, some e)
  | (s, links, none) =>
    match d.writeLink with
    | some wr => (removeWrite wr remove 0 links s, none)
    | none =>
      let rl := removeCollect remove links
      if rl.length > 0 then d.updateLinks s rl else (s, none)

/-- `ForceLink` (util/link.go 298-326). -/
def forceLink (group : Group) (controller responder : Linkable σ) (s : σ) : σ × Option Err :=
  match controller.enterLinkingMode s group with
  | (s, some e) => (s, some e)
  | (s, none) =>
    let r := responder.enterLinkingMode s group
    let s := (controller.exitLinkingMode r.1).1
    let s := (responder.exitLinkingMode s).1
    (s, r.2)

/-- `Unlink` (util/link.go 390-404). -/
def unlink (group : Group) (controller responder : Linkable σ) (s : σ) : σ × Option Err :=
  match controller.enterUnlinkingMode s group with
  | (s, some e) => (s, some e)
  | (s, none) =>
    let r := responder.enterLinkingMode s group
    let s := (controller.exitLinkingMode r.1).1
    let s := (responder.exitLinkingMode s).1
    (s, r.2)

/-- `Link` (util/link.go 333-366). -/
def link (group : Group) (controller responder : Linkable σ) (s : σ) : σ × Option Err :=
  let a := responder.address s
  match findLinkRecord controller true a.2 group a.1 with
  | (s, controllerLink, err) =>
    if err = some .linkNotFound then
      let a := controller.address s
      match findLinkRecord responder false a.2 group a.1 with
      | (s, responderLink, err) =>
        let r := if err = none then removeLinks responder [responderLink] s else (s, err)
        if r.2 = none ∨ r.2 = some .linkNotFound then forceLink group controller responder r.1 else r
    else if err = none then
      let a := controller.address s
      match findLinkRecord responder false a.2 group a.1 with
      | (s, _, err) =>
        if err = some .linkNotFound then
          let r := removeLinks controller [controllerLink] s
          if r.2 = none then forceLink group controller responder r.1 else r
        else (s, err)
    else (s, err)

/-- `errors.Is(err, target)` for a possibly nil error. -/
def isErr (err : Option Err) (target : Err) : Bool := err.any (·.is target)

/-- `CrossLink` (util/link.go 284-293). -/
def crossLink (group : Group) (d1 d2 : Linkable σ) (s : σ) : σ × Option Err :=
  let r := link group d1 d2 s
  if r.2 = none ∨ isErr r.2 .alreadyLinked = true then
    let r := link group d2 d1 r.1
    if isErr r.2 .alreadyLinked then (r.1, none) else r
  else r

/-- The inner loop of `CrossLinkAll` (util/link.go 268-275). -/
def crossInner (group : Group) (d1 : Linkable σ) : List (Linkable σ) → σ → σ × Option Err
  | [], s => (s, none)
  | d2 :: rest, s =>
    if d1.ident ≠ d2.ident then
      match crossLink group d1 d2 s with
      | (s, none) => crossInner group d1 rest s
      | r => r
    else crossInner group d1 rest s

/-- `CrossLinkAll` (util/link.go 266-278). -/
def crossLinkAll (group : Group) : List (Linkable σ) → σ → σ × Option Err
  | [], s => (s, none)
  | d1 :: rest, s =>
    match crossInner group d1 (d1 :: rest) s with
    | (s, none) => crossLinkAll group rest s
    | r => r

/-- The loop of `UnlinkAll` (util/link.go 373-381): each error replaces the one before. -/
def unlinkLoop (controller responder : Linkable σ) : List LinkRecord → Option Err → σ → σ × Option Err
  | [], err, s => (s, err)
  | l :: rest, err, s =>
    let a := responder.address s
    if l.address = a.2 then
      let r := if l.flags.controller then unlink l.group controller responder a.1
        else unlink l.group responder controller a.1
      unlinkLoop controller responder rest r.2 r.1
    else unlinkLoop controller responder rest err a.1

/-- `UnlinkAll` (util/link.go 370-384). -/
def unlinkAll (controller responder : Linkable σ) (s : σ) : σ × Option Err :=
  match controller.links s with
  | (s, _, some e) => (s, some e)
  | (s, links, none) => unlinkLoop controller responder links none s

end LinkOps

end Insteon
