import Verif.Model.Device

/-
devices/linkdb.go
-/

namespace Insteon

/-- `MemAddress` (devices/linkdb.go 40), a Go int. -/
abbrev MemAddress := BitVec 64

/-- `BaseLinkDBAddress` (devices/linkdb.go 27). -/
abbrev baseLinkDBAddress : MemAddress := 0x0fff#64
/-- `LinkRecordSize` (devices/linkdb.go 30). -/
abbrev linkRecordSize : MemAddress := 8#64

/-- `LinkRequest` (devices/linkdb.go 72-77); `none` is a nil link. -/
structure LinkRequest where
  type : Byte
  memAddress : MemAddress
  numRecords : BitVec 64
  link : Option LinkRecord
deriving DecidableEq, Repr

namespace LinkRequest

/-- `&LinkRequest{}`. -/
def zero : LinkRequest := ⟨0, 0, 0, none⟩

/-- `readLink` (devices/linkdb.go 49). -/
abbrev readLink : Byte := 0x00#8
/-- `linkResponse` (devices/linkdb.go 50). -/
abbrev linkResponse : Byte := 0x01#8
/-- `writeLink` (devices/linkdb.go 51). -/
abbrev writeLink : Byte := 0x02#8

/-- `LinkRequest.UnmarshalBinary` (devices/linkdb.go 86-113): receiver, buffer → receiver, error. A link
the receiver already had stays for type 0 and is decoded into. -/
def unmarshalBinary (lr : LinkRequest) (buf : Bytes) : LinkRequest × Option Err :=
  match buf with
  | _ :: t :: hi :: lo :: n :: rest =>
    let lr := { lr with type := t, memAddress := (hi.setWidth 64 <<< 8) ||| lo.setWidth 64 }
    let r : LinkRequest × Option Err :=
      if t = readLink then ({ lr with numRecords := n.setWidth 64 }, none)
      else if t = linkResponse then ({ lr with link := some .zero }, none)
      else if t = writeLink then ({ lr with numRecords := n.setWidth 64, link := some .zero }, none)
      else (lr, some .invalidResponse)
    match r.2, r.1.link with
    | none, some l =>
      let u := l.unmarshalBinary rest
      ({ r.1 with link := some u.1 }, u.2)
    | _, _ => r
  | _ => (lr, some (.wrapped .bufferTooShort))

/-- `LinkRequest.MarshalBinary` (devices/linkdb.go 117-136); a nil link panics. A link record's encoding
never fails and has 8 bytes, so `copy` never truncates. -/
def marshalBinary (lr : LinkRequest) : Out Bytes :=
  let hd : Bytes := [0, lr.type, (lr.memAddress >>> 8).setWidth 8, (lr.memAddress &&& 0xff#64).setWidth 8]
  if lr.type = readLink then .ok (hd ++ [lr.numRecords.setWidth 8] ++ List.replicate 9 0#8)
  else if lr.type = linkResponse then
    match lr.link with
    | none => .panic
    | some l => .ok (hd ++ [0x00#8] ++ copyPad 9 l.marshalBinary)
  else if lr.type = writeLink then
    match lr.link with
    | none => .panic
    | some l => .ok (hd ++ [0x08#8] ++ copyPad 9 l.marshalBinary)
  else .ok (hd ++ List.replicate 10 0#8)

end LinkRequest

/-- `linkdb` (devices/linkdb.go 142-147) without its message writer. The index is an association list, newest
entry first. Times are integers in seconds. -/
structure Ldb where
  age : Int
  links : List LinkRecord
  index : List (Bytes × Nat)
deriving DecidableEq, Repr

namespace Ldb
variable {σ : Type}

/-- `MaxLinkDbAge` (devices/linkdb.go 36): an hour. -/
abbrev maxLinkDbAge : Int := 3600

/-- `linkdb.old` (devices/linkdb.go 149-151). -/
def old (now : Int) (ldb : Ldb) : Bool := decide (ldb.age + maxLinkDbAge < now)

/-- The loop of `refresh` (devices/linkdb.go 165-187) with fuel for it and for each read; `last` is
`lastAddress`. -/
def refreshLoop (io : MsgIO σ) (fuelRead : Nat) :
    Nat → σ → Ldb → MemAddress → Option (σ × Ldb × Out (Option Err))
  | 0, _, _, _ => none
  | fuel + 1, s, ldb, last =>
    match Dev.read io (Matcher.cmd Cmd.readWriteALDB) fuelRead s with
    | none => none
    | some (s, .panic) => some (s, ldb, .panic)
    | some (s, .ret _ (some e)) => some (s, ldb, .ok (some e))
    | some (s, .ret none none) => some (s, ldb, .panic)
    | some (s, .ret (some m) none) =>
      match LinkRequest.zero.unmarshalBinary m.payload with
      | (_, some e) => some (s, ldb, .ok (some e))
      | (lr, none) =>
        if lr.memAddress ≠ last then
          match lr.link with
          | none => some (s, ldb, .panic)
          | some l =>
            if l.flags.lastRecord then some (s, ldb, .ok none)
            else refreshLoop io fuelRead fuel s
              { ldb with links := ldb.links ++ [l], index := (l.id, ldb.links.length) :: ldb.index } lr.memAddress
        else refreshLoop io fuelRead fuel s ldb last

/-- The request that starts a download (devices/linkdb.go 163-164). -/
def readRequest : Message := ⟨0, 0, 0, Cmd.readWriteALDB, List.replicate 14 0#8⟩

/-- `linkdb.refresh` (devices/linkdb.go 153-193); `now` is the time of the call, `done` the time at its
end. -/
def refresh (io : MsgIO σ) (fuel : Nat) (now done : Int) (s : σ) (ldb : Ldb) :
    Option (σ × Ldb × Out (Option Err)) :=
  if !ldb.old now then some (s, ldb, .ok none)
  else
    let ldb := { ldb with index := [], links := [] }
    match io.write s readRequest with
    | (s, .panic) => some (s, ldb, .panic)
    | (s, .ret _ (some e)) => some (s, ldb, .ok (some e))
    | (s, .ret _ none) =>
      match refreshLoop io fuel fuel s ldb 0#64 with
      | some (s, ldb, .ok none) => some (s, { ldb with age := done }, .ok none)
      | r => r

/-- `linkdb.Links` (devices/linkdb.go 197-204). -/
def getLinks (io : MsgIO σ) (fuel : Nat) (now done : Int) (s : σ) (ldb : Ldb) :
    Option (σ × Ldb × Out (List LinkRecord × Option Err)) :=
  match refresh io fuel now done s ldb with
  | none => none
  | some (s, ldb, .ok none) => some (s, ldb, .ok (ldb.links, none))
  | some (s, ldb, .ok (some e)) => some (s, ldb, .ok ([], some e))
  | some (s, ldb, .err e) => some (s, ldb, .err e)
  | some (s, ldb, .panic) => some (s, ldb, .panic)

/-- The memory address for an index (devices/linkdb.go 247). -/
def memAddressOf (index : Int) : MemAddress := baseLinkDBAddress - BitVec.ofInt 64 index * linkRecordSize

/-- `linkdb.WriteLink` (devices/linkdb.go 243-267). The index is a Go int; a negative one passes the check and
panics after the write. -/
def writeLink (io : MsgIO σ) (s : σ) (ldb : Ldb) (index : Int) (link : LinkRecord) : σ × Ldb × Out (Option Err) :=
  if index > ldb.links.length then (s, ldb, .ok (some .linkIndexOutOfRange))
  else
    match (⟨LinkRequest.writeLink, memAddressOf index, 0, some link⟩ : LinkRequest).marshalBinary with
    | .ok buf =>
      match io.write s ⟨0, 0, 0, Cmd.readWriteALDB, buf⟩ with
      | (s, .panic) => (s, ldb, .panic)
      | (s, .ret _ (some e)) => (s, ldb, .ok (some e))
      | (s, .ret _ none) =>
        if link.flags.lastRecord then
          if index < ldb.links.length then
            if index < 0 then (s, ldb, .panic) else (s, { ldb with links := ldb.links.take index.toNat }, .ok none)
          else (s, ldb, .ok none)
        else if index = ldb.links.length then (s, { ldb with links := ldb.links ++ [link] }, .ok none)
        else if index < 0 then (s, ldb, .panic)
        else (s, { ldb with links := ldb.links.set index.toNat link }, .ok none)
    | _ => (s, ldb, .panic)

/-- `link.Flags.ClearLastRecord()`. -/
def notLast (l : LinkRecord) : LinkRecord := { l with flags := l.flags.clearLastRecord }

/-- The record written to mark the end (devices/linkdb.go 281-282, 324-325): a zero record. -/
def endRecord : LinkRecord := { LinkRecord.zero with flags := LinkRecord.zero.flags.setLastRecord }

/-- The loop of `writeLinks` (devices/linkdb.go 275-278) from index `i` on. -/
def writeLinksLoop (io : MsgIO σ) : Nat → List LinkRecord → σ → Ldb → σ × Ldb × Out (Option Err)
  | _, [], s, ldb => (s, ldb, .ok none)
  | i, l :: ls, s, ldb =>
    match writeLink io s ldb i (notLast l) with
    | (s, ldb, .ok none) => writeLinksLoop io (i + 1) ls s ldb
    | r => r

/-- `linkdb.WriteLinks` (devices/linkdb.go 269-289). The caller's records get their end marker cleared
in place, too; that is in `Ldb.writeLinksIn`. -/
def writeLinks (io : MsgIO σ) (done : Int) (s : σ) (ldb : Ldb) (links : List LinkRecord) :
    σ × Ldb × Out (Option Err) :=
  match writeLinksLoop io 0 links s ldb with
  | (s, ldb, .ok none) =>
    match writeLink io s ldb ldb.links.length endRecord with
    | (s, ldb, .ok none) => (s, { ldb with age := done }, .ok none)
    | r => r
  | r => r

/-- `ldb.index[id]` (devices/linkdb.go 296). -/
def lookup (index : List (Bytes × Nat)) (id : Bytes) : Option Nat := (index.find? (fun p => p.1 == id)).map Prod.snd

/-- The first loop of `UpdateLinks` (devices/linkdb.go 295-303): `kept` are `links[0:i]`, the list argument
`links[i:]`. The result has the links that are left. `ldb.links[j]` panics when the index is out of
date. -/
def updateFound (io : MsgIO σ) : List LinkRecord → List LinkRecord → σ → Ldb →
    σ × Ldb × Out (List LinkRecord × Option Err)
  | kept, [], s, ldb => (s, ldb, .ok (kept, none))
  | kept, l :: ls, s, ldb =>
    match lookup ldb.index l.id with
    | none => updateFound io (kept ++ [l]) ls s ldb
    | some j =>
      match ldb.links[j]? with
      | none => (s, ldb, .panic)
      | some old =>
        if old.flags ≠ l.flags then
          match writeLink io s ldb kept.length l with
          | (s, ldb, .ok none) => updateFound io kept ls s ldb
          | (s, ldb, .ok (some e)) => (s, ldb, .ok (kept ++ ls, some e))
          | (s, ldb, _) => (s, ldb, .panic)
        else updateFound io kept ls s ldb

/-- The second loop (devices/linkdb.go 305-313) from index `i` on, with fuel: the number of cached links does
not change while it runs. -/
def updateAvailable (io : MsgIO σ) : Nat → Nat → List LinkRecord → σ → Ldb →
    σ × Ldb × Out (List LinkRecord × Option Err)
  | 0, _, links, s, ldb => (s, ldb, .ok (links, none))
  | fuel + 1, i, links, s, ldb =>
    match ldb.links[i]?, links with
    | none, _ => (s, ldb, .ok (links, none))
    | some _, [] => updateAvailable io fuel (i + 1) [] s ldb
    | some r, l :: ls =>
      if r.flags.available then
        match writeLink io s ldb i (notLast l) with
        | (s, ldb, .ok none) => updateAvailable io fuel (i + 1) ls s ldb
        | (s, ldb, .ok (some e)) => (s, ldb, .ok (notLast l :: ls, some e))
        | (s, ldb, _) => (s, ldb, .panic)
      else updateAvailable io fuel (i + 1) (l :: ls) s ldb

/-- The appending loop (devices/linkdb.go 317-321): it goes on after an error, the last error counts. -/
def updateAppend (io : MsgIO σ) : Nat → List LinkRecord → Option Err → σ → Ldb → σ × Ldb × Out (Option Err)
  | _, [], e, s, ldb => (s, ldb, .ok e)
  | i, l :: ls, _, s, ldb =>
    match writeLink io s ldb i (notLast l) with
    | (s, ldb, .ok e) => updateAppend io (i + 1) ls e s ldb
    | r => r

/-- `linkdb.UpdateLinks` (devices/linkdb.go 291-332). What it does to the caller's slice is in
`Ldb.updateLinksIn`. -/
def updateLinks (io : MsgIO σ) (fuel : Nat) (now done : Int) (s : σ) (ldb : Ldb) (links : List LinkRecord) :
    Option (σ × Ldb × Out (Option Err)) :=
  match refresh io fuel now done s ldb with
  | some (s, ldb, .ok none) =>
    match updateFound io [] links s ldb with
    | (s, ldb, .ok (links, none)) =>
      match updateAvailable io ldb.links.length 0 links s ldb with
      | (s, ldb, .ok ([], none)) => some (s, ldb, .ok none)
      | (s, ldb, .ok (links, none)) =>
        let i := ldb.links.length
        match updateAppend io i links none s ldb with
        | (s, ldb, .ok none) => some (writeLink io s ldb (i + links.length : Nat) endRecord)
        | r => some r
      | (s, ldb, .ok (_, some e)) => some (s, ldb, .ok (some e))
      | (s, ldb, _) => some (s, ldb, .panic)
    | (s, ldb, .ok (_, some e)) => some (s, ldb, .ok (some e))
    | (s, ldb, _) => some (s, ldb, .panic)
  | r => r

/-- The first loop of `AddLinks` (devices/linkdb.go 213-227): index, cached links still to visit, links to
add; the links left and whether the loop ended with an error. -/
def addLoop (io : MsgIO σ) : Nat → List LinkRecord → List LinkRecord → σ → Ldb →
    σ × Ldb × Out (List LinkRecord × Option Err)
  | _, [], adds, s, ldb => (s, ldb, .ok (adds, none))
  | i, link :: rest, adds, s, ldb =>
    match adds with
    | [] => (s, ldb, .ok ([], none))
    | a :: as =>
      if link.flags.available then
        match writeLink io s ldb i link with
        | (s, ldb, .ok none) =>
          let ldb := { ldb with links := ldb.links.set i { a with flags := a.flags.setInUse.clearLastRecord } }
          addLoop io (i + 1) rest as s ldb
        | (s, ldb, .ok (some e)) => (s, ldb, .ok (adds, some e))
        | (s, ldb, _) => (s, ldb, .panic)
      else addLoop io (i + 1) rest as s ldb

/-- The second loop of `AddLinks` (devices/linkdb.go 230-238). -/
def addAppend (io : MsgIO σ) : List LinkRecord → σ → Ldb → σ × Ldb × Out (Option Err)
  | [], s, ldb => (s, ldb, .ok none)
  | l :: ls, s, ldb =>
    match writeLink io s ldb ldb.links.length (notLast l) with
    | (s, ldb, .ok none) => addAppend io ls s ldb
    | r => r

/-- `linkdb.AddLinks` (devices/linkdb.go 206-241). Simplification: the cached links never contain an end
record, so `ldb.links` keeps its length in the first loop and `ldb.links[i]` is inside. -/
def addLinks (io : MsgIO σ) (fuel : Nat) (now done : Int) (s : σ) (ldb : Ldb) (adds : List LinkRecord) :
    Option (σ × Ldb × Out (Option Err)) :=
  if adds.length = 0 then some (s, ldb, .ok none)
  else
    match refresh io fuel now done s ldb with
    | some (s, ldb, .ok none) =>
      match addLoop io 0 ldb.links adds s ldb with
      | (s, ldb, .ok (adds, none)) => some (addAppend io adds s ldb)
      | (s, ldb, .ok (_, some e)) => some (s, ldb, .ok (some e))
      | (s, ldb, _) => some (s, ldb, .panic)
    | r => r

end Ldb

end Insteon
