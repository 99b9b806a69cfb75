import Verif.Model.DeviceLinks

/-
What the methods of a device do to the slices they are called with: devices/linkdb.go (`WriteLinks`, `UpdateLinks`,
`AddLinks`) and devices/basic.go (`Send`, `SendCommand`, `ExtendedGet`). The slices are windows into an array of
the caller; `arr` is that array, as long as the slice passed.
-/

namespace Insteon

namespace Ldb
variable {σ : Type}

/-- The loop of `writeLinks` (devices/linkdb.go 275-278) from index `i` on, on the caller's array: each record is
changed in place before it is written. The argument counts the records left. -/
def writeLinksLoopIn (io : MsgIO σ) : Nat → Nat → List LinkRecord → σ → Ldb → σ × Ldb × Out (Option Err) × List LinkRecord
  | 0, _, arr, s, ldb => (s, ldb, .ok none, arr)
  | n + 1, i, arr, s, ldb =>
    let arr := arr.modify i notLast
    match arr[i]? with
    | none => (s, ldb, .panic, arr)
    | some l =>
      match writeLink io s ldb i l with
      | (s, ldb, .ok none) => writeLinksLoopIn io n (i + 1) arr s ldb
      | (s, ldb, e) => (s, ldb, e, arr)

/-- `linkdb.WriteLinks` (devices/linkdb.go 269-289) with the caller's array. -/
def writeLinksIn (io : MsgIO σ) (done : Int) (s : σ) (ldb : Ldb) (arr : List LinkRecord) :
    σ × Ldb × Out (Option Err) × List LinkRecord :=
  match writeLinksLoopIn io arr.length 0 arr s ldb with
  | (s, ldb, .ok none, arr) =>
    match writeLink io s ldb ldb.links.length endRecord with
    | (s, ldb, .ok none) => (s, { ldb with age := done }, .ok none, arr)
    | (s, ldb, e) => (s, ldb, e, arr)
  | r => r

/-- `append(links[0:i], links[i+1:]...)` where `links` are the first `len` records of the array (devices/linkdb.go 300):
the records behind `i` move down by one, in place; the one at `len-1` stays. -/
def shiftOut {α : Type} (arr : List α) (i len : Nat) : List α :=
  arr.take i ++ (arr.take len).drop (i + 1) ++ arr.drop (len - 1)

/-- The first loop of `UpdateLinks` (devices/linkdb.go 295-303) on the caller's array: `links` are its first `len`
records. The first argument counts the iterations left, `len - i`. The result has the length of `links`. -/
def updateFoundIn (io : MsgIO σ) : Nat → Nat → Nat → List LinkRecord → σ → Ldb →
    σ × Ldb × Out (Nat × Option Err) × List LinkRecord
  | 0, _, len, arr, s, ldb => (s, ldb, .ok (len, none), arr)
  | n + 1, i, len, arr, s, ldb =>
    match arr[i]? with
    | none => (s, ldb, .panic, arr)
    | some l =>
      match lookup ldb.index l.id with
      | none => updateFoundIn io n (i + 1) len arr s ldb
      | some j =>
        match ldb.links[j]? with
        | none => (s, ldb, .panic, arr)
        | some old =>
          if old.flags ≠ l.flags then
            match writeLink io s ldb i l with
            | (s, ldb, .ok none) => updateFoundIn io n i (len - 1) (shiftOut arr i len) s ldb
            | (s, ldb, .ok (some e)) => (s, ldb, .ok (len - 1, some e), shiftOut arr i len)
            | (s, ldb, _) => (s, ldb, .panic, arr)
          else updateFoundIn io n i (len - 1) (shiftOut arr i len) s ldb

/-- The second loop (devices/linkdb.go 305-313) on the caller's array: `links` are its records from `off` to `len`. -/
def updateAvailableIn (io : MsgIO σ) : Nat → Nat → Nat → Nat → List LinkRecord → σ → Ldb →
    σ × Ldb × Out (Nat × Option Err) × List LinkRecord
  | 0, _, off, _, arr, s, ldb => (s, ldb, .ok (off, none), arr)
  | fuel + 1, i, off, len, arr, s, ldb =>
    match ldb.links[i]? with
    | none => (s, ldb, .ok (off, none), arr)
    | some r =>
      if r.flags.available && decide (off < len) then
        let arr := arr.modify off notLast
        match arr[off]? with
        | none => (s, ldb, .panic, arr)
        | some l =>
          match writeLink io s ldb i l with
          | (s, ldb, .ok none) => updateAvailableIn io fuel (i + 1) (off + 1) len arr s ldb
          | (s, ldb, .ok (some e)) => (s, ldb, .ok (off, some e), arr)
          | (s, ldb, _) => (s, ldb, .panic, arr)
      else updateAvailableIn io fuel (i + 1) off len arr s ldb

/-- `linkdb.UpdateLinks` (devices/linkdb.go 291-332) with the caller's array. The appending loop works on copies
of the records. -/
def updateLinksIn (io : MsgIO σ) (fuel : Nat) (now done : Int) (s : σ) (ldb : Ldb) (arr : List LinkRecord) :
    Option (σ × Ldb × Out (Option Err) × List LinkRecord) :=
  match refresh io fuel now done s ldb with
  | none => none
  | some (s, ldb, .ok none) =>
    match updateFoundIn io arr.length 0 arr.length arr s ldb with
    | (s, ldb, .ok (len, none), arr) =>
      match updateAvailableIn io ldb.links.length 0 0 len arr s ldb with
      | (s, ldb, .ok (off, none), arr) =>
        if off < len then
          let i := ldb.links.length
          match updateAppend io i ((arr.take len).drop off) none s ldb with
          | (s, ldb, .ok none) =>
            match writeLink io s ldb (i + (len - off) : Nat) endRecord with
            | (s, ldb, e) => some (s, ldb, e, arr)
          | (s, ldb, e) => some (s, ldb, e, arr)
        else some (s, ldb, .ok none, arr)
      | (s, ldb, .ok (_, some e), arr) => some (s, ldb, .ok (some e), arr)
      | (s, ldb, _, arr) => some (s, ldb, .panic, arr)
    | (s, ldb, .ok (_, some e), arr) => some (s, ldb, .ok (some e), arr)
    | (s, ldb, _, arr) => some (s, ldb, .panic, arr)
  | some (s, ldb, e) => some (s, ldb, e, arr)

/-- The first loop of `AddLinks` (devices/linkdb.go 213-227) on the caller's array: `addLinks` are its records from
`off` on. -/
def addLoopIn (io : MsgIO σ) : Nat → List LinkRecord → Nat → List LinkRecord → σ → Ldb →
    σ × Ldb × Out (Nat × Option Err) × List LinkRecord
  | _, [], off, arr, s, ldb => (s, ldb, .ok (off, none), arr)
  | i, link :: rest, off, arr, s, ldb =>
    match arr[off]? with
    | none => (s, ldb, .ok (off, none), arr)
    | some a =>
      if link.flags.available then
        match writeLink io s ldb i link with
        | (s, ldb, .ok none) =>
          let a := { a with flags := a.flags.setInUse.clearLastRecord }
          addLoopIn io (i + 1) rest (off + 1) (arr.set off a) s { ldb with links := ldb.links.set i a }
        | (s, ldb, .ok (some e)) => (s, ldb, .ok (off, some e), arr)
        | (s, ldb, _) => (s, ldb, .panic, arr)
      else addLoopIn io (i + 1) rest (off + 1) arr s ldb

/-- `linkdb.AddLinks` (devices/linkdb.go 206-241) with the caller's array; its second loop works on copies. -/
def addLinksIn (io : MsgIO σ) (fuel : Nat) (now done : Int) (s : σ) (ldb : Ldb) (arr : List LinkRecord) :
    Option (σ × Ldb × Out (Option Err) × List LinkRecord) :=
  if arr.length = 0 then some (s, ldb, .ok none, arr)
  else
    match refresh io fuel now done s ldb with
    | none => none
    | some (s, ldb, .ok none) =>
      match addLoopIn io 0 ldb.links 0 arr s ldb with
      | (s, ldb, .ok (off, none), arr) =>
        match addAppend io (arr.drop off) s ldb with
        | (s, ldb, e) => some (s, ldb, e, arr)
      | (s, ldb, .ok (_, some e), arr) => some (s, ldb, .ok (some e), arr)
      | (s, ldb, _, arr) => some (s, ldb, .panic, arr)
    | some (s, ldb, e) => some (s, ldb, e, arr)

end Ldb

namespace Device
variable {σ : Type}

/-- What `BasicDevice.Write` leaves in the array behind the payload it is given (devices/basic.go 61-80): the checksum of
an extended message to an I2CS device is stored in place unless the payload is too short and is copied first. -/
def bufferAfter (info : DeviceInfo) (command : Command) (buf : Bytes) : Bytes :=
  if info.engineVersion = verI2Cs then
    if 0 < buf.length then
      if buf.length < 14 then buf else setChecksum command buf
    else buf
  else buf

/-- `BasicDevice.Send` and `SendCommand` (devices/basic.go 88-116) with the caller's buffer. -/
def sendIn (info : DeviceInfo) (io : MsgIO σ) (s : σ) (command : Command) (buf : Bytes) :
    (σ × Out (Command × Option Err)) × Bytes :=
  (send info io s command buf, bufferAfter info command buf)

/-- `BasicDevice.ExtendedGet` (devices/basic.go 164-174) with the caller's buffer. -/
def extendedGetIn (info : DeviceInfo) (io : MsgIO σ) (fuel : Nat) (s : σ) (buf : Bytes) :
    Option (σ × Out (Bytes × Option Err)) × Bytes :=
  (extendedGet info io fuel s buf, bufferAfter info Cmd.extendedGetSet buf)

end Device

end Insteon
