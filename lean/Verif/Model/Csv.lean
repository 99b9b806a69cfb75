import Verif.Model.DevCats

/-
The reading of internal/devcats.csv by internal/devcats.go with `encoding/csv`.
-/

namespace Insteon
namespace Csv

/-- The line read up to and including the line feed, and the rest (`bufio.Reader.ReadSlice` in `readLine` of `encoding/csv`). -/
def takeLine : Bytes → Bytes × Bytes
  | [] => ([], [])
  | b :: s => if b = 0x0a#8 then ([b], s) else (b :: (takeLine s).1, (takeLine s).2)

/-- A line with CR LF at its end made LF, and without a CR before the end of the file (`readLine` of `encoding/csv`). -/
def normal : Bytes → Bytes
  | [] => []
  | b :: s => if b = 0x0d#8 ∧ (s = [] ∨ s = [0x0a#8]) then s else b :: normal s

/-- `readLine` of `encoding/csv`; `none` is the end of the file. Not modelled: other errors of the file. -/
def readLine (s : Bytes) : Option (Bytes × Bytes) := if s = [] then none else some (normal (takeLine s).1, (takeLine s).2)

/-- `lengthNL` of `encoding/csv`. -/
def lengthNL (line : Bytes) : Nat := if line.getLast? = some 0x0a#8 then 1 else 0

/-- The loop `parseField` of `encoding/csv` with fuel: what has been read of a quoted field (`none` at the start of a field), the line, the rest of the file, the fields so
far; the record and the rest of the file. The settings are those of `csv.NewReader` (internal/devcats.go 112): fields are separated by commas, quotes have their meaning. -/
def parse : Nat → Option Bytes → Bytes → Bytes → List Bytes → Option (Out (List Bytes × Bytes))
  | 0, _, _, _, _ => none
  | fuel + 1, none, line, rest, fields =>
    if line.head? = some 0x22#8 then parse fuel (some []) line.tail rest fields
    else
      let field := line.takeWhile (fun b => b ≠ 0x2c#8)
      match line.dropWhile (fun b => b ≠ 0x2c#8) with
      | [] =>
        let field := field.take (field.length - lengthNL field)
        if 0x22#8 ∈ field then some (.err (.other 60)) else some (.ok (fields ++ [field], rest))
      | _ :: line => if 0x22#8 ∈ field then some (.err (.other 60)) else parse fuel none line rest (fields ++ [field])
  | fuel + 1, some q, line, rest, fields =>
    let part := line.takeWhile (fun b => b ≠ 0x22#8)
    match line.dropWhile (fun b => b ≠ 0x22#8) with
    | [] =>
      if line = [] then some (.err (.other 61))
      else match readLine rest with
        | some (line, rest) => parse fuel (some (q ++ part)) line rest fields
        | none => parse fuel (some (q ++ part)) [] [] fields
    | _ :: line =>
      if line.head? = some 0x22#8 then parse fuel (some (q ++ part ++ [0x22#8])) line.tail rest fields
      else if line.head? = some 0x2c#8 then parse fuel none line.tail rest (fields ++ [q ++ part])
      else if line.length = lengthNL line then some (.ok (fields ++ [q ++ part], rest))
      else some (.err (.other 61))

/-- The calls of `Read` (internal/devcats.go 113-120) with fuel; `n` is `FieldsPerRecord`, 0 before the first record. Empty lines are skipped. An error is `log.Fatal`. -/
def records : Nat → Nat → Bytes → Option (Out (List (List Bytes)))
  | 0, _, _ => none
  | fuel + 1, n, s =>
    match readLine s with
    | none => some (.ok [])
    | some (line, rest) =>
      if line.length = lengthNL line then records fuel n rest
      else
        match parse (s.length + 1) none line rest [] with
        | some (.ok (r, rest)) =>
          if n > 0 ∧ r.length ≠ n then some (.err (.other 62))
          else
            match records fuel r.length rest with
            | some (.ok rs) => some (.ok (r :: rs))
            | x => x
        | some (.err e) => some (.err e)
        | some .panic => some .panic
        | none => none

/-- All records of a file. -/
def read (s : Bytes) : Option (Out (List (List Bytes))) := records (s.length + 1) 0 s

/-- The fields of a record the program uses (internal/devcats.go 122-128); `none` is an index out of range. -/
def row : List Bytes → Option DevRow
  | a :: b :: c :: d :: _ => some ⟨a, b, c, d⟩
  | _ => none

/-- The text made for devcats.go from the text of internal/devcats.csv (internal/devcats.go 101-132); `none` if the program ends before it makes one. Simplification: all records
are read before the first is used, which makes no difference to the text. -/
def devcatsGo (other : Bytes → Option Int) (year : Bytes) (ds : List GenDomain) (file : Bytes) : Option Bytes :=
  match read file with
  | some (.ok rs) =>
    match rs.mapM row with
    | some rows => DevCats.devcatsGo other year ds rows
    | none => none
  | _ => none

end Csv
end Insteon
