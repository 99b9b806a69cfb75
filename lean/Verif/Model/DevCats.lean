import Verif.Model.Generator

/-
The program that writes devcats.go: internal/devcats.go and the template internal/devcats.go.tmpl.
-/

namespace Insteon

/-- A record of internal/devcats.csv. How `encoding/csv` splits the file into records is in Model/Csv.lean. -/
structure DevRow where
  domain : Bytes
  category : Bytes
  sku : Bytes
  name : Bytes
deriving DecidableEq, Repr

/-- `category` (internal/devcats.go 27-33). The domain it points to is the one it is listed with. -/
structure GenCategory where
  id : Int
  sku : Bytes
  name : Bytes
deriving DecidableEq, Repr

/-- `domain` (internal/devcats.go 43-48), without its categories. -/
structure GenDomain where
  id : Nat
  var : Bytes
  name : Bytes
deriving DecidableEq, Repr

namespace DevCats

/-- A number in hexadecimal (`%x`). -/
def hexNat (n : Nat) : Bytes := (Nat.toDigits 16 n).map ch

/-- `fmt.Sprintf("%02x", n)`, where the sign counts as a digit. -/
def hex02 (n : Int) : Bytes :=
  if n < 0 then lit "-" ++ hexNat n.natAbs else if n < 16 then lit "0" ++ hexNat n.natAbs else hexNat n.natAbs

/-- `strings.Replace(s, "\ufeff", "", -1)` (internal/devcats.go 122-123). -/
def dropMark : Bytes → Bytes
  | 0xef#8 :: 0xbb#8 :: 0xbf#8 :: s => dropMark s
  | b :: s => b :: dropMark s
  | [] => []

/-- `parseHex` (internal/devcats.go 93-99); `none` is `log.Fatalf`. Of `strconv.ParseInt` with base 0 only `0x` and digits are here: what other text, with signs or
underscores or in another base, stands for, is what `other` says. All of it is in Model/ParseInt.lean, with which `other` is filled in C217. -/
def parseHex (other : Bytes → Option Int) (s : Bytes) : Option Int :=
  match s with
  | 0x30#8 :: x :: ds =>
    if (x = 0x78#8 ∨ x = 0x58#8) ∧ ds ≠ [] ∧ ds.all (fun d => (hexVal d).isSome) then
      let n := hexNumber (ds.filterMap hexVal)
      if n < 2 ^ 63 then some n else none
    else other s
  | _ => other s

/-- The loop over the records in `data` (internal/devcats.go 113-129), with the domains and what has been appended to their categories; `none` is `log.Fatalf`. The numbers of
the domains are all different, so that `index` (lines 102-105) has each of them. Not modelled: a file that cannot be opened or read. -/
def data (other : Bytes → Option Int) : List DevRow → List (GenDomain × List GenCategory) → Option (List (GenDomain × List GenCategory))
  | [], acc => some acc
  | r :: rs, acc =>
    match parseHex other (dropMark r.domain) with
    | none => none
    | some k =>
      match parseHex other (dropMark r.category) with
      | none => none
      | some c =>
        if acc.any (fun p => decide ((p.1.id : Int) = k)) then
          data other rs (acc.map fun p => if (p.1.id : Int) = k then (p.1, p.2 ++ [⟨c, trimSpace r.sku, trimSpace r.name⟩]) else p)
        else none

/-- A constant (internal/devcats.go.tmpl 6-8), with the first one's type (line 6) or without. -/
def constant (typ : Bytes) (d : GenDomain) : Bytes := htmlEscape d.var ++ typ ++ lit " = 0x" ++ hex02 d.id

/-- An entry of the map (internal/devcats.go.tmpl 11-12 and `DevCat`, internal/devcats.go 39-41). -/
def entry (d : GenDomain) (c : GenCategory) : Bytes :=
  lit "\n  {0x" ++ hex02 d.id ++ lit ", 0x" ++ hex02 c.id ++ lit "}: \"" ++ htmlEscape c.name ++ lit "\","

/-- The text made of domains and categories (internal/devcats.go.tmpl 1-13). Without domains the template fails. -/
def text (year : Bytes) : List (GenDomain × List GenCategory) → Option Bytes
  | [] => none
  | d :: ds => some (unlines (Generator.license year) ++ lit "\n\npackage insteon\n\nconst(\n  " ++ constant (lit " Domain") d.1 ++ lit "\n  " ++
      ds.flatMap (fun p => constant [] p.1 ++ lit "\n") ++ lit "\n)\n\nvar devcatStrings = map[DevCat]string { " ++
      (d :: ds).flatMap (fun p => p.2.flatMap (entry p.1)) ++ lit "\n}\n")

/-- The text made for devcats.go. Not modelled: `format.Source` (internal/main.go 76), which changes white space, and errors of the file. -/
def devcatsGo (other : Bytes → Option Int) (year : Bytes) (ds : List GenDomain) (rows : List DevRow) : Option Bytes :=
  match data other rows (ds.map fun d => (d, [])) with
  | none => none
  | some out => text year out

end DevCats

end Insteon
