import Verif.Model.Link

/-
util/link.go: text form of link lists; util/textlinks.tmpl
-/

namespace Insteon

/-- The comment heading of util/textlinks.tmpl 1-10, one entry per line. -/
def headingLines : List Bytes :=
  [lit "#",
   lit "# Lines beginning with a # are ignored",
   lit "# DO NOT delete lines, this will cause the entries to",
   lit "# shift up and then the last entry will be in the database twice",
   lit "# To delete a record simply mark it 'Available' by changing the",
   lit "# first letter of the Flags to 'A'",
   lit "#",
   lit "# Flags Group Address    Data"]

/-- Lines, each followed by a newline (util/textlinks.tmpl). -/
def unlines : List Bytes → Bytes
  | [] => []
  | l :: ls => l ++ [0x0a#8] ++ unlines ls

/-- `LinksToText` (util/link.go 69-79 with util/textlinks.tmpl). -/
def linksToText (links : List LinkRecord) (printHeading : Bool) : Bytes :=
  (if printHeading then unlines headingLines else []) ++ unlines (links.map LinkRecord.marshalText)

/-- The loop of `TextToLinks` over the remaining lines (util/link.go 85-96). -/
def textToLinksLoop : List Bytes → List LinkRecord → List LinkRecord × Option Err
  | [], links => (links, none)
  | line :: lines, links =>
    let line := trimSpace line
    if line.length = 0 ∨ line.head? = some (ch '#') then textToLinksLoop lines links
    else
      let r := LinkRecord.unmarshalText LinkRecord.zero line
      match r.2 with
      | none => textToLinksLoop lines (links ++ [r.1])
      | some e => (links, some e)

/-- `TextToLinks` (util/link.go 83-98). -/
def textToLinks (input : Bytes) : List LinkRecord × Option Err :=
  textToLinksLoop (splitLines input) []

/-- Go string comparison: byte-wise lexicographic. -/
def strLt : Bytes → Bytes → Bool
  | _, [] => false
  | [], _ :: _ => true
  | a :: s, b :: t => if a = b then strLt s t else decide (a.toNat < b.toNat)

/-- `Links.Less` (util/link.go 60-65) on the two records compared. -/
def linkLess (a b : LinkRecord) : Bool :=
  if a.address = b.address then decide (a.group.toNat < b.group.toNat)
  else strLt a.address.string b.address.string

end Insteon
