import Verif.Model.Show

/-
Printing link databases to a writer that may fail: util/link.go 431-454 with util/dumplinks.tmpl and util/printlinks.tmpl. `Template.Execute` of text/template writes the text and the
values of a template one after the other, each with one call of `Write`, stops at the first one that fails and returns its error.
-/

namespace Insteon

/-- `io.Writer`: one `Write`, nil or an error. A `Write` that takes only a part of its bytes returns an error. -/
structure OutStream (σ : Type) where
  write : σ → Bytes → σ × Option Err

variable {σ : Type}

/-- `Template.Execute` for a template that comes to these texts and values. -/
def execute (w : OutStream σ) : σ → List Bytes → σ × Option Err
  | s, [] => (s, none)
  | s, p :: ps =>
    match w.write s p with
    | (s, none) => execute w s ps
    | (s, some e) => (s, some e)

/-- The bytes of a record in util/dumplinks.tmpl 4, with the comma before all but the first. -/
def dumpBytes : Bool → Bytes → List Bytes
  | _, [] => []
  | first, b :: bs => (if first then [] else [lit ", "]) ++ [lit "0x" ++ hex2 b] ++ dumpBytes false bs

/-- util/dumplinks.tmpl: what is written for each link, or for none. -/
def dumpPieces (links : List LinkRecord) : List Bytes :=
  if links.isEmpty then [lit "no links\n"]
  else lit "links\n" :: links.flatMap fun l => [lit "- ["] ++ dumpBytes true l.marshalBinary ++ [lit "]\n"]

/-- One row of util/printlinks.tmpl 4-6. -/
def printRowPieces (l : LinkRecord) : List Bytes :=
  [lit "\n    ", padRight 5 l.flags.string, lit " ", padLeft 5 (decByte l.group), lit " ", padLeft 8 l.address.string, lit "   ",
   hex2 l.d0, lit " ", hex2 l.d1, lit " ", hex2 l.d2]

/-- util/printlinks.tmpl. -/
def printPieces (links : List LinkRecord) : List Bytes :=
  lit "Link Database:" ::
    (if links.isEmpty then [lit "\n    No links defined\n"]
     else lit "\n    Flags Group Address    Data" :: (links.flatMap printRowPieces ++ [lit "\n"]))

/-- `DumpLinks` (util/link.go 439-441). -/
def dumpLinksTo (w : OutStream σ) (s : σ) (links : List LinkRecord) : σ × Option Err := execute w s (dumpPieces links)

/-- `PrintLinks` (util/link.go 451-454); `sort` as in `printLinks`. -/
def printLinksTo (sort : List LinkRecord → List LinkRecord) (w : OutStream σ) (s : σ) (links : List LinkRecord) : σ × Option Err :=
  execute w s (printPieces (sort links))

/-- `DumpLinkDatabase` (util/link.go 431-437). -/
def dumpLinkDatabaseTo (w : OutStream σ) (d : Linkable σ) (s : σ) : σ × Option Err :=
  match d.links s with
  | (s, links, none) => dumpLinksTo w s links
  | (s, _, some e) => (s, some e)

/-- `PrintLinkDatabase` (util/link.go 443-449). -/
def printLinkDatabaseTo (sort : List LinkRecord → List LinkRecord) (w : OutStream σ) (d : Linkable σ) (s : σ) : σ × Option Err :=
  match d.links s with
  | (s, links, none) => printLinksTo sort w s links
  | (s, _, some e) => (s, some e)

end Insteon
