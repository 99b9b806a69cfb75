import Verif.Model.Base

/-
Specification vocabulary for tables in files: how rows of fields are written with commas, quotes and line ends. 0x2c is the comma, 0x22 the quote, 0x0d and 0x0a the line end.
-/

namespace Insteon.Spec

/-- A text with its quotes doubled. -/
def doubled : List (BitVec 8) → List (BitVec 8)
  | [] => []
  | b :: s => if b = 0x22#8 then 0x22#8 :: 0x22#8 :: doubled s else b :: doubled s

/-- A field is written as it is, if it has no comma, quote or line end in it, or between quotes. -/
inductive WritesField : List (BitVec 8) → List (BitVec 8) → Prop
  | plain {f : List (BitVec 8)} (h : 0x2c#8 ∉ f ∧ 0x22#8 ∉ f ∧ 0x0a#8 ∉ f ∧ 0x0d#8 ∉ f) : WritesField f f
  | quoted {f : List (BitVec 8)} (h : 0x0d#8 ∉ f) : WritesField f (0x22#8 :: doubled f ++ [0x22#8])

/-- The fields of a row are separated by commas. -/
inductive WritesRow : List (List (BitVec 8)) → List (BitVec 8) → Prop
  | last {f t : List (BitVec 8)} (h : WritesField f t) : WritesRow [f] t
  | more {f t : List (BitVec 8)} {fs : List (List (BitVec 8))} {ts : List (BitVec 8)} (h : WritesField f t) (hs : WritesRow fs ts) : WritesRow (f :: fs) (t ++ 0x2c#8 :: ts)

/-- Lines end in LF or CR LF. -/
def LineEnd (e : List (BitVec 8)) : Prop := e = [0x0a#8] ∨ e = [0x0d#8, 0x0a#8]

/-- The rows of a table follow each other; there may be empty lines between them, and the last line end may be missing. -/
inductive WritesTable : List (List (List (BitVec 8))) → List (BitVec 8) → Prop
  | none : WritesTable [] []
  | blank {rs : List (List (List (BitVec 8)))} {e ts : List (BitVec 8)} (he : LineEnd e) (hs : WritesTable rs ts) : WritesTable rs (e ++ ts)
  | row {r : List (List (BitVec 8))} {rs : List (List (List (BitVec 8)))} {t e ts : List (BitVec 8)} (h : WritesRow r t) (he : LineEnd e) (hs : WritesTable rs ts) :
      WritesTable (r :: rs) (t ++ e ++ ts)
  | final {r : List (List (BitVec 8))} {t : List (BitVec 8)} (h : WritesRow r t) : WritesTable [r] t

end Insteon.Spec
