import Verif.Model.LinkText

/-
The parts of Go's encoding/json that the device database uses. Reading takes any JSON text; writing is only needed for objects of objects
of strings without special characters and integers.
-/

namespace Insteon.Json

/-! ### Writing -/

/-- What `Save` writes as a field: a string or an integer. -/
inductive Scalar where
  | str (s : Bytes)
  | num (i : Int)
deriving DecidableEq, Repr

/-- An object of strings and integers, in the order of the text. -/
abbrev Fields := List (Bytes × Scalar)
/-- An object of such objects. -/
abbrev Doc := List (Bytes × Fields)

/-- `strconv.AppendInt(_, n, 10)` for `n ≥ 0`; the first argument bounds the number of digits. -/
def natText : Nat → Nat → Bytes
  | 0, _ => []
  | fuel + 1, n => if n < 10 then [decDigit n] else natText fuel (n / 10) ++ [decDigit (n % 10)]

/-- `strconv.AppendInt(_, i, 10)` for 64-bit integers, which have at most 19 digits. -/
def intText (i : Int) : Bytes := if i < 0 then ch '-' :: natText 20 (-i).toNat else natText 20 i.toNat

/-- A quoted string. Simplification: no escapes, `Save` only writes hexadecimal digits and dots. -/
def strText (s : Bytes) : Bytes := ch '"' :: s ++ [ch '"']

/-- A string or an integer as text. -/
def scalarText : Scalar → Bytes
  | .str s => strText s
  | .num i => intText i

/-- The members of an object, separated by commas. -/
def membersText {α : Type} (text : α → Bytes) : List (Bytes × α) → Bytes
  | [] => []
  | [(k, v)] => strText k ++ ch ':' :: text v
  | (k, v) :: m :: ms => strText k ++ ch ':' :: text v ++ ch ',' :: membersText text (m :: ms)

/-- An object as `json.Marshal` writes it, without white space. -/
def objectText {α : Type} (text : α → Bytes) (ms : List (Bytes × α)) : Bytes := ch '{' :: membersText text ms ++ [ch '}']

/-- A document. -/
def docText (d : Doc) : Bytes := objectText (objectText scalarText) d

/-! ### Reading -/

/-- Any JSON value; a number is kept as its text, as encoding/json does. -/
inductive Value where
  | null
  | bool (b : Bool)
  | num (text : Bytes)
  | str (s : Bytes)
  | arr (vs : List Value)
  | obj (ms : List (Bytes × Value))

/-- JSON white space (`isSpace` of encoding/json). -/
def isWs (b : Byte) : Bool := b == 0x20#8 || b == 0x09#8 || b == 0x0a#8 || b == 0x0d#8

/-- Skipping white space. -/
def skipWs : Bytes → Bytes
  | [] => []
  | b :: s => if isWs b then skipWs s else b :: s

/-- The character `c` after white space. -/
def expect (c : Byte) (s : Bytes) : Option Bytes :=
  match skipWs s with
  | [] => none
  | b :: s => if b = c then some s else none

/-- The letters that may follow a backslash, other than `u` (`stateInStringEsc`). -/
def isEsc (c : Byte) : Bool :=
  c == ch '"' || c == ch '\\' || c == ch '/' || c == ch 'b' || c == ch 'f' || c == ch 'n' || c == ch 'r' || c == ch 't'

/-- What an escape stands for (`unquoteBytes`). -/
def escByte (c : Byte) : Byte :=
  if c = ch 'b' then 0x08#8 else if c = ch 'f' then 0x0c#8 else if c = ch 'n' then 0x0a#8 else if c = ch 'r' then 0x0d#8
  else if c = ch 't' then 0x09#8 else c

/-- Four hexadecimal digits (`getu4`). -/
def hex4 : Bytes → Option Nat
  | a :: b :: c :: d :: _ =>
    match hexVal a, hexVal b, hexVal c, hexVal d with
    | some a, some b, some c, some d => some (4096 * a + 256 * b + 16 * c + d)
    | _, _, _, _ => none
  | _ => none

/-- The rest of a string after its opening quote, as it stands in the text, and what follows the closing quote (`stateInString`,
`stateInStringEsc`, `stateInStringEscU` and so on). The first argument is the number of bytes of an escape still to be passed. -/
def scanString : Nat → Bytes → Option (Bytes × Bytes)
  | _, [] => none
  | n + 1, b :: s => (scanString n s).map fun r => (b :: r.1, r.2)
  | 0, b :: s =>
    if b = ch '"' then some ([], s)
    else if b = ch '\\' then
      match s with
      | [] => none
      | c :: t =>
        if isEsc c then (scanString 1 s).map fun r => (b :: r.1, r.2)
        else if c = ch 'u' then
          (if (hex4 t).isSome then (scanString 5 s).map fun r => (b :: r.1, r.2) else none)
        else none
    else if b.toNat < 0x20 then none
    else (scanString 0 s).map fun r => (b :: r.1, r.2)

/-- `utf8.EncodeRune` for valid characters. -/
def encodeRune (c : Nat) : Bytes :=
  if c < 0x80 then [BitVec.ofNat 8 c]
  else if c < 0x800 then [BitVec.ofNat 8 (0xc0 + c / 64), BitVec.ofNat 8 (0x80 + c % 64)]
  else if c < 0x10000 then [BitVec.ofNat 8 (0xe0 + c / 4096), BitVec.ofNat 8 (0x80 + c / 64 % 64), BitVec.ofNat 8 (0x80 + c % 64)]
  else [BitVec.ofNat 8 (0xf0 + c / 262144), BitVec.ofNat 8 (0x80 + c / 4096 % 64), BitVec.ofNat 8 (0x80 + c / 64 % 64),
    BitVec.ofNat 8 (0x80 + c % 64)]

/-- The second half of a surrogate pair, if the text goes on with one. -/
def lowHalf : Bytes → Option Nat
  | a :: b :: s =>
    if a = ch '\\' ∧ b = ch 'u' then
      match hex4 s with
      | some l => if 0xdc00 ≤ l ∧ l ≤ 0xdfff then some l else none
      | none => none
    else none
  | _ => none

/-- `unquoteBytes`: the meaning of what stands between the quotes. Wrong UTF-8 and halves of surrogate pairs become U+FFFD. The first
argument is the number of bytes still to be passed. -/
def unquote : Nat → Bytes → Bytes
  | _, [] => []
  | n + 1, _ :: s => unquote n s
  | 0, b :: s =>
    if b = ch '\\' then
      match s with
      | [] => []
      | c :: t =>
        if c = ch 'u' then
          let u := (hex4 t).getD 0
          if 0xd800 ≤ u ∧ u ≤ 0xdfff then
            match lowHalf (t.drop 4) with
            | some l =>
              if u ≤ 0xdbff then encodeRune (0x10000 + (u - 0xd800) * 0x400 + (l - 0xdc00)) ++ unquote 11 s
              else encodeRune 0xfffd ++ unquote 5 s
            | none => encodeRune 0xfffd ++ unquote 5 s
          else encodeRune u ++ unquote 5 s
        else escByte c :: unquote 1 s
    else if b.toNat < 0x80 then b :: unquote 0 s
    else encodeRune (decodeRune (b :: s)).1 ++ unquote ((decodeRune (b :: s)).2 - 1) s

/-- A string after its opening quote: its meaning and what follows. -/
def readString (s : Bytes) : Option (Bytes × Bytes) := (scanString 0 s).map fun r => (unquote 0 r.1, r.2)

/-- The digits of a number before the decimal point: no superfluous zero in front (`state0`, `state1`). -/
def readInteger (s : Bytes) : Option (Bytes × Bytes) :=
  let r := takeDec s
  if r.1 = [] ∨ (1 < r.1.length ∧ r.1.head? = some (ch '0')) then none else some r

/-- The decimal point and the digits after it, if there is one (`stateDot`, `stateDot0`). -/
def readFraction (s : Bytes) : Option (Bytes × Bytes) :=
  match s with
  | [] => some ([], [])
  | b :: t =>
    if b = ch '.' then (if (takeDec t).1 = [] then none else some (b :: (takeDec t).1, (takeDec t).2)) else some ([], s)

/-- The sign of an exponent (`stateE`). -/
def readSign (s : Bytes) : Bytes × Bytes :=
  match s with
  | [] => ([], [])
  | b :: t => if b = ch '+' ∨ b = ch '-' then ([b], t) else ([], s)

/-- The exponent, if there is one (`stateE`, `stateESign`, `stateE0`). -/
def readExponent (s : Bytes) : Option (Bytes × Bytes) :=
  match s with
  | [] => some ([], [])
  | b :: t =>
    if b = ch 'e' ∨ b = ch 'E' then
      let g := readSign t
      if (takeDec g.2).1 = [] then none else some (b :: g.1 ++ (takeDec g.2).1, (takeDec g.2).2)
    else some ([], s)

/-- A number without its sign. -/
def readUnsigned (s : Bytes) : Option (Bytes × Bytes) :=
  match readInteger s with
  | none => none
  | some (i, s) =>
  match readFraction s with
  | none => none
  | some (f, s) =>
  match readExponent s with
  | none => none
  | some (e, s) => some (i ++ f ++ e, s)

/-- A number: its text and what follows (`stateNeg` and the states above). -/
def readNumber (s : Bytes) : Option (Bytes × Bytes) :=
  match s with
  | [] => none
  | b :: t => if b = ch '-' then (readUnsigned t).map fun r => (b :: r.1, r.2) else readUnsigned s

/-- The members of an object up to and including the closing brace; at most as many as the first argument says. -/
def readMembers {α : Type} (read : Bytes → Option (α × Bytes)) : Nat → Bytes → Option (List (Bytes × α) × Bytes)
  | 0, _ => none
  | fuel + 1, s =>
    match expect (ch '"') s with
    | none => none
    | some s =>
    match readString s with
    | none => none
    | some (k, s) =>
    match expect (ch ':') s with
    | none => none
    | some s =>
    match read (skipWs s) with
    | none => none
    | some (v, s) =>
    match expect (ch ',') s with
    | some s =>
      (match readMembers read fuel s with
      | none => none
      | some (ms, s) => some ((k, v) :: ms, s))
    | none =>
      match expect (ch '}') s with
      | some s => some ([(k, v)], s)
      | none => none

/-- The elements of an array up to and including the closing bracket. -/
def readElements {α : Type} (read : Bytes → Option (α × Bytes)) : Nat → Bytes → Option (List α × Bytes)
  | 0, _ => none
  | fuel + 1, s =>
    match read (skipWs s) with
    | none => none
    | some (v, s) =>
    match expect (ch ',') s with
    | some s =>
      (match readElements read fuel s with
      | none => none
      | some (vs, s) => some (v :: vs, s))
    | none =>
      match expect (ch ']') s with
      | some s => some ([v], s)
      | none => none

/-- An object after its opening brace. -/
def readObject {α : Type} (read : Bytes → Option (α × Bytes)) (s : Bytes) : Option (List (Bytes × α) × Bytes) :=
  match expect (ch '}') s with
  | some s => some ([], s)
  | none => readMembers read (s.length + 1) s

/-- An array after its opening bracket. -/
def readArray {α : Type} (read : Bytes → Option (α × Bytes)) (s : Bytes) : Option (List α × Bytes) :=
  match expect (ch ']') s with
  | some s => some ([], s)
  | none => readElements read (s.length + 1) s

/-- A given word. -/
def readWord (w s : Bytes) : Option Bytes := if s.take w.length = w then some (s.drop w.length) else none

/-- A value that is neither an object nor an array. -/
def readScalar (s : Bytes) : Option (Value × Bytes) :=
  match s with
  | [] => none
  | b :: t =>
    if b = ch '"' then (readString t).map fun r => (.str r.1, r.2)
    else if b = ch 'n' then (readWord (lit "null") s).map fun r => (.null, r)
    else if b = ch 't' then (readWord (lit "true") s).map fun r => (.bool true, r)
    else if b = ch 'f' then (readWord (lit "false") s).map fun r => (.bool false, r)
    else (readNumber s).map fun r => (.num r.1, r.2)

/-- A value; the first argument is how many more objects and arrays may be opened inside each other (`pushParseState`). -/
def readValue : Nat → Bytes → Option (Value × Bytes)
  | depth, s =>
    match s with
    | [] => none
    | b :: t =>
      if b = ch '{' then
        match depth with
        | 0 => none
        | depth + 1 => (readObject (readValue depth) t).map fun r => (.obj r.1, r.2)
      else if b = ch '[' then
        match depth with
        | 0 => none
        | depth + 1 => (readArray (readValue depth) t).map fun r => (.arr r.1, r.2)
      else readScalar s

/-- A whole document; only white space may stand around it. At most 10000 objects and arrays may be nested. -/
def readDoc (s : Bytes) : Option Value :=
  match readValue 10000 (skipWs s) with
  | none => none
  | some (v, r) => if skipWs r = [] then some v else none

end Insteon.Json
