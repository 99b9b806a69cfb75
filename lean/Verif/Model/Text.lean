import Verif.Model.Base

/-
Model of the parts of Go's standard library text functions that the code uses:
`fmt.Sprintf` with `%02x`, `%d`, padding; `fmt.Sscanf` with `%x`/`%2x` and literal
characters; `strconv.Atoi`; `bytes.Fields`; `strings.Split`; `strings.TrimSpace`.

Text is a list of bytes, any bytes. Where Go looks at characters, so does the model:
`decodeRune` is `utf8.DecodeRune`, and white space is what `unicode.IsSpace` says it is.
-/

namespace Insteon

/-- A character literal as a byte. -/
def ch (c : Char) : Byte := BitVec.ofNat 8 c.toNat

/-- A string literal as bytes (ASCII literals only). -/
def lit (s : String) : Bytes := s.toList.map ch

/-- One lower-case hex digit (`fmt` verb `%x`). -/
def hexDigit (n : Nat) : Byte :=
  if n < 10 then BitVec.ofNat 8 (48 + n) else BitVec.ofNat 8 (87 + n)

/-- `fmt.Sprintf("%02x", b)` for a byte. -/
def hex2 (b : Byte) : Bytes := [hexDigit (b.toNat / 16), hexDigit (b.toNat % 16)]

/-- One decimal digit. -/
def decDigit (n : Nat) : Byte := BitVec.ofNat 8 (48 + n)

/-- `fmt.Sprintf("%d", b)` for a byte: decimal without leading zeros. -/
def decByte (b : Byte) : Bytes :=
  let n := b.toNat
  if n < 10 then [decDigit n]
  else if n < 100 then [decDigit (n / 10), decDigit (n % 10)]
  else [decDigit (n / 100), decDigit (n / 10 % 10), decDigit (n % 10)]

/-- `fmt` padding on the left with spaces (`%5v`, `%8s`). -/
def padLeft (w : Nat) (s : Bytes) : Bytes := List.replicate (w - s.length) (ch ' ') ++ s

/-- `fmt` padding on the right with spaces (`%-5s`). -/
def padRight (w : Nat) (s : Bytes) : Bytes := s ++ List.replicate (w - s.length) (ch ' ')

/-- A byte with the top bits 10: not the first of a character. -/
def isCont (b : Byte) : Bool := decide (0x80 ≤ b.toNat) && decide (b.toNat ≤ 0xbf)

/-- `utf8.DecodeRune`: the first character and how many bytes it takes; wrong text gives U+FFFD and 1 byte. -/
def decodeRune : Bytes → Nat × Nat
  | [] => (0xfffd, 0)
  | b :: s =>
    if b.toNat < 0x80 then (b.toNat, 1)
    else if b.toNat < 0xc2 then (0xfffd, 1)
    else if b.toNat < 0xe0 then
      match s with
      | c :: _ => if isCont c then ((b.toNat - 0xc0) * 64 + (c.toNat - 0x80), 2) else (0xfffd, 1)
      | _ => (0xfffd, 1)
    else if b.toNat < 0xf0 then
      match s with
      | c :: d :: _ =>
        if isCont c && isCont d && (b.toNat != 0xe0 || decide (0xa0 ≤ c.toNat)) && (b.toNat != 0xed || decide (c.toNat ≤ 0x9f)) then
          ((b.toNat - 0xe0) * 4096 + (c.toNat - 0x80) * 64 + (d.toNat - 0x80), 3)
        else (0xfffd, 1)
      | _ => (0xfffd, 1)
    else if b.toNat < 0xf5 then
      match s with
      | c :: d :: e :: _ =>
        if isCont c && isCont d && isCont e && (b.toNat != 0xf0 || decide (0x90 ≤ c.toNat)) && (b.toNat != 0xf4 || decide (c.toNat ≤ 0x8f)) then
          ((b.toNat - 0xf0) * 262144 + (c.toNat - 0x80) * 4096 + (d.toNat - 0x80) * 64 + (e.toNat - 0x80), 4)
        else (0xfffd, 1)
      | _ => (0xfffd, 1)
    else (0xfffd, 1)

/-- `utf8.DecodeLastRune`, on the reversed text: the last character and how many bytes it takes. Go looks back over at most three
bytes for the start of the character. -/
def decodeLastRune : Bytes → Nat × Nat
  | [] => (0xfffd, 0)
  | b :: s =>
    if b.toNat < 0x80 then (b.toNat, 1)
    else
      match (s.take 3).findIdx? (fun c => !isCont c) with
      | none => (0xfffd, 1)
      | some i =>
        let r := decodeRune ((b :: s).take (i + 2)).reverse
        if r.2 = i + 2 then r else (0xfffd, 1)

/-- `unicode.IsSpace`; the table of `fmt`'s `isSpace` is the same. -/
def isSpaceRune (r : Nat) : Bool :=
  (decide (9 ≤ r) && decide (r ≤ 13)) || r == 0x20 || r == 0x85 || r == 0xa0 || r == 0x1680 || (decide (0x2000 ≤ r) && decide (r ≤ 0x200a))
    || r == 0x2028 || r == 0x2029 || r == 0x202f || r == 0x205f || r == 0x3000

/-- The number of bytes of the white space character the text starts with, 0 if it starts with something else. -/
def spaceLen (s : Bytes) : Nat := if isSpaceRune (decodeRune s).1 then (decodeRune s).2 else 0

/-- The same for the end of the text, which is given reversed. -/
def lastSpaceLen (s : Bytes) : Nat := if isSpaceRune (decodeLastRune s).1 then (decodeLastRune s).2 else 0

/-- `strings.Split(s, "")`: the characters; the first argument is at least the length of the text. -/
def charsOf : Nat → Bytes → List Bytes
  | 0, _ => []
  | _ + 1, [] => []
  | n + 1, b :: s => (b :: s).take (decodeRune (b :: s)).2 :: charsOf n ((b :: s).drop (decodeRune (b :: s)).2)

/-- Value of a hex digit, upper or lower case (digits accepted by `%x`). -/
def hexVal (b : Byte) : Option Nat :=
  let n := b.toNat
  if 48 ≤ n ∧ n ≤ 57 then some (n - 48)
  else if 97 ≤ n ∧ n ≤ 102 then some (n - 87)
  else if 65 ≤ n ∧ n ≤ 70 then some (n - 55)
  else none

/-- `(*ss).SkipSpace` of package fmt for `Sscanf`: skips blanks, a newline is an
error (`none`). The first argument is the number of bytes of the current character still to be passed. -/
def skipSpaceAux : Nat → Bytes → Option Bytes
  | _, [] => some []
  | n + 1, _ :: s => skipSpaceAux n s
  | 0, b :: s => if b = 0x0a#8 then none else if spaceLen (b :: s) = 0 then some (b :: s) else skipSpaceAux (spaceLen (b :: s) - 1) s

/-- `(*ss).SkipSpace` from the start of a character. -/
def skipSpace (s : Bytes) : Option Bytes := skipSpaceAux 0 s

/-- The longest run of hex digits of at most `w` characters, and the rest
(`(*ss).scanNumber` under a width limit). -/
def takeHex : Nat → Bytes → List Nat × Bytes
  | 0, s => ([], s)
  | _ + 1, [] => ([], [])
  | w + 1, b :: s =>
    match hexVal b with
    | none => ([], b :: s)
    | some v => let r := takeHex w s; (v :: r.1, r.2)

/-- Value of a list of hex digits (`strconv.ParseUint(tok, 16, 64)`; values that
do not fit a byte are rejected by the caller, so unbounded `Nat` is exact). -/
def hexNumber (ds : List Nat) : Nat := ds.foldl (fun a d => 16 * a + d) 0

/-- Scanning one `%x` (width `none`) or `%2x`/`%02x` (width `some 2`) into a `byte`
(`(*ss).scanUint` with bit size 8): skip blanks, at least one digit, value must
fit. Without width fmt's limit is 2^30 characters, here the whole input. -/
def scanHexByte (w : Option Nat) (s : Bytes) : Option (Byte × Bytes) :=
  match skipSpace s with
  | none => none
  | some s =>
    let r := takeHex (w.getD s.length) s
    if r.1 = [] then none
    else if 255 < hexNumber r.1 then none
    else some (BitVec.ofNat 8 (hexNumber r.1), r.2)

/-- A literal character in a scan format. -/
def scanLit (c : Byte) : Bytes → Option Bytes
  | [] => none
  | b :: s => if b = c then some s else none

/-- Decimal digits to a number, `none` if a character is not a digit. -/
def decNumber : Nat → Bytes → Option Nat
  | acc, [] => some acc
  | acc, b :: s =>
    if 48 ≤ b.toNat ∧ b.toNat ≤ 57 then decNumber (10 * acc + (b.toNat - 48)) s else none

/-- The 64-bit range check of `strconv.Atoi`. -/
def inInt64 (i : Int) : Option Int :=
  if -9223372036854775808 ≤ i ∧ i ≤ 9223372036854775807 then some i else none

/-- `strconv.Atoi`: optional sign, at least one decimal digit, value within 64 bits. -/
def atoi : Bytes → Option Int
  | [] => none
  | b :: s =>
    if b = ch '+' then (if s = [] then none else (decNumber 0 s).bind fun n => inInt64 n)
    else if b = ch '-' then (if s = [] then none else (decNumber 0 s).bind fun n => inInt64 (-(n : Int)))
    else (decNumber 0 (b :: s)).bind fun n => inInt64 n

/-- `bytes.Fields` with the number of bytes of the current white space character still to be passed and the field read so far
(reversed). -/
def fieldsAux : Nat → Bytes → Bytes → List Bytes
  | _, acc, [] => if acc = [] then [] else [acc.reverse]
  | n + 1, acc, _ :: s => fieldsAux n acc s
  | 0, acc, b :: s =>
    if spaceLen (b :: s) = 0 then fieldsAux 0 (b :: acc) s
    else if acc = [] then fieldsAux (spaceLen (b :: s) - 1) [] s
    else acc.reverse :: fieldsAux (spaceLen (b :: s) - 1) [] s

/-- `bytes.Fields`: maximal runs of non-space characters. -/
def fields (s : Bytes) : List Bytes := fieldsAux 0 [] s

/-- `strings.Split(s, "\n")` with the current line as accumulator (reversed). -/
def splitLinesAux : Bytes → Bytes → List Bytes
  | acc, [] => [acc.reverse]
  | acc, b :: s =>
    if b = 0x0a#8 then acc.reverse :: splitLinesAux [] s else splitLinesAux (b :: acc) s

/-- `strings.Split(s, "\n")`. -/
def splitLines (s : Bytes) : List Bytes := splitLinesAux [] s

/-- Drop leading white space characters, the length of which `len` tells; the second argument is the number of bytes of the current one
still to be dropped. -/
def dropSpace (len : Bytes → Nat) : Nat → Bytes → Bytes
  | _, [] => []
  | n + 1, _ :: s => dropSpace len n s
  | 0, b :: s => if len (b :: s) = 0 then b :: s else dropSpace len (len (b :: s) - 1) s

/-- `strings.TrimSpace`. -/
def trimSpace (s : Bytes) : Bytes := (dropSpace lastSpaceLen 0 (dropSpace spaceLen 0 s).reverse).reverse

end Insteon
