import Verif.Model.Text

/-
address.go
-/

namespace Insteon

/-- `type Address uint32` (address.go 25). -/
abbrev Address := BitVec 32

/-- `byte(x)` of an unsigned 32-bit value: truncation. -/
def byte32 (x : BitVec 32) : Byte := x.setWidth 8

/-- `Address.String` (address.go 32-34): `%02x.%02x.%02x` of the low three bytes. -/
def Address.string (a : Address) : Bytes :=
  hex2 (byte32 (a >>> 16)) ++ [ch '.'] ++ hex2 (byte32 (a >>> 8)) ++ [ch '.'] ++ hex2 (byte32 a)

/-- `binary.BigEndian.Uint32` of four bytes. -/
def beUint32 (b0 b1 b2 b3 : Byte) : BitVec 32 :=
  (b0.setWidth 32 <<< 24) ||| (b1.setWidth 32 <<< 16) ||| (b2.setWidth 32 <<< 8) ||| b3.setWidth 32

/-- `fmt.Sscanf(text, "%2x.%2x.%2x", &b[1], &b[2], &b[3])` (address.go 46). Input left over
after the third byte is ignored, as `Sscanf` does. -/
def scanAddress (s : Bytes) : Option (Byte × Byte × Byte) :=
  match scanHexByte (some 2) s with
  | none => none
  | some (b1, s) =>
  match scanLit (ch '.') s with
  | none => none
  | some s =>
  match scanHexByte (some 2) s with
  | none => none
  | some (b2, s) =>
  match scanLit (ch '.') s with
  | none => none
  | some s =>
  match scanHexByte (some 2) s with
  | none => none
  | some (b3, _) => some (b1, b2, b3)

/-- The text handed to `Sscanf`: six characters get dots inserted (address.go 41-43). -/
def dotted (text : Bytes) : Bytes :=
  if text.length = 6 then
    text.take 2 ++ [ch '.'] ++ (text.drop 2).take 2 ++ [ch '.'] ++ (text.drop 4).take 2
  else text

/-- `Address.UnmarshalText` (address.go 39-52). Argument `a` is the receiver; the result
is the receiver afterwards and the error. -/
def Address.unmarshalText (a : Address) (text : Bytes) : Address × Option Err :=
  match scanAddress (dotted text) with
  | none => (a, some .addrFormat)
  | some (b1, b2, b3) => (beUint32 0 b1 b2 b3, none)

/-- `Address.Set` (address.go 55-57). -/
def Address.set (a : Address) (str : Bytes) : Address × Option Err := a.unmarshalText str

/-- Byte `i` of the 4-byte buffer after `copy(b[1:], buf)` (address.go 65-66). -/
def putByte (buf : Bytes) (i : Nat) : Byte := (buf[i]?).getD 0

/-- `Address.Put` (address.go 64-68): the first three bytes of `buf`, missing ones are zero. -/
def Address.put (buf : Bytes) : Address := beUint32 0 (putByte buf 0) (putByte buf 1) (putByte buf 2)

/-- `Address.Bytes` (address.go 70-74): big endian without the top byte. -/
def Address.bytes (a : Address) : Bytes := [byte32 (a >>> 16), byte32 (a >>> 8), byte32 a]

/-- `Address.MarshalText` (address.go 78-80). -/
def Address.marshalText (a : Address) : Bytes := a.string

end Insteon
