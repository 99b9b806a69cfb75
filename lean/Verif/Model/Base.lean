/-
Basic vocabulary of the model: bytes, error values, outcomes.
-/

namespace Insteon

/-- Go `byte`. -/
abbrev Byte := BitVec 8

/-- Go `[]byte` and `string` (contents only; capacity and aliasing are not
represented, see DESIGN.md). -/
abbrev Bytes := List Byte

/-- Error values. One constructor per sentinel error of the code base, so that
Go's `err == ErrX` is constructor equality. `wrapped` is `fmt.Errorf("..%w", e)`:
a new value different from `e` for which `errors.Is(_, e)` holds. `other n` is
any error created on the spot by `errors.New`/`fmt.Errorf` without `%w` or
produced by the environment.

Sources: error.go 24-69, devices/error.go 7-47, plm/plm.go 32-42,
util/link.go 30-36, util/database.go 164-167, Go's io package. -/
inductive Err where
  -- insteon (error.go)
  | bufferTooShort | insReadTimeout | insNotImplemented | unknownCommand | preNak | addrFormat
  -- devices (devices/error.go)
  | devReadTimeout | notLinked | unexpectedResponse | noLoadDetected | illegalValue
  | incorrectChecksum | linkIndexOutOfRange | invalidThermostatMode | invalidUnit
  | invalidFanSpeed | invalidResponse | devNak
  -- plm (plm/plm.go)
  | plmReadTimeout | noSync | plmNotImplemented | noAck | wrongAck | wrongPayload | plmNak
  -- util
  | alreadyLinked | linkNotFound | notSaveable | notLoadable
  -- io / bufio
  | eof | unexpectedEOF | invalidUnread
  -- wrapping and everything else
  | wrapped (e : Err)
  | other (n : Nat)
deriving DecidableEq, Repr

/-- Go `errors.Is(e, target)`: equality with the error or anything it wraps. -/
def Err.is : Err → Err → Bool
  | .wrapped e, t => decide (Err.wrapped e = t) || Err.is e t
  | e, t => decide (e = t)

/-- Result of a Go function that can return a value, return an error, or panic
(index out of range, nil dereference). -/
inductive Out (α : Type) where
  | ok (a : α)
  | err (e : Err)
  | panic
deriving DecidableEq, Repr

end Insteon
