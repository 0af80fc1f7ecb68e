/-!
The fragment of Python used by the code: byte strings, argument values,
exceptions as values, indexing and slicing.
-/

namespace Gost

/-- The contents of a `bytes` or `bytearray` object. -/
abbrev Bytes := List UInt8

/-- Exceptions. The package's own exception classes carry the message text. -/
inductive Err where
  | cipherError (msg : String)
  | hashError (msg : String)
  | hmacError (msg : String)
  | pbkdfError (msg : String)
  | randomError (msg : String)
  | oidError (msg : String)
  | signatureError (msg : String)
  | indexError
  | overflowError
  | valueError
  | zeroDivisionError
deriving DecidableEq, Repr

/-- Result of a call: a value or a raised exception. -/
abbrev Res (α : Type) := Except Err α

instance {α : Type} [DecidableEq α] : DecidableEq (Res α) := fun a b =>
  match a, b with
  | .ok x, .ok y => if h : x = y then isTrue (by rw [h]) else isFalse (by simp [h])
  | .error x, .error y => if h : x = y then isTrue (by rw [h]) else isFalse (by simp [h])
  | .ok _, .error _ => isFalse (by simp)
  | .error _, .ok _ => isFalse (by simp)

/-- An argument where byte data is expected. `other` stands for every value that
is neither `bytes` nor `bytearray` and is not equal to an empty bytearray. -/
inductive PyVal where
  | bytes (b : Bytes)
  | bytearray (b : Bytes)
  | other
deriving DecidableEq, Repr

namespace PyVal

/-- `isinstance(v, (bytes, bytearray))`, with the contents. -/
def data? : PyVal → Option Bytes
  | bytes b => some b
  | bytearray b => some b
  | other => none

/-- `v == bytearray(b'')`. -/
def isEmpty : PyVal → Bool
  | bytes b => b.isEmpty
  | bytearray b => b.isEmpty
  | other => false

end PyVal

/-- Clamping of a slice bound for a sequence of length `n`: negative bounds count
from the end, everything is cut to `0..n`. -/
def sliceBound (n : Nat) (i : Int) : Nat :=
  if i < 0 then (i + n).toNat else min i.toNat n

/-- `l[i:j]`. -/
def pySlice {α : Type} (l : List α) (i j : Int) : List α :=
  let s := sliceBound l.length i
  let e := sliceBound l.length j
  (l.drop s).take (e - s)

/-- `l[i:]`. -/
def pyFrom {α : Type} (l : List α) (i : Int) : List α :=
  l.drop (sliceBound l.length i)

/-- `l[:j]`. -/
def pyUpto {α : Type} (l : List α) (j : Int) : List α :=
  l.take (sliceBound l.length j)

/-- `l[i:j] = v` on a bytearray or list (the length may change). -/
def pySliceAssign {α : Type} (l : List α) (i j : Int) (v : List α) : List α :=
  let s := sliceBound l.length i
  let e := max s (sliceBound l.length j)
  l.take s ++ v ++ l.drop e

/-- `l[i]`, raising `IndexError`. -/
def pyGet {α : Type} (l : List α) (i : Int) : Res α :=
  let j := if i < 0 then i + l.length else i
  if j < 0 then .error .indexError
  else match l[j.toNat]? with
    | some x => .ok x
    | none => .error .indexError

/-- `b'\x00' * n`, also for a negative count. -/
def zeros (n : Int) : Bytes := List.replicate n.toNat 0

/-- One lower case hexadecimal digit. -/
def hexDigit (n : Nat) : Char :=
  if n < 10 then Char.ofNat (48 + n) else Char.ofNat (87 + n)

/-- `b.hex()` as a list of characters. -/
def pyHex (b : Bytes) : List Char :=
  b.flatMap fun x => [hexDigit (x.toNat / 16), hexDigit (x.toNat % 16)]

end Gost
