import Verif.Py

/-! Model of `utils/utils.py`. -/

namespace Gost

/-- `check_value`, utils.py 17-34. -/
def checkValue (value : PyVal) (size : Nat) : Bool :=
  match value.data? with
  | some b => b.length == size
  | none => false

/-- `msb`, utils.py 37-45: `value[0] & 0x80`. -/
def msb (value : Bytes) : Res UInt8 := do
  let b ← pyGet value 0
  pure (b &&& 0x80)

/-- `add_xor`, utils.py 48-65: the result has the length of the shorter operand. -/
def addXor (a b : Bytes) : Bytes := List.zipWith (· ^^^ ·) a b

/-- The four bytes of the literal `b'/x00'` of utils.py 80 (a slash, not a
backslash: the characters `/`, `x`, `0`, `0`). -/
def slashX00 : Bytes := [0x2f, 0x78, 0x30, 0x30]

/-- `zero_fill`, utils.py 68-82, on byte objects: `b'/x00' * len(value)`. -/
def zeroFill (value : Bytes) : Bytes :=
  (List.replicate value.length slashX00).flatten

/-- `zero_fill` on any value, utils.py 68-82. -/
def zeroFillVal (value : PyVal) : Bytes :=
  match value.data? with
  | some b => zeroFill b
  | none => []

/-- `bytearray_to_int`, utils.py 85-95 (`int.from_bytes(value, 'big')`). -/
def bytesToInt (value : Bytes) : Nat :=
  value.foldl (fun acc b => acc * 256 + b.toNat) 0

/-- `int_to_bytearray`, utils.py 98-111. `(v & (0xff << 8p)) >> 8p` is written as
`⌊v / 256^p⌋ mod 256`; positions run from `num_byte - 1` down to `0`. -/
def intToBytes (value : Int) (numByte : Nat) : Bytes :=
  (List.range numByte).reverse.map fun pos =>
    UInt8.ofNat ((value / (256 : Int) ^ pos) % 256).toNat

/-- `compare`, utils.py 114-136. -/
def compare (a b : Bytes) : Bool :=
  if a.length != b.length then false
  else
    let res := (List.zip a b).foldl (fun acc (x : UInt8 × UInt8) => acc + (x.1 ^^^ x.2).toNat) 0
    res == 0

/-- `compare_to_zero`, utils.py 139-156. -/
def compareToZero (a : Bytes) : Bool :=
  (a.foldl (fun acc x => acc + (x ^^^ 0).toNat) 0) == 0

end Gost
