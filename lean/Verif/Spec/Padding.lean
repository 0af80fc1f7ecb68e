/-! Padding, independent of the code. -/

namespace Gost.Spec

/-- `out` is `msg` followed by zeros up to a block boundary: fewer than `n` of them, or one
block of them if the message is empty. -/
def ZeroPadded (n : Nat) (msg out : List UInt8) : Prop :=
  ∃ k, out = msg ++ List.replicate k 0 ∧ n ∣ out.length ∧ (msg ≠ [] → k < n) ∧ (msg = [] → k = n)

/-- `out` is `msg` followed by one byte 0x80 and zeros; between one and two blocks were added. -/
def MarkPadded (n : Nat) (msg out : List UInt8) : Prop :=
  ∃ k, out = msg ++ 0x80 :: List.replicate k 0 ∧ n ∣ out.length ∧ n ≤ k + 1 ∧ k + 1 ≤ 2 * n

/-- Procedure 2 of GOST R 34.13-2015: 0x80, then the least number of zeros reaching a block
boundary. -/
def procedure2 (n : Nat) (msg : List UInt8) : List UInt8 :=
  msg ++ 0x80 :: List.replicate (n - 1 - msg.length % n) 0

/-- Removal of the trailing zeros. -/
def stripZeros (d : List UInt8) : List UInt8 := (d.reverse.dropWhile (· == 0)).reverse

/-- Removal of the trailing zeros and of the byte before them. -/
def unpad (d : List UInt8) : List UInt8 := (stripZeros d).dropLast

end Gost.Spec
