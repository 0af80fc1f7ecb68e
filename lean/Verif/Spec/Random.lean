import Verif.Spec.Bytes

/-! The generator of R 1323565.1.006-2017: U is a 63-byte number; output block `k` is the hash of
U + k. -/

namespace Gost.Spec

/-- The value hashed for block `k` (counted from 1): 63 bytes, so addition is modulo 2^504. -/
def randValue (U k : Nat) : List UInt8 := beBytes 63 (U + k)

/-- Blocks `k+1`, …, `k+n`. -/
def randBlocks (H : List UInt8 → List UInt8) (U k : Nat) : Nat → List UInt8
  | 0 => []
  | n + 1 => randBlocks H U k n ++ H (randValue U (k + n + 1))

/-- `size` bytes of output after `k` blocks have been used: whole blocks and the trailing bytes of
one more block. -/
def randOut (H : List UInt8 → List UInt8) (U k size : Nat) : List UInt8 :=
  randBlocks H U k (size / 64) ++
    if size % 64 = 0 then [] else (H (randValue U (k + size / 64 + 1))).drop (64 - size % 64)

/-- The number of blocks used for `size` bytes. -/
def randUsed (size : Nat) : Nat := (size + 63) / 64

/-- The register after `k` blocks: at first the seed with the zeros. -/
def randReg (u0 : List UInt8) (k : Nat) : List UInt8 :=
  if k = 0 then u0 else randValue (beNat u0) k

/-- The results of `n` calls, after `k` blocks have been used. `none` stands for the refusal because
the seed part of the register is zero, which does not change the register. -/
def randLog (H : List UInt8 → List UInt8) (u0 : List UInt8) (sizeS size : Nat) :
    Nat → Nat → List (Option (List UInt8))
  | _, 0 => []
  | k, n + 1 =>
    if beNat ((randReg u0 k).take sizeS) = 0 then none :: randLog H u0 sizeS size k n
    else some (randOut H (beNat u0) k size) :: randLog H u0 sizeS size (k + randUsed size) n

end Gost.Spec
