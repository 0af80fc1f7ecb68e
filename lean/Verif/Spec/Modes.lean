import Verif.Spec.Bytes
import Verif.Spec.Blocks

/-! GOST R 34.13-2015, what the properties of the modes need. -/

namespace Gost.Spec

/-- Sum modulo 2 of two byte strings (as long as the shorter one). -/
def xor (a b : List UInt8) : List UInt8 := List.zipWith (· ^^^ ·) a b

/-- Counter block number `i` of the counter mode with blocks of `n` bytes: the initialisation
vector followed by zeros, incremented `i` times as a number modulo 2^(8n). -/
def ctrBlock (n : Nat) (iv : List UInt8) (i : Nat) : List UInt8 :=
  beBytes n ((beNat (iv ++ List.replicate (n - iv.length) 0) + i) % 256 ^ n)

/-- `k` blocks of the keystream beginning with block number `i`. -/
def ctrKeystream (E : List UInt8 → List UInt8) (n : Nat) (iv : List UInt8) (i k : Nat) : List UInt8 :=
  ((List.range k).map fun j => E (ctrBlock n iv (i + j))).flatten

/-- The number of blocks of `n` bytes which `d` occupies, the last one possibly short. -/
def blockCount (n : Nat) (d : List UInt8) : Nat := (d.length + n - 1) / n

end Gost.Spec
