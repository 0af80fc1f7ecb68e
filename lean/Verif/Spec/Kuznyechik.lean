import Verif.Spec.Pi

/-! GOST R 34.12-2015, the 128-bit cipher ("Kuznyechik"), written from the standard.
A 128-bit vector `a_15 ‖ … ‖ a_0` is the list `[a_15, …, a_0]`. -/

namespace Gost.Spec

/-- Product of two polynomials over GF(2) of degree below 8 (coefficients are the bits). -/
def clmul (a b : Nat) : Nat :=
  (List.range 8).foldl (fun acc i => if b.testBit i then acc ^^^ (a <<< i) else acc) 0

/-- Remainder modulo x^8 + x^7 + x^6 + x + 1 of a polynomial of degree below 15. -/
def kuzReduce (a : Nat) : Nat :=
  (List.range 7).reverse.foldl
    (fun acc i => if acc.testBit (i + 8) then acc ^^^ (0x1c3 <<< i) else acc) a

/-- Multiplication in GF(2^8). -/
def gfMul (a b : UInt8) : UInt8 := UInt8.ofNat (kuzReduce (clmul a.toNat b.toNat))

namespace Kuz

/-- Bytewise exclusive or of vectors. -/
def xor (a b : List UInt8) : List UInt8 := List.zipWith (· ^^^ ·) a b

/-- The coefficients of ℓ(a_15, …, a_0). -/
def coeffs : List UInt8 := [148, 32, 133, 16, 194, 192, 1, 251, 1, 192, 194, 16, 133, 32, 148, 1]

/-- The linear form ℓ. -/
def ell (a : List UInt8) : UInt8 := (List.zipWith gfMul coeffs a).foldl (· ^^^ ·) 0

/-- R(a_15 ‖ … ‖ a_0) = ℓ(a_15, …, a_0) ‖ a_15 ‖ … ‖ a_1. -/
def R (a : List UInt8) : List UInt8 := ell a :: a.take 15

/-- L = R^16. -/
def L (a : List UInt8) : List UInt8 := Nat.repeat R 16 a

/-- S: π on every byte. -/
def S (a : List UInt8) : List UInt8 := a.map pi

/-- The constant C_i = L(Vec_128(i)). -/
def C (i : Nat) : List UInt8 := L (List.replicate 15 0 ++ [UInt8.ofNat i])

/-- F[k](a_1, a_0) = (LSX[k](a_1) ⊕ a_0, a_1). -/
def F (k : List UInt8) (a : List UInt8 × List UInt8) : List UInt8 × List UInt8 :=
  (xor (L (S (xor k a.1))) a.2, a.1)

/-- (K_{2i+1}, K_{2i+2}): K_1 ‖ K_2 is the key, every next pair comes from the previous one
by eight steps F with the constants C_{8(i-1)+1}, …, C_{8(i-1)+8}. -/
def keyPair (key : List UInt8) : Nat → List UInt8 × List UInt8
  | 0 => (key.take 16, key.drop 16)
  | i + 1 => (List.range 8).foldl (fun a j => F (C (8 * i + j + 1)) a) (keyPair key i)

/-- Round key K_{n+1}, n = 0..9. -/
def roundKey (key : List UInt8) (n : Nat) : List UInt8 :=
  if n % 2 = 0 then (keyPair key (n / 2)).1 else (keyPair key (n / 2)).2

/-- E(a) = X[K_10] LSX[K_9] … LSX[K_1](a). -/
def encrypt (key block : List UInt8) : List UInt8 :=
  xor (roundKey key 9)
    ((List.range 9).foldl (fun a n => L (S (xor (roundKey key n) a))) block)

end Kuz
end Gost.Spec
