import Verif.Spec.Bytes

/-! GOST R 34.12-2015, the 64-bit cipher ("Magma"), written from the standard. Words of 32
bits are natural numbers below 2^32. -/

namespace Gost.Spec.Magma

/-- The substitutions π'_0, …, π'_7. -/
def piTables : List (List Nat) := [
  [12, 4, 6, 2, 10, 5, 11, 9, 14, 8, 13, 7, 0, 3, 15, 1],
  [6, 8, 2, 3, 9, 10, 5, 12, 1, 14, 4, 7, 11, 13, 0, 15],
  [11, 3, 5, 8, 2, 15, 10, 13, 14, 1, 7, 4, 12, 9, 6, 0],
  [12, 8, 2, 1, 13, 4, 15, 6, 7, 0, 10, 5, 3, 14, 9, 11],
  [7, 15, 5, 10, 8, 1, 6, 13, 0, 9, 3, 14, 11, 4, 2, 12],
  [5, 13, 15, 6, 9, 2, 12, 10, 11, 7, 8, 1, 4, 3, 14, 0],
  [8, 14, 2, 5, 6, 9, 1, 12, 15, 4, 11, 0, 13, 10, 3, 7],
  [1, 7, 14, 13, 0, 5, 8, 3, 4, 15, 10, 6, 9, 12, 11, 2]]

/-- π'_i. -/
def pi (i x : Nat) : Nat := (piTables.getD i []).getD x 0

/-- Σ_{i<n} π'_i(a_i) 16^i, where a = Σ a_i 16^i with four-bit digits a_i. -/
def tSum (a : Nat) : Nat → Nat
  | 0 => 0
  | n + 1 => tSum a n + pi n (a / 16 ^ n % 16) * 16 ^ n

/-- t(a): π'_i on the four-bit digit a_i of the 32-bit word a. -/
def t (a : Nat) : Nat := tSum a 8

/-- Cyclic shift of a 32-bit word by 11 positions towards the higher digits. -/
def rotl11 (a : Nat) : Nat := a * 2 ^ 11 % 2 ^ 32 + a / 2 ^ 21

/-- g[k](a) = rotl11(t(a ⊞ k)). -/
def g (k a : Nat) : Nat := rotl11 (t ((a + k) % 2 ^ 32))

/-- G[k](a_1, a_0) = (a_0, g[k](a_0) ⊕ a_1). -/
def G (k : Nat) (a : Nat × Nat) : Nat × Nat := (a.2, g k a.2 ^^^ a.1)

/-- The 32-bit word number `i` of the key, counted from the left. -/
def keyWord (key : List UInt8) (i : Nat) : Nat := beNat ((key.drop (4 * i)).take 4)

/-- Subkey K_{n+1}, n = 0..31: K_1..K_8 are the words of the key, repeated three times in
order and then once in reverse order. -/
def subkey (key : List UInt8) (n : Nat) : Nat :=
  if n < 24 then keyWord key (n % 8) else keyWord key (7 - n % 8)

/-- E(a_1 ‖ a_0) = G*[K_32] G[K_31] … G[K_1](a_1, a_0), where G*[k] is G[k] followed by
writing the two halves in the opposite order. -/
def encrypt (key block : List UInt8) : List UInt8 :=
  let a := (List.range 32).foldl (fun a n => G (subkey key n) a)
    (beNat (block.take 4), beNat (block.drop 4))
  beBytes 4 a.2 ++ beBytes 4 a.1

end Gost.Spec.Magma
