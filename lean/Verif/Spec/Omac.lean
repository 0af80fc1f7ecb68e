import Verif.Spec.Modes

/-! The message authentication code of GOST R 34.13-2015 (section 5.6), written from the
standard. `E` is the block encryption, `n` the block size in bytes (8 or 16). -/

namespace Gost.Spec

/-- The constant B_64 = 0…011011 or B_128 = 0…010000111, as a number. -/
def macB (n : Nat) : Nat := if n = 8 then 0x1b else 0x87

/-- Multiplication by the variable in GF(2^(8n)): the string shifted left by one bit, plus `macB n`
if the bit shifted out is one. -/
def macDouble (n : Nat) (v : List UInt8) : List UInt8 :=
  if beNat v < 2 ^ (8 * n - 1) then beBytes n (2 * beNat v)
  else xor (beBytes n (2 * beNat v - 2 ^ (8 * n))) (beBytes n (macB n))

/-- The auxiliary keys. -/
def macKey1 (E : List UInt8 → List UInt8) (n : Nat) : List UInt8 :=
  macDouble n (E (List.replicate n 0))

def macKey2 (E : List UInt8 → List UInt8) (n : Nat) : List UInt8 := macDouble n (macKey1 E n)

/-- C_i = E(P_i ⊕ C_{i-1}). -/
def macChain (E : List UInt8 → List UInt8) (c : List UInt8) (P : List (List UInt8)) : List UInt8 :=
  P.foldl (fun c p => E (xor p c)) c

/-- The MAC of a message before truncation: E(P*_q ⊕ C_{q-1} ⊕ K*), where P*_q is the last block
and K* = K1 if it is complete, and otherwise the last block padded with 0x80 0x00 … and K* = K2. -/
def omac (E : List UInt8 → List UInt8) (n : Nat) (msg : List UInt8) : List UInt8 :=
  if msg ≠ [] ∧ msg.length % n = 0 then
    E (xor (xor ((blocks n msg).getLastD []) (macChain E (List.replicate n 0) (blocks n msg).dropLast))
      (macKey1 E n))
  else
    E (xor (xor (rest n msg ++ 0x80 :: List.replicate (n - 1 - msg.length % n) 0)
      (macChain E (List.replicate n 0) (blocks n msg))) (macKey2 E n))

end Gost.Spec
