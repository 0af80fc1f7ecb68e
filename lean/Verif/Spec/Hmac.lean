import Verif.Spec.HashCalls

/-! HMAC (R 50.1.113-2016) and PBKDF2 (R 50.1.111-2016). -/

namespace Gost.Spec

/-- The key extended with zero bytes to the block size of the hash function. -/
def hmacKey (key : List UInt8) : List UInt8 := key ++ List.replicate (64 - key.length) 0

/-- A string combined with a constant byte. -/
def xorByte (K : List UInt8) (c : UInt8) : List UInt8 := K.map fun b => b ^^^ c

/-- HMAC(K, M) = H(K ⊕ opad || H(K ⊕ ipad || M)). -/
def hmac (H : List UInt8 → List UInt8) (key M : List UInt8) : List UInt8 :=
  H (xorByte (hmacKey key) 0x5c ++ H (xorByte (hmacKey key) 0x36 ++ M))

/-- The hash function belonging to a name of the HMAC module. -/
def hmacHash (name : String) : String :=
  if name = "HMAC_GOSTR3411_2012_256" then "streebog256" else "streebog512"

/-- The two names. -/
def IsHmacName (name : String) : Prop :=
  name = "HMAC_GOSTR3411_2012_256" ∨ name = "HMAC_GOSTR3411_2012_512"

/-- U_1 = F(P, S || INT(i)), U_(j+1) = F(P, U_j); `pbkdfU F S i j` is U_(j+1). -/
def pbkdfU (F : List UInt8 → List UInt8) (S : List UInt8) (i : Nat) : Nat → List UInt8
  | 0 => F (S ++ beBytes 4 i)
  | j + 1 => F (pbkdfU F S i j)

/-- U_1 ⊕ … ⊕ U_(j+1). -/
def pbkdfXor (F : List UInt8 → List UInt8) (S : List UInt8) (i : Nat) : Nat → List UInt8
  | 0 => pbkdfU F S i 0
  | j + 1 => List.zipWith (fun x y => x ^^^ y) (pbkdfXor F S i j) (pbkdfU F S i (j + 1))

/-- T_i for `c ≥ 1` iterations. -/
def pbkdfT (F : List UInt8 → List UInt8) (S : List UInt8) (c i : Nat) : List UInt8 :=
  pbkdfXor F S i (c - 1)

/-- T_1 || … || T_k. -/
def pbkdfBlocks (F : List UInt8 → List UInt8) (S : List UInt8) (c : Nat) : Nat → List UInt8
  | 0 => []
  | k + 1 => pbkdfBlocks F S c k ++ pbkdfT F S c (k + 1)

/-- The first `n` bytes of T_1 || T_2 || …; `n` blocks are always enough. -/
def pbkdf2 (F : List UInt8 → List UInt8) (S : List UInt8) (c n : Nat) : List UInt8 :=
  (pbkdfBlocks F S c n).take n

/-! Calls on an HMAC object. -/

/-- A call; `none` as an argument is a value which is not a byte object. -/
inductive HmacCall where
  | update (v : Option (List UInt8))
  | digest
  | hexdigest
  | reset
  | clear
deriving DecidableEq

/-- Whether an update was accepted since the object was created or reset. -/
def hmacStartStep (st : Bool) : HmacCall → Bool
  | .update (some _) => true
  | .update none => st
  | .digest => st
  | .hexdigest => st
  | .reset => false
  | .clear => st

def hmacStarted (cs : List HmacCall) : Bool := cs.foldl hmacStartStep false

end Gost.Spec
