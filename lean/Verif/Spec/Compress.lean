import Verif.Spec.Streebog

/-! The applications of the compression function g while a message is hashed. -/

namespace Gost.Spec.Streebog

/-- One application g_N(h, m). -/
structure Call where
  N : Nat
  h : List UInt8
  m : List UInt8
deriving DecidableEq, Repr

def Call.result (c : Call) : List UInt8 := g c.N c.h c.m

/-- Those of stage 2. -/
def blockCalls (v : Vars) : List (List UInt8) → List Call
  | [] => []
  | m :: ms => ⟨v.N, v.h, m⟩ :: blockCalls (step v m) ms

/-- Those of stage 3: the padded rest, the length, the checksum. -/
def lastCalls (v : Vars) (M : List UInt8) : List Call :=
  let m := M ++ [1] ++ List.replicate (63 - M.length) 0
  let h1 := g v.N v.h m
  let h2 := g 0 h1 (leBytes 64 ((v.N + 8 * M.length) % 2 ^ 512))
  [⟨v.N, v.h, m⟩, ⟨0, h1, leBytes 64 ((v.N + 8 * M.length) % 2 ^ 512)⟩,
   ⟨0, h2, leBytes 64 ((v.sum + leNat m) % 2 ^ 512)⟩]

/-- All of them, in order. -/
def calls (iv M : List UInt8) : List Call :=
  blockCalls ⟨iv, 0, 0⟩ (blocks 64 M) ++ lastCalls (absorb iv M) (rest 64 M)

end Gost.Spec.Streebog
