import Verif.Spec.Omac

/-! What a MAC object of the package returns for calls of every kind: `update`, `digest`,
`hexdigest`, the public `mac_final`, `clear`, and refused calls. -/

namespace Gost.Spec

/-- What counts of the past. -/
structure MacPast where
  /-- The whole blocks accepted so far, each with the cipher in use at that time: `true` if the
  object had been cleared, by `clear` or by a refused call. -/
  log : List (Bool × List UInt8)
  /-- The bytes after the last whole block. -/
  tail : List UInt8
  /-- `mac_final` has been called on this incomplete end. -/
  final : Bool
  cleared : Bool

/-- A new object. -/
def MacPast.new : MacPast := ⟨[], [], false, false⟩

/-- The last block is complete. -/
def MacPast.whole (p : MacPast) : Bool := p.tail.isEmpty && !p.log.isEmpty

/-- C_i = E(P_i ⊕ C_{i-1}), C_0 = 0. -/
def macLog (E : Bool → List UInt8 → List UInt8) (n : Nat) (X : List (Bool × List UInt8)) : List UInt8 :=
  X.foldl (fun c x => E x.1 (xor x.2 c)) (List.replicate n 0)

/-- The code: as in the standard, but after `mac_final` the incomplete last block is masked with the
key of complete blocks. -/
def macTag (E : Bool → List UInt8 → List UInt8) (K1 K2 : List UInt8) (n : Nat) (p : MacPast) : List UInt8 :=
  if p.whole then
    E p.cleared (xor (xor (p.log.getLastD (false, [])).2 (macLog E n p.log.dropLast)) K1)
  else
    E p.cleared (xor (xor (p.tail ++ 0x80 :: List.replicate (n - 1 - p.tail.length) 0)
      (macLog E n p.log)) (if p.final then K1 else K2))

/-- A call. -/
inductive MacOp where
  | update (d : List UInt8)
  | badUpdate
  | digest (size : Int)
  | hexdigest (size : Int)
  | macFinal
  | clear

/-- An answer. -/
inductive MacAns where
  | done
  | tooShort
  | badText
  | badSize
  | bytes (b : List UInt8)
  /-- The hexadecimal string of these bytes. -/
  | hex (b : List UInt8)
deriving DecidableEq

/-- One call. -/
def macCall (E : Bool → List UInt8 → List UInt8) (K1 K2 : List UInt8) (n : Nat) (p : MacPast) :
    MacOp → MacPast × MacAns
  | .update d =>
    if p.tail.length + d.length < n then (p, .tooShort)
    else ({ p with log := p.log ++ (blocks n (p.tail ++ d)).map fun b => (p.cleared, b)
                   tail := rest n (p.tail ++ d), final := false }, .done)
  | .badUpdate => ({ p with cleared := true }, .badText)
  | .digest size =>
    (p, if (n : Int) < size then .badSize
      else .bytes ((macTag E K1 K2 n p).take (if 0 ≤ size then size.toNat else (size + n).toNat)))
  | .hexdigest size =>
    (p, if (n : Int) < size then .badSize
      else .hex ((macTag E K1 K2 n p).take (if 0 ≤ size then size.toNat else (size + n).toNat)))
  | .macFinal => ({ p with final := p.final || !p.whole }, .bytes (macTag E K1 K2 n p))
  | .clear => ({ p with cleared := true }, .done)

/-- The answers to a sequence of calls. -/
def macAnswers (E : Bool → List UInt8 → List UInt8) (K1 K2 : List UInt8) (n : Nat) :
    MacPast → List MacOp → List MacAns
  | _, [] => []
  | p, o :: os => (macCall E K1 K2 n p o).2 :: macAnswers E K1 K2 n (macCall E K1 K2 n p o).1 os

end Gost.Spec
