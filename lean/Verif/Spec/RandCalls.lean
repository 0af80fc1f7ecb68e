import Verif.Spec.Random

/-! What a generator object must return for any mixture of `random`, `reset` and `clear` calls. -/

namespace Gost.Spec

/-- A call, with the seed which counts: the one given, or the one drawn from the system. -/
inductive RandOp where
  | random
  | clear
  | seed (s : List UInt8)
  | badSeed

/-- The answer to a call. -/
inductive RandAns where
  | bytes (b : List UInt8)
  | zeroSeed
  | done
  | invalidSeed
  | overLimit

/-- What counts of the past: the last accepted seed and the number of blocks drawn from it, or
nothing if the object has been cleared since. -/
abbrev RandPast := Option (List UInt8 × Nat)

/-- One call. The seed is followed by zeros up to 63 bytes. A cleared object gives no output; the
refusal is that of the counter limit, because the package clears with non-zero bytes. -/
def randCall (H : List UInt8 → List UInt8) (sizeS size : Nat) (p : RandPast) :
    RandOp → RandPast × RandAns
  | .random =>
    match p with
    | none => (none, if sizeS = 0 then .zeroSeed else if size = 0 then .bytes [] else .overLimit)
    | some (s, k) =>
      if beNat ((randReg (s ++ List.replicate (63 - sizeS) 0) k).take sizeS) = 0 then (p, .zeroSeed)
      else (some (s, k + randUsed size),
        .bytes (randOut H (beNat (s ++ List.replicate (63 - sizeS) 0)) k size))
  | .clear => (none, .done)
  | .seed s => (some (s, 0), .done)
  | .badSeed => (p, .invalidSeed)

/-- The answers to a sequence of calls. -/
def randAnswers (H : List UInt8 → List UInt8) (sizeS size : Nat) :
    RandPast → List RandOp → List RandAns
  | _, [] => []
  | p, o :: os => (randCall H sizeS size p o).2 :: randAnswers H sizeS size (randCall H sizeS size p o).1 os

end Gost.Spec
