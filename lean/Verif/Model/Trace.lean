import Verif.Model.Signature

/-! The comparisons of `utils.py` and the scalar multiplication of the signature once more, this time with a record of
the operations which are carried out, in their order. The record is what an observer of the running time could learn
at best; the time of a single operation on Python numbers is not modelled. -/

namespace Gost

/-- The operations of `compare` and `compare_to_zero`: the test of the lengths, reading the byte with the given index
of the first or second operand, the exclusive or of two bytes, the addition to `res_check`, and the final `not`. -/
inductive Step where
  | lengths
  | readA (i : Nat)
  | readB (i : Nat)
  | xor
  | add
  | finish
  deriving DecidableEq, Repr

/-- The loop of `compare`, utils.py 133-135; `is` are the indices which remain. -/
def compareLoopT (a b : Bytes) : List Nat → List Step → Nat → List Step × Nat
  | [], t, res => (t, res)
  | i :: is, t, res =>
    compareLoopT a b is (t ++ [.readA i, .readB i, .xor, .add]) (res + (a.getD i 0 ^^^ b.getD i 0).toNat)

/-- `compare`, utils.py 114-136, with its operations. -/
def compareT (a b : Bytes) : List Step × Bool :=
  if a.length != b.length then ([.lengths], false)
  else
    let (t, res) := compareLoopT a b (List.range a.length) [.lengths] 0
    (t ++ [.finish], res == 0)

/-- The loop of `compare_to_zero`, utils.py 153-155. -/
def compareToZeroLoopT (a : Bytes) : List Nat → List Step → Nat → List Step × Nat
  | [], t, res => (t, res)
  | i :: is, t, res =>
    compareToZeroLoopT a is (t ++ [.readA i, .xor, .add]) (res + (a.getD i 0 ^^^ 0).toNat)

/-- `compare_to_zero`, utils.py 139-156, with its operations. -/
def compareToZeroT (a : Bytes) : List Step × Bool :=
  let (t, res) := compareToZeroLoopT a (List.range a.length) [] 0
  (t ++ [.finish], res == 0)

namespace Sig

/-- The two calls of `_add` in `_mul_point`, gost_34_10_2012.py 629 and 630. -/
inductive Call where
  | add
  | double
  deriving DecidableEq, Repr

/-- The loop of `_mul_point`, gost_34_10_2012.py 611-614 and 627-630, with its calls of `_add`. -/
def mulLoopT (s : Sig) : Nat → Int → Int × Int → Int × Int → List Call → Option (List Call × (Int × Int))
  | F, value, next, prev, t =>
    if value = 0 then some (t, next)
    else match F with
      | 0 => none
      | F + 1 =>
        let (t, next) := if value.fmod 2 = 1 then (t ++ [.add], s.add next.1 prev.1 next.2 prev.2) else (t, next)
        let prev := s.add prev.1 prev.1 prev.2 prev.2
        mulLoopT s F (value.fdiv 2) next prev (t ++ [.double])

/-- `_mul_point`, gost_34_10_2012.py 616-631. -/
def mulPointT (s : Sig) (F : Nat) (mulValue : Int) (t : List Call) (xOp : Int := -1) (yOp : Int := -1) :
    Option (List Call × (Int × Int)) :=
  let mulValue := mulValue - 1
  let start := if xOp > 0 ∧ yOp > 0 then (xOp, yOp) else (s.x, s.y)
  mulLoopT s F mulValue start start t

/-- The inner `while` of `sign`, gost_34_10_2012.py 697-700. -/
def signInnerT (s : Sig) (F : Nat) (k : Int) : Nat → Int → List Call → Option (List Call × Int)
  | n, r, t =>
    if !compareToZero (intToBytes r s.size) then some (t, r)
    else match n with
      | 0 => none
      | n + 1 =>
        match s.mulPointT F k t with
        | none => none
        | some (t, c) => signInnerT s F k n (c.1.fmod s.q) t

/-- The outer `while` of `sign`, gost_34_10_2012.py 696-701. -/
def signOuterT (s : Sig) (F : Nat) (d e k : Int) : Nat → Int → Int → List Call → Option (List Call × (Int × Int))
  | n, r, sg, t =>
    if !compareToZero (intToBytes sg s.size) then some (t, (r, sg))
    else match n with
      | 0 => none
      | n + 1 =>
        match signInnerT s F k F r t with
        | none => none
        | some (t, r) => signOuterT s F d e k n r ((r * d + k * e).fmod s.q) t

/-- `sign`, gost_34_10_2012.py 656-704, with its calls of `_add`. -/
def signT (s : Sig) (F : Nat) (rand : Nat → Bytes) (privateKey digest : PyVal)
    (randK : PyVal) : Option (List Call × Res Bytes) :=
  if !checkValue privateKey s.size then
    some ([], .error (.signatureError "GOSTSignatureError: invalid private key value"))
  else if !checkValue digest s.size then
    some ([], .error (.signatureError "GOSTSignatureError: invalid digest value"))
  else do
    let e := s.setE (digest.data?.getD [])
    let randK ← if randK.isEmpty then (s.getRandK F rand).map .bytearray else some randK
    match randK.data? with
    | none => some ([], .error (.signatureError "GOSTSignatureError: invalid random value"))
    | some rk =>
      if (bytesToInt rk : Int) ≥ s.q then
        some ([], .error (.signatureError "GOSTSignatureError: invalid random value"))
      else do
        let d : Int := bytesToInt (privateKey.data?.getD [])
        let k : Int := bytesToInt rk
        let (t, r, sg) ← signOuterT s F d e k F 0 0 []
        some (t, .ok (intToBytes r s.size ++ intToBytes sg s.size))

/-- `public_key_generate`, gost_34_10_2012.py 762-783, with its calls of `_add`. -/
def publicKeyGenerateT (s : Sig) (F : Nat) (privateKey : PyVal) : Option (List Call × Res Bytes) :=
  if !checkValue privateKey s.size then
    some ([], .error (.signatureError "GOSTSignatureError: invalid private key"))
  else do
    let d : Int := bytesToInt (privateKey.data?.getD [])
    let (t, pk) ← s.mulPointT F d []
    some (t, .ok (intToBytes pk.1 s.size ++ intToBytes pk.2 s.size))

end Sig
end Gost
