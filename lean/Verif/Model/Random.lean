import Verif.Model.Streebog

/-! Model of `gostrandom/r_1323565_1_006_2017.py`. -/

namespace Gost

/-- `2 ** ((_SIZE_M - size_s) * 8)`, r_1323565_1_006_2017.py 93, exact for `size_s ≤ 64`. For a
larger `size_s` Python computes a float: between 0 and 1 up to `size_s = 198`, for which the
comparison with an integer has the same outcome as with 1, and 0.0 (underflow) above. -/
def randLimit (sizeS : Nat) : Nat := if sizeS ≤ 198 then 2 ^ ((64 - sizeS) * 8) else 0

/-- State of an `R132356510062017` object. (`size_s` is modelled as a natural number.) -/
structure Rand where
  sizeS : Nat
  randU : Bytes
  q : Int
  r : Int
  limit : Nat
  hash : HashObj
deriving DecidableEq, Repr

namespace Rand

/-- The seed part of `__init__` and of `reset`, r_1323565_1_006_2017.py 82-90 and 157-164:
the new value of `_rand_u`. `rand` is what `os.urandom(size_s)` returns. -/
def seed (rand : Bytes) (sizeS : Nat) (randK : PyVal) : Res Bytes :=
  if randK.isEmpty then .ok (rand ++ zeros (64 - (sizeS : Int) - 1))
  else if !checkValue randK sizeS then
    .error (.randomError "GOSTRandomError: invalid seed value")
  else .ok ((randK.data?.getD []) ++ zeros (64 - (sizeS : Int) - 1))

/-- `__init__` and `new`, r_1323565_1_006_2017.py 38-58 and 71-94. -/
def new (rand : Bytes) (randSize : Int) (randK : Option PyVal := none) (sizeS : Nat := 48) :
    Res Rand := do
  let u ← seed rand sizeS (randK.getD (.bytearray []))
  pure ⟨sizeS, u, randSize.fdiv 64, randSize.fmod 64, randLimit sizeS,
    HashObj.hashInit "streebog512"⟩

/-- `_inc_rand_u`, r_1323565_1_006_2017.py 115-117. Precedence makes this
`int + (1 % 2**63)`, i.e. `int + 1`. -/
def incRandU (u : Bytes) : Bytes :=
  intToBytes ((bytesToInt u + 1 % (2 ^ (64 - 1)) : Nat) : Int) (64 - 1)

/-- `_rand_iter`, r_1323565_1_006_2017.py 105-113. -/
def randIter (s : Rand) : Rand × Res Bytes :=
  if bytesToInt (pyFrom s.randU s.sizeS) ≥ s.limit then
    ({ s with randU := zeroFill s.randU },
      .error (.randomError "GOSTRandomError: exceeded the limit value of the counter"))
  else
    let u := incRandU s.randU
    let h := s.hash.updateBytes u
    let result := h.digest
    ({ s with randU := u, hash := h.reset }, .ok result)

/-- The `while` loop of `random`, r_1323565_1_006_2017.py 136-138, for `n` iterations. -/
def loop : Nat → Rand → Bytes → Rand × Res Bytes
  | 0, s, result => (s, .ok result)
  | n + 1, s, result =>
    match s.randIter with
    | (s, .error e) => (s, .error e)
    | (s, .ok b) => loop n s (result ++ b)

/-- `random`, r_1323565_1_006_2017.py 119-141. -/
def random (s : Rand) : Rand × Res Bytes :=
  if bytesToInt (pyUpto s.randU s.sizeS) = 0 then
    (s, .error (.randomError "GOSTRandomError: the seed value is zero"))
  else
    match loop s.q.toNat s [] with
    | (s, .error e) => (s, .error e)
    | (s, .ok result) =>
      if s.r ≠ 0 then
        match s.randIter with
        | (s, .error e) => (s, .error e)
        | (s, .ok b) => (s, .ok (result ++ pySlice b (64 - s.r) 64))
      else (s, .ok result)

/-- `reset`, r_1323565_1_006_2017.py 143-165. -/
def reset (rand : Bytes) (s : Rand) (randK : PyVal := .bytearray []) : Rand × Res Unit :=
  match seed rand s.sizeS randK with
  | .error e => (s, .error e)
  | .ok u => ({ s with randU := u, hash := s.hash.reset }, .ok ())

/-- `clear`, r_1323565_1_006_2017.py 167-170. -/
def clear (s : Rand) : Rand := { s with randU := zeroFill s.randU }

end Rand
end Gost
