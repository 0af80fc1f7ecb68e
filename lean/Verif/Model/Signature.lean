import Verif.Model.Utils

/-! Model of `gostsignature/gost_34_10_2012.py` (the curve table is in
`Verif.Model.Curves`).

Python integers are `Int`, `%` is `Int.fmod`, `//` and `>>` round down. A modulus
is never zero once the object exists (proved in `Verif.Props.CurveCheck`), so `%` is
modelled without `ZeroDivisionError` outside the constructor.

Loops which can run forever take a fuel argument `F`: `none` means that the loop
has not finished after `F` iterations. -/

namespace Gost

/-- The dictionary of curve parameters; `none` is a missing key. -/
structure CurveParams where
  p : Option Int := none
  a : Option Int := none
  b : Option Int := none
  e : Option Int := none
  d : Option Int := none
  m : Option Int := none
  q : Option Int := none
  x : Option Int := none
  y : Option Int := none
  u : Option Int := none
  v : Option Int := none
deriving DecidableEq, Repr

/-- State of a `GOST34102012` object. -/
structure Sig where
  size : Nat
  p : Int
  a : Int
  b : Int
  e : Int
  d : Int
  m : Int
  q : Int
  x : Int
  y : Int
  u : Int
  v : Int
deriving DecidableEq, Repr

/-- `MODE_256`, gost_34_10_2012.py 36. -/
def mode256 : Int := 0x01
/-- `MODE_512`, gost_34_10_2012.py 37. -/
def mode512 : Int := 0x02

namespace Sig

theorem natAbs_fmod_lt (v n : Int) (h : n ≠ 0) : (v.fmod n).natAbs < n.natAbs := by
  have h1 := Int.emod_nonneg v h
  have h2 := Int.emod_lt v h
  rw [Int.fmod_eq_emod]
  by_cases hd : n ∣ v
  · have := Int.emod_eq_zero_of_dvd hd
    simp only [hd, or_true, if_true]
    omega
  · by_cases h0 : 0 ≤ n
    · simp only [h0, true_or, if_true]
      omega
    · have h3 : v % n ≠ 0 := fun h4 => hd (Int.dvd_of_emod_eq_zero h4)
      simp only [h0, hd, or_self, if_false]
      omega

/-- `gcdex`, gost_34_10_2012.py 585-591. -/
def gcdex (value nMod : Int) : Int × Int × Int :=
  if h : nMod = 0 then (value, 1, 0)
  else
    let r := gcdex nMod (value.fmod nMod)
    (r.1, r.2.2, r.2.1 - r.2.2 * (value.fdiv nMod))
termination_by nMod.natAbs
decreasing_by exact natAbs_fmod_lt _ _ h

/-- `_invert`, gost_34_10_2012.py 584-595. -/
def invert (value nMod : Int) : Int :=
  let r := (gcdex value nMod).2.1
  if r < 0 then r + nMod else r

/-- `_edvards_to_canonical`, gost_34_10_2012.py 633-642. `% 0` raises. -/
def edvardsToCanonical (s : Sig) : Res Sig :=
  if s.a = 0 ∧ s.b = 0 ∧ s.x = 0 ∧ s.y = 0 then
    if s.p = 0 then .error .zeroDivisionError
    else
      let edS := ((s.e - s.d) * invert 4 s.p).fmod s.p
      let edT := ((s.e + s.d) * invert 6 s.p).fmod s.p
      let a := (edS ^ 2 - 3 * edT ^ 2).fmod s.p
      let b := (2 * edT ^ 3 - edT * edS ^ 2).fmod s.p
      let x := ((edS * (1 + s.v)) * invert (1 - s.v) s.p + edT).fmod s.p
      let y := ((edS * (1 + s.v)) * invert ((1 - s.v) * s.u) s.p).fmod s.p
      .ok { s with a := a, b := b, x := x, y := y }
  else .ok s

/-- `_check_p_m`, gost_34_10_2012.py 543-547. -/
def checkPM (s : Sig) : Bool := !(s.m == s.p)

/-- `_check_x_y`, gost_34_10_2012.py 549-555. -/
def checkXY (s : Sig) : Res Bool :=
  if s.p = 0 then .error .zeroDivisionError
  else
    let right := (s.y * s.y).fmod s.p
    let left := (s.x ^ 3 + s.x * s.a + s.b).fmod s.p
    .ok (right == left)

/-- `_check_p`, gost_34_10_2012.py 557-565. The loop body only executes
`result = result or result`; the only effect is the division by `q`. -/
def checkP (s : Sig) : Res Bool :=
  let checkB := if s.size = 64 then 132 else 32
  (List.range' 1 (checkB - 1)).foldlM (fun result i =>
    if s.q = 0 then .error .zeroDivisionError
    else if (s.p ^ i).fmod s.q = (1 : Int).fmod s.q then .ok (result || result)
    else .ok result) true

/-- `_check_q`, gost_34_10_2012.py 567-571. -/
def checkQ (s : Sig) : Bool :=
  !(s.q < 2 ^ (s.size * 8 - s.size / 16) || s.q > 2 ^ (s.size * 8))

/-- `_check_curve`, gost_34_10_2012.py 573-581, with the short-circuit order of `or`. -/
def checkCurve (s : Sig) : Res Bool :=
  if !s.checkPM then .ok false
  else do
    if !(← s.checkXY) then pure false
    else if !(← s.checkP) then pure false
    else if !s.checkQ then pure false
    else pure true

/-- `__init__`, gost_34_10_2012.py 508-534 (with `_set_size`, 537-541). -/
def init (mode : Int) (c : CurveParams) : Res Sig := do
  let s : Sig := {
    size := if mode = mode256 then 32 else 64
    p := c.p.getD 1, a := c.a.getD 0, b := c.b.getD 0, e := c.e.getD 0, d := c.d.getD 0
    m := c.m.getD 1, q := c.q.getD 1, x := c.x.getD 0, y := c.y.getD 0
    u := c.u.getD 0, v := c.v.getD 0 }
  let s ← s.edvardsToCanonical
  if !(← s.checkCurve) then
    .error (.signatureError "GOSTSignatureError: invalid parameters of the elliptic curve")
  else pure s

/-- `new`, gost_34_10_2012.py 465-484. -/
def new (mode : Int) (c : CurveParams) : Res Sig :=
  if mode ≠ mode256 ∧ mode ≠ mode512 then
    .error (.signatureError "GOSTSignatureError: unsupported signature mode")
  else init mode c

/-- `_add`, gost_34_10_2012.py 597-608. -/
def add (s : Sig) (x1 x2 y1 y2 : Int) : Int × Int :=
  let compareX := compare (intToBytes x1 s.size) (intToBytes x2 s.size)
  let compareY := compare (intToBytes y1 s.size) (intToBytes y2 s.size)
  let grad :=
    if compareX && compareY then
      ((3 * x1 * x1 + s.a) * invert (2 * y1) s.p).fmod s.p
    else
      let dx := (x2 - x1).fmod s.p
      let dy := (y2 - y1).fmod s.p
      (dy * invert dx s.p).fmod s.p
  let x3 := (grad * grad - x1 - x2).fmod s.p
  let y3 := (grad * (x1 - x3) - y1).fmod s.p
  (x3, y3)

/-- The loop of `_mul_point` over `_bits`, gost_34_10_2012.py 611-614 and 627-630. State:
(`x_next`, `y_next`), (`x_prev`, `y_prev`). -/
def mulLoop (s : Sig) : Nat → Int → Int × Int → Int × Int → Option (Int × Int)
  | F, value, next, prev =>
    if value = 0 then some next
    else match F with
      | 0 => none
      | F + 1 =>
        let next := if value.fmod 2 = 1 then s.add next.1 prev.1 next.2 prev.2 else next
        let prev := s.add prev.1 prev.1 prev.2 prev.2
        mulLoop s F (value.fdiv 2) next prev

/-- `_mul_point`, gost_34_10_2012.py 616-631. -/
def mulPoint (s : Sig) (F : Nat) (mulValue : Int) (xOp : Int := -1) (yOp : Int := -1) :
    Option (Int × Int) :=
  let mulValue := mulValue - 1
  let start := if xOp > 0 ∧ yOp > 0 then (xOp, yOp) else (s.x, s.y)
  mulLoop s F mulValue start start

/-- `_get_rand_k`, gost_34_10_2012.py 644-648. `rand i` is the result of the call
number `i` of `os.urandom(size)`. -/
def getRandK (s : Sig) : Nat → (Nat → Bytes) → Option Bytes
  | F, rand =>
    if (bytesToInt (rand 0) : Int) < s.q then some (rand 0)
    else match F with
      | 0 => none
      | F + 1 => getRandK s F (fun i => rand (i + 1))

/-- `_set_e`, gost_34_10_2012.py 650-654. -/
def setE (s : Sig) (digest : Bytes) : Int :=
  let result := (bytesToInt digest : Int).fmod s.q
  if compareToZero (intToBytes result s.size) then 1 else result

/-- The inner `while` of `sign`, gost_34_10_2012.py 697-700. The first argument counts
iterations, `F` is the fuel of `_mul_point`. -/
def signInner (s : Sig) (F : Nat) (k : Int) : Nat → Int → Option Int
  | n, r =>
    if !compareToZero (intToBytes r s.size) then some r
    else match n with
      | 0 => none
      | n + 1 =>
        match s.mulPoint F k with
        | none => none
        | some c => signInner s F k n (c.1.fmod s.q)

/-- The outer `while` of `sign`, gost_34_10_2012.py 696-701. -/
def signOuter (s : Sig) (F : Nat) (d e k : Int) : Nat → Int → Int → Option (Int × Int)
  | n, r, sg =>
    if !compareToZero (intToBytes sg s.size) then some (r, sg)
    else match n with
      | 0 => none
      | n + 1 =>
        match signInner s F k F r with
        | none => none
        | some r => signOuter s F d e k n r ((r * d + k * e).fmod s.q)

/-- `sign`, gost_34_10_2012.py 656-704. -/
def sign (s : Sig) (F : Nat) (rand : Nat → Bytes) (privateKey digest : PyVal)
    (randK : PyVal := .bytearray []) : Option (Res Bytes) :=
  if !checkValue privateKey s.size then
    some (.error (.signatureError "GOSTSignatureError: invalid private key value"))
  else if !checkValue digest s.size then
    some (.error (.signatureError "GOSTSignatureError: invalid digest value"))
  else do
    let e := s.setE (digest.data?.getD [])
    let randK ← if randK.isEmpty then (s.getRandK F rand).map .bytearray else some randK
    match randK.data? with
    | none => some (.error (.signatureError "GOSTSignatureError: invalid random value"))
    | some rk =>
      if (bytesToInt rk : Int) ≥ s.q then
        some (.error (.signatureError "GOSTSignatureError: invalid random value"))
      else do
        let d : Int := bytesToInt (privateKey.data?.getD [])
        let k : Int := bytesToInt rk
        let (r, sg) ← signOuter s F d e k F 0 0
        some (.ok (intToBytes r s.size ++ intToBytes sg s.size))

/-- `_verify_step_1`, gost_34_10_2012.py 711-715. -/
def verifyStep1 (s : Sig) (r sg : Int) : Bool :=
  !(r ≤ 0 || r ≥ s.q || sg ≤ 0 || sg ≥ s.q)

/-- `verify` after the checks of the arguments, gost_34_10_2012.py 743-760. -/
def verifyBytes (s : Sig) (F : Nat) (publicKey digest signature : Bytes) : Option Bool :=
  let pkX : Int := bytesToInt (pyUpto publicKey s.size)
  let pkY : Int := bytesToInt (pyFrom publicKey s.size)
  let r : Int := bytesToInt (pyUpto signature s.size)
  let sg : Int := bytesToInt (pyFrom signature s.size)
  if !s.verifyStep1 r sg then some false
  else do
    let e := s.setE digest
    let v := invert e s.q
    let z1 := (sg * v).fmod s.q
    let z2 := s.q - (r * v).fmod s.q
    let p ← s.mulPoint F z1
    let q ← s.mulPoint F z2 pkX pkY
    let c := s.add p.1 q.1 p.2 q.2
    let rCheck := c.1.fmod s.q
    some (compare (intToBytes rCheck s.size) (intToBytes r s.size))

/-- `verify`, gost_34_10_2012.py 717-760. -/
def verify (s : Sig) (F : Nat) (publicKey digest signature : PyVal) : Option (Res Bool) :=
  if !checkValue publicKey (s.size * 2) then
    some (.error (.signatureError "GOSTSignatureError: invalid public key value"))
  else if !checkValue signature (s.size * 2) then
    some (.error (.signatureError "GOSTSignatureError: invalid signature value"))
  else if !checkValue digest s.size then
    some (.error (.signatureError "GOSTSignatureError: invalid digest value"))
  else
    (s.verifyBytes F (publicKey.data?.getD []) (digest.data?.getD []) (signature.data?.getD [])).map
      .ok

/-- `public_key_generate`, gost_34_10_2012.py 762-783. -/
def publicKeyGenerate (s : Sig) (F : Nat) (privateKey : PyVal) : Option (Res Bytes) :=
  if !checkValue privateKey s.size then
    some (.error (.signatureError "GOSTSignatureError: invalid private key"))
  else do
    let d : Int := bytesToInt (privateKey.data?.getD [])
    let pk ← s.mulPoint F d
    some (.ok (intToBytes pk.1 s.size ++ intToBytes pk.2 s.size))

end Sig
end Gost
