import Verif.Model.Curves

/-! What the parameters of a signature object have to satisfy. -/

namespace Gost.Sig

/-- The values of the dictionary with the defaults of the code. -/
def given (mode : Int) (c : CurveParams) : Sig where
  size := if mode = 1 then 32 else 64
  p := c.p.getD 1
  a := c.a.getD 0
  b := c.b.getD 0
  e := c.e.getD 0
  d := c.d.getD 0
  m := c.m.getD 1
  q := c.q.getD 1
  x := c.x.getD 0
  y := c.y.getD 0
  u := c.u.getD 0
  v := c.v.getD 0

/-- No canonical coefficient and no canonical coordinate: the parameters are taken as Edwards ones. -/
def Edwards (s : Sig) : Prop := s.a = 0 ∧ s.b = 0 ∧ s.x = 0 ∧ s.y = 0

/-- y^2 = x^3 + a*x + b modulo p. -/
def OnCurve (s : Sig) : Prop := s.p ∣ s.y ^ 2 - (s.x ^ 3 + s.a * s.x + s.b)

/-- The range of the group order: [2^254, 2^256] or [2^508, 2^512]. -/
def OrderRange (s : Sig) : Prop :=
  (s.size = 32 ∧ 2 ^ 254 ≤ s.q ∧ s.q ≤ 2 ^ 256) ∨ (s.size = 64 ∧ 2 ^ 508 ≤ s.q ∧ s.q ≤ 2 ^ 512)

/-- The condition of the standard on the orders of `p` modulo `q`. -/
def Mov (s : Sig) : Prop :=
  ∀ t : Nat, 1 ≤ t → t ≤ (if s.size = 32 then 31 else 131) → ¬ s.q ∣ s.p ^ t - 1

/-- The parameters which the code accepts. -/
def Acceptable (s : Sig) : Prop := s.p ≠ 0 ∧ s.m ≠ s.p ∧ OnCurve s ∧ OrderRange s

end Gost.Sig
