import Verif.Model.Signature
import Verif.Spec.Bytes
import Mathlib.AlgebraicGeometry.EllipticCurve.Affine.Point
import Mathlib.Algebra.Field.ZMod
import Mathlib.GroupTheory.OrderOfElement

/-! Elliptic curves (Mathlib's group of points) and the signature scheme of GOST R 34.10-2012. -/

namespace Gost.Sig
open Spec (beNat beBytes)

/-- The curve y^2 = x^3 + a*x + b over the integers modulo `p`, with the parameters of the object. -/
def curve (s : Sig) (p : Nat) : WeierstrassCurve.Affine (ZMod p) :=
  { a₁ := 0, a₂ := 0, a₃ := 0, a₄ := (s.a : ZMod p), a₆ := (s.b : ZMod p) }

/-- The pair of integers `c` is the reduced coordinates of the affine point `P`. -/
def Rep (s : Sig) (p : Nat) (c : Int × Int) (P : (curve s p).Point) : Prop :=
  0 ≤ c.1 ∧ c.1 < p ∧ 0 ≤ c.2 ∧ c.2 < p ∧
    ∃ h : (curve s p).Nonsingular (c.1 : ZMod p) (c.2 : ZMod p), P = .some _ _ h

/-- The object has a curve over a prime field which fits the size, and `P` is its base point, of
odd prime order `q`. -/
structure Good (s : Sig) (p q : Nat) [Fact p.Prime] (P : (curve s p).Point) : Prop where
  hp : s.p = p
  size : p ≤ 256 ^ s.size
  hq : s.q = q
  qprime : q.Prime
  qodd : 2 < q
  qsize : q ≤ 256 ^ s.size
  base : Rep s p (s.x, s.y) P
  order : addOrderOf P = q

/-- The byte string of an affine point: both coordinates, big-endian. -/
def EncodesPoint (s : Sig) (p : Nat) (b : Bytes) (Q : (curve s p).Point) : Prop :=
  ∃ x y : Nat, x < p ∧ y < p ∧ b = beBytes s.size x ++ beBytes s.size y ∧
    ∃ h : (curve s p).Nonsingular (x : ZMod p) (y : ZMod p), Q = .some _ _ h

/-- Step 2 of the standard: e = digest mod q, or 1 if that is 0. -/
def stdE (q : Nat) (digest : Bytes) : Nat := if beNat digest % q = 0 then 1 else beNat digest % q

/-- The x coordinate of an affine point is `r` modulo `q`. The point at infinity has none. -/
def XMod {p : Nat} {W : WeierstrassCurve.Affine (ZMod p)} (q : Nat) (C : W.Point) (r : Nat) : Prop :=
  ∃ x y h, C = .some x y h ∧ x.val % q = r

/-- The point z1*P + z2*Q of the standard, z1 = s/e and z2 = -r/e modulo `q`. -/
def stdPoint (s : Sig) (p q : Nat) [Fact p.Prime] (P Q : (curve s p).Point) (e r sg : Nat) :
    (curve s p).Point :=
  ((sg : ZMod q) * (e : ZMod q)⁻¹).val • P + (-(r : ZMod q) * (e : ZMod q)⁻¹).val • Q

/-- The verification of the standard. -/
def StdVerify (s : Sig) (p q : Nat) [Fact p.Prime] (P Q : (curve s p).Point) (e r sg : Nat) : Prop :=
  0 < r ∧ r < q ∧ 0 < sg ∧ sg < q ∧ XMod q (stdPoint s p q P Q e r sg) r

/-- The signature of the standard for the private key `d` and the random number `k`: r is the x
coordinate of k*P modulo q, s = r*d + k*e modulo q, both not zero. -/
def StdSign (s : Sig) (p q : Nat) [Fact p.Prime] (P : (curve s p).Point) (d e k r sg : Nat) : Prop :=
  0 < k ∧ k < q ∧ XMod q (k • P) r ∧ r ≠ 0 ∧ sg = (r * d + k * e) % q ∧ sg ≠ 0

/-- Double-and-add from the lowest bit never passes through the point at infinity. -/
def NoWrap (q d : Nat) : Prop := ∀ i, ¬ q ∣ 1 + (d - 1) % 2 ^ i

end Gost.Sig
