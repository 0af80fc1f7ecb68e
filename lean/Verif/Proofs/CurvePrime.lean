import Mathlib.AlgebraicGeometry.EllipticCurve.Affine.Point
import Mathlib.Algebra.Field.ZMod
import Mathlib.GroupTheory.OrderOfElement
import Mathlib.Data.ZMod.Basic
import Mathlib.Data.Fintype.Card
import Mathlib.Tactic.LinearCombination
import Mathlib.Tactic.Ring

/-! Primality from a point of large prime order on an elliptic curve (Goldwasser and Kilian), with a
computation which the kernel can check. Only the number of x coordinates is used, so no bound of Hasse is
needed. -/

namespace Gost.Prime
open WeierstrassCurve.Affine

/-- The curve y^2 = x^3 + a*x + b modulo `l`. -/
def ecurve (l a b : Nat) : WeierstrassCurve.Affine (ZMod l) :=
  { a₁ := 0, a₂ := 0, a₃ := 0, a₄ := (a : ZMod l), a₆ := (b : ZMod l) }

/-- The pair of numbers is the affine point `P`, modulo `l`. -/
def RepM (l a b : Nat) (c : Nat × Nat) (P : (ecurve l a b).Point) : Prop :=
  ∃ h : (ecurve l a b).Nonsingular (c.1 : ZMod l) (c.2 : ZMod l), P = .some _ _ h

/-- Addition modulo `n` with a given inverse `u` of the denominator, which is checked. -/
def addC (n a : Nat) (c d : Nat × Nat) (u : Nat) : Option (Nat × Nat) :=
  let num := if c = d then 3 * c.1 * c.1 + a else d.2 + (n - c.2)
  let den := if c = d then 2 * c.2 else d.1 + (n - c.1)
  let l := u * num % n
  let x3 := (l * l + (n - c.1) + (n - d.1)) % n
  let y3 := (l * (c.1 + (n - x3)) + (n - c.2)) % n
  if u * den % n = 1 ∧ c.1 < n ∧ c.2 < n ∧ d.1 < n then some (x3, y3) else none

variable {l a b : Nat} [Fact l.Prime]

theorem cast_n_sub {n : Nat} (hd : l ∣ n) (x : Nat) (hx : x ≤ n) : ((n - x : Nat) : ZMod l) = -(x : ZMod l) := by
  rw [Nat.cast_sub hx, (ZMod.natCast_eq_zero_iff n l).2 hd, zero_sub]

theorem cast_mod_n {n : Nat} (hd : l ∣ n) (x : Nat) : ((x % n : Nat) : ZMod l) = (x : ZMod l) := by
  rw [ZMod.natCast_eq_natCast_iff]
  exact (Nat.mod_modEq x n).of_dvd hd

theorem addC_sound {n : Nat} (hd : l ∣ n) {c d e : Nat × Nat} {u : Nat} {C D : (ecurve l a b).Point}
    (hc : RepM l a b c C) (hd' : RepM l a b d D) (h : addC n a c d u = some e) : RepM l a b e (C + D) := by
  obtain ⟨x1, y1⟩ := c
  obtain ⟨x2, y2⟩ := d
  obtain ⟨h5, rfl⟩ := hc
  obtain ⟨k5, rfl⟩ := hd'
  unfold addC at h
  dsimp only at h h5 k5 ⊢
  by_cases hcond : u * (if (x1, y1) = (x2, y2) then 2 * y1 else x2 + (n - x1)) % n = 1 ∧ x1 < n ∧ y1 < n ∧ x2 < n
  swap
  · rw [if_neg hcond] at h; cases h
  rw [if_pos hcond] at h
  obtain ⟨hu, hx1, hy1, hx2⟩ := hcond
  have hn0 : 0 < n := by omega
  injection h with h
  subst h
  have hden : (u : ZMod l) * ((if (x1, y1) = (x2, y2) then 2 * y1 else x2 + (n - x1) : Nat) : ZMod l) = 1 := by
    rw [← Nat.cast_mul, ← cast_mod_n hd, hu, Nat.cast_one]
  have key : ¬ ((x1 : ZMod l) = x2 ∧ (y1 : ZMod l) = (ecurve l a b).negY x2 y2) ∧
      ((u * (if (x1, y1) = (x2, y2) then 3 * x1 * x1 + a else y2 + (n - y1)) % n : Nat) : ZMod l) =
        (ecurve l a b).slope x1 x2 y1 y2 := by
    by_cases heq : (x1, y1) = (x2, y2)
    · rw [if_pos heq] at hden ⊢
      cases heq
      push_cast at hden
      have hne : (y1 : ZMod l) ≠ (ecurve l a b).negY x1 y1 := by
        intro h
        rw [negY] at h
        simp only [ecurve] at h
        have : (2 : ZMod l) * y1 = 0 := by linear_combination h
        rw [this, mul_zero] at hden
        exact zero_ne_one hden
      refine ⟨fun h => hne h.2, ?_⟩
      rw [slope_of_Y_ne rfl hne, negY, cast_mod_n hd]
      simp only [ecurve]
      have h2y : (2 : ZMod l) * y1 ≠ 0 := by
        intro h
        rw [h, mul_zero] at hden
        exact zero_ne_one hden
      rw [eq_div_iff (by
        intro h
        apply h2y
        linear_combination h)]
      push_cast
      linear_combination (3 * (x1 : ZMod l) * x1 + a) * hden
    · rw [if_neg heq] at hden ⊢
      push_cast at hden
      rw [cast_n_sub hd x1 hx1.le] at hden
      have hxx : (x1 : ZMod l) ≠ x2 := by
        intro h
        rw [h, add_neg_cancel, mul_zero] at hden
        exact zero_ne_one hden
      refine ⟨fun h => hxx h.1, ?_⟩
      rw [slope_of_X_ne hxx, cast_mod_n hd, eq_div_iff (sub_ne_zero.2 hxx)]
      push_cast
      rw [cast_n_sub hd y1 hy1.le]
      linear_combination ((y1 : ZMod l) - y2) * hden
  generalize u * (if (x1, y1) = (x2, y2) then 3 * x1 * x1 + a else y2 + (n - y1)) % n = L at key ⊢
  obtain ⟨hxy, hL⟩ := key
  rw [Point.add_some hxy]
  have ex : (((L * L + (n - x1) + (n - x2)) % n : Nat) : ZMod l) =
      (ecurve l a b).addX x1 x2 ((ecurve l a b).slope x1 x2 y1 y2) := by
    rw [cast_mod_n hd]
    push_cast
    rw [cast_n_sub hd x1 hx1.le, cast_n_sub hd x2 hx2.le, hL, addX]
    simp only [ecurve]
    ring
  have ey : (((L * (x1 + (n - (L * L + (n - x1) + (n - x2)) % n)) + (n - y1)) % n : Nat) : ZMod l) =
      (ecurve l a b).addY x1 x2 y1 ((ecurve l a b).slope x1 x2 y1 y2) := by
    rw [cast_mod_n hd]
    push_cast
    rw [cast_n_sub hd _ (Nat.mod_lt _ hn0).le, ex, cast_n_sub hd y1 hy1.le, hL, addY, negAddY, negY]
    simp only [ecurve]
    ring
  unfold RepM
  simp only [ex, ey]
  exact ⟨nonsingular_add h5 k5 hxy, trivial⟩

/-- Multiplication from the lowest bit with given inverses, packed in base `B`: c + v*d. -/
def mulC (n a B : Nat) : Nat → Nat → Nat × Nat → Nat × Nat → Nat → Option (Nat × Nat)
  | 0, v, c, _, _ => if v = 0 then some c else none
  | F + 1, v, c, d, us =>
    if v = 0 then some c
    else
      match (if v % 2 = 1 then addC n a c d (us % B) else some c) with
      | none => none
      | some c' =>
        match addC n a d d (us / B % B) with
        | none => none
        | some d' => mulC n a B F (v / 2) c' d' (us / B / B)

theorem mulC_sound {n : Nat} (hd : l ∣ n) (B F : Nat) :
    ∀ (v : Nat) (c d e : Nat × Nat) (us : Nat) (N R : (ecurve l a b).Point), RepM l a b c N →
      RepM l a b d R → mulC n a B F v c d us = some e → RepM l a b e (N + v • R) := by
  induction F with
  | zero =>
    intro v c d e us N R hc hd h
    rw [mulC] at h
    by_cases hv : v = 0
    · rw [if_pos hv] at h
      cases h
      subst hv
      simpa using hc
    · rw [if_neg hv] at h; cases h
  | succ F ih =>
    intro v c d e us N R hc hdr h
    rw [mulC] at h
    by_cases hv : v = 0
    · rw [if_pos hv] at h
      cases h
      subst hv
      simpa using hc
    · rw [if_neg hv] at h
      cases hcn : (if v % 2 = 1 then addC n a c d (us % B) else some c) with
      | none => rw [hcn] at h; cases h
      | some c' =>
        rw [hcn] at h
        dsimp only at h
        cases hdn : addC n a d d (us / B % B) with
        | none => rw [hdn] at h; cases h
        | some d' =>
          rw [hdn] at h
          dsimp only at h
          have hR' := addC_sound hd hdr hdr hdn
          have hN : RepM l a b c' (N + (v % 2) • R) := by
            by_cases hb : v % 2 = 1
            · rw [if_pos hb] at hcn
              rw [hb, one_nsmul]
              exact addC_sound hd hc hdr hcn
            · rw [if_neg hb] at hcn
              cases hcn
              rw [show v % 2 = 0 by omega, zero_nsmul, add_zero]
              exact hc
          have r1 := ih (v / 2) c' d' e _ _ _ hN hR' h
          have : N + (v % 2) • R + (v / 2) • (R + R) = N + v • R := by
            rw [add_assoc, ← two_nsmul, ← mul_nsmul', ← add_nsmul]
            congr 2
            omega
          rwa [this] at r1

/-- The points with one x coordinate are P and -P, so a point of odd prime order `r` needs (r-1)/2 residues. -/
theorem order_bound {r : Nat} (P : (ecurve l a b).Point) (hP : addOrderOf P = r) :
    (r - 1) / 2 ≤ l := by
  have hne : ∀ i : Fin ((r - 1) / 2), (i.val + 1) • P ≠ 0 := by
    intro i h
    have := Nat.le_of_dvd (by omega) (addOrderOf_dvd_of_nsmul_eq_zero h)
    rw [hP] at this
    have := i.2
    omega
  have hx : ∀ i : Fin ((r - 1) / 2), ∃ x y, ∃ h : (ecurve l a b).Nonsingular x y,
      (i.val + 1) • P = .some x y h := by
    intro i
    cases hQ : (i.val + 1) • P with
    | zero => exact absurd hQ (hne i)
    | some x y h => exact ⟨x, y, h, rfl⟩
  choose f g hn hf using hx
  have hinj : Function.Injective f := by
    intro i j hij
    have hi := hf i
    have hj := hf j
    have e1 := (hn i).1
    have e2 := (hn j).1
    have hP2 : ∀ m k : Nat, m • P = k • P → m % r = k % r := by
      intro m k h
      have := (nsmul_inj_mod (x := P)).1 h
      rwa [hP] at this
    have hi2 := i.2
    have hj2 := j.2
    rcases Y_eq_of_X_eq e1 e2 hij with h | h
    · have : (i.val + 1) • P = (j.val + 1) • P := by
        rw [hi, hj]
        congr 1
      have := hP2 _ _ this
      rw [Nat.mod_eq_of_lt (by omega), Nat.mod_eq_of_lt (by omega)] at this
      exact Fin.ext (by omega)
    · exfalso
      have h0 : (i.val + 1 + (j.val + 1)) • P = 0 := by
        rw [add_nsmul, hi, hj]
        exact Point.add_of_Y_eq hij h
      have := Nat.le_of_dvd (by omega) (addOrderOf_dvd_of_nsmul_eq_zero h0)
      rw [hP] at this
      omega
  have := Fintype.card_le_of_injective f hinj
  rwa [Fintype.card_fin, ZMod.card] at this

omit [Fact l.Prime] in
/-- The checks of a certificate: (x, y) is on the curve and (r-1)*(x,y) has the coordinates of -(x,y), all
modulo `n`; `r` exceeds twice the square root of `n`. -/
def checkE (n r a b x y us : Nat) : Bool :=
  decide (1 < n) && decide (2 < r) && decide (n < ((r - 1) / 2) * ((r - 1) / 2)) &&
  decide (x < n) && decide (y < n) &&
  y * y % n == (x * x * x + a * x + b) % n && Nat.gcd (2 * y) n == 1 &&
  mulC n a (2 ^ 512) 520 (r - 2) (x, y) (x, y) us == some (x, n - y)

omit [Fact l.Prime] in
theorem prime_of_curve (n r a b x y us : Nat) (hr : r.Prime) (h : checkE n r a b x y us = true) : n.Prime := by
  simp only [checkE, Bool.and_eq_true, decide_eq_true_eq, beq_iff_eq] at h
  obtain ⟨⟨⟨⟨⟨⟨⟨h1, h2⟩, h3⟩, h4⟩, h5⟩, h6⟩, h7⟩, h8⟩ := h
  by_contra hnp
  have hl : n.minFac.Prime := Nat.minFac_prime (by omega)
  have : Fact n.minFac.Prime := ⟨hl⟩
  have hdvd := Nat.minFac_dvd n
  generalize hm : n.minFac = l at *
  have heq : (y : ZMod l) ^ 2 = (x : ZMod l) ^ 3 + a * x + b := by
    have : ((y * y % n : Nat) : ZMod l) = ((x * x * x + a * x + b) % n : Nat) := by rw [h6]
    rw [cast_mod_n hdvd, cast_mod_n hdvd] at this
    push_cast at this
    linear_combination this
  have h2y : (2 : ZMod l) * y ≠ 0 := by
    intro h
    have h0 : ((2 * y : Nat) : ZMod l) = 0 := by push_cast; exact h
    rw [ZMod.natCast_eq_zero_iff] at h0
    have := Nat.dvd_gcd h0 hdvd
    rw [h7] at this
    exact hl.one_lt.ne' (Nat.dvd_one.1 this)
  have hns : (ecurve l a b).Nonsingular (x : ZMod l) (y : ZMod l) := by
    rw [nonsingular_iff, equation_iff]
    constructor
    · simp only [ecurve]
      linear_combination heq
    · right
      simp only [ecurve]
      intro h
      apply h2y
      linear_combination h
  have hrep : RepM l a b (x, y) (.some _ _ hns) := ⟨hns, rfl⟩
  have hfin := mulC_sound (a := a) (b := b) hdvd (2 ^ 512) 520 (r - 2) (x, y) (x, y) _ us _ _ hrep hrep h8
  generalize hPdef : (Point.some _ _ hns : (ecurve l a b).Point) = P at *
  have hP0 : P ≠ 0 := by rw [← hPdef]; exact Point.some_ne_zero _
  have horder : addOrderOf P = r := by
    have : Fact r.Prime := ⟨hr⟩
    apply addOrderOf_eq_prime _ hP0
    have e1 : r • P = P + (P + (r - 2) • P) := by
      rw [← succ_nsmul', ← succ_nsmul']
      congr 1
      omega
    rw [e1]
    obtain ⟨hh, he⟩ := hfin
    rw [he]
    conv_lhs => rw [← hPdef]
    refine Point.add_of_Y_eq rfl ?_
    rw [WeierstrassCurve.Affine.negY]
    dsimp only
    rw [cast_n_sub hdvd y h5.le]
    simp [ecurve]
  have hb := order_bound P horder
  have hsq := Nat.minFac_sq_le_self (by omega : 0 < n) hnp
  rw [hm, pow_two] at hsq
  have := Nat.mul_le_mul hb hb
  omega

end Gost.Prime
