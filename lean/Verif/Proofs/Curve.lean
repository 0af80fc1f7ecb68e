import Verif.Proofs.Invert
import Verif.Props.Utils
import Verif.Spec.Curve

/-! Point addition and multiplication against the group law of Mathlib's elliptic curves. -/

namespace Gost.Sig
open WeierstrassCurve.Affine
open Spec (beNat beBytes)

variable {s : Sig} {p : Nat}

theorem cast_inj (a b : Int) (ha : 0 ≤ a) (ha' : a < p) (hb : 0 ≤ b) (hb' : b < p)
    (h : (a : ZMod p) = (b : ZMod p)) : a = b := by
  have := (ZMod.intCast_eq_intCast_iff_dvd_sub a b p).1 h
  obtain ⟨k, hk⟩ := this
  rcases lt_trichotomy k 0 with hk0 | hk0 | hk0
  · have : (p : Int) * k ≤ p * (-1) := by
      apply mul_le_mul_of_nonneg_left <;> omega
    omega
  · subst hk0; omega
  · have : (p : Int) * 1 ≤ p * k := by
      apply mul_le_mul_of_nonneg_left <;> omega
    omega

/-- Comparison of reduced numbers through their bytes. -/
theorem compare_reduced (size : Nat) (hp : p ≤ 256 ^ size) (a b : Int) (ha : 0 ≤ a) (ha' : a < p) (hb : 0 ≤ b)
    (hb' : b < p) : compare (intToBytes a size) (intToBytes b size) = true ↔ a = b := by
  rw [C48_compare]
  constructor
  · intro h
    have h1 := C48_int_bytes_int a size
    have h2 := C48_int_bytes_int b size
    have hp' : (p : Int) ≤ 256 ^ size := by exact_mod_cast hp
    rw [Int.emod_eq_of_lt ha (by omega)] at h1
    rw [Int.emod_eq_of_lt hb (by omega)] at h2
    rw [← h1, ← h2, h]
  · rintro rfl; rfl

variable [Fact p.Prime]

theorem rep_inj {c d : Int × Int} {P : (curve s p).Point} (hc : Rep s p c P) (hd : Rep s p d P) : c = d := by
  obtain ⟨h1, h2, h3, h4, h5, h6⟩ := hc
  obtain ⟨k1, k2, k3, k4, k5, k6⟩ := hd
  rw [h6] at k6
  injection k6 with e1 e2
  exact Prod.ext (cast_inj _ _ h1 h2 k1 k2 e1) (cast_inj _ _ h3 h4 k3 k4 e2)

theorem rep_ne_zero {c : Int × Int} {P : (curve s p).Point} (hc : Rep s p c P) : P ≠ 0 := by
  obtain ⟨-, -, -, -, h5, h6⟩ := hc
  rw [h6]
  exact Point.some_ne_zero _

theorem add_rep (hsp : s.p = p) (hsize : p ≤ 256 ^ s.size) {c d : Int × Int} {P Q : (curve s p).Point}
    (hc : Rep s p c P) (hd : Rep s p d Q) (hne : P + Q ≠ 0) : Rep s p (s.add c.1 d.1 c.2 d.2) (P + Q) := by
  have hp0 : 0 < p := (Fact.out : p.Prime).pos
  obtain ⟨x1, y1⟩ := c
  obtain ⟨x2, y2⟩ := d
  obtain ⟨h1, h2, h3, h4, h5, rfl⟩ := hc
  obtain ⟨k1, k2, k3, k4, k5, rfl⟩ := hd
  dsimp only at *
  have hxy : ¬ ((x1 : ZMod p) = x2 ∧ (y1 : ZMod p) = (curve s p).negY x2 y2) := by
    rintro ⟨e1, e2⟩
    exact hne (Point.add_of_Y_eq e1 e2)
  rw [Point.add_some hxy]
  have hgrad : ∀ grad : Int, (grad : ZMod p) = (curve s p).slope x1 x2 y1 y2 →
      Rep s p ((grad * grad - x1 - x2).fmod s.p,
        (grad * (x1 - (grad * grad - x1 - x2).fmod s.p) - y1).fmod s.p)
        (.some _ _ (nonsingular_add h5 k5 hxy)) := by
    intro grad hg
    have ex : (((grad * grad - x1 - x2).fmod s.p : Int) : ZMod p) =
        (curve s p).addX x1 x2 ((curve s p).slope x1 x2 y1 y2) := by
      rw [hsp, cast_fmod]
      push_cast
      rw [hg, addX]
      simp only [curve]
      ring
    have ey : (((grad * (x1 - (grad * grad - x1 - x2).fmod s.p) - y1).fmod s.p : Int) : ZMod p) =
        (curve s p).addY x1 x2 y1 ((curve s p).slope x1 x2 y1 y2) := by
      rw [hsp, cast_fmod, ← hsp]
      push_cast
      rw [hg, ex, addY, negAddY, negY]
      simp only [curve]
      ring
    have hr1 := fmod_range p hp0 (grad * grad - x1 - x2)
    have hr2 := fmod_range p hp0 (grad * (x1 - (grad * grad - x1 - x2).fmod s.p) - y1)
    rw [← hsp] at hr1 hr2
    refine ⟨hr1.1, by rw [← hsp]; exact hr1.2, hr2.1, by rw [← hsp]; exact hr2.2, ?_⟩
    dsimp only
    simp only [ex, ey]
    exact ⟨nonsingular_add h5 k5 hxy, trivial⟩
  unfold add
  dsimp only
  apply hgrad
  by_cases hx : x1 = x2
  · have hy : y1 = y2 := by
      subst hx
      rcases Y_eq_of_X_eq h5.1 k5.1 rfl with h | h
      · exact cast_inj _ _ h3 h4 k3 k4 h
      · exact absurd ⟨rfl, h⟩ hxy
    subst hx hy
    have e1 := (compare_reduced s.size hsize x1 x1 h1 h2 k1 k2).2 rfl
    have e2 := (compare_reduced s.size hsize y1 y1 h3 h4 k3 k4).2 rfl
    rw [e1, e2, Bool.and_self, if_pos rfl, hsp, cast_fmod]
    push_cast
    rw [invert_cast, slope_of_Y_ne rfl (fun h => hxy ⟨rfl, h⟩), negY]
    simp only [curve]
    push_cast
    rw [div_eq_mul_inv]
    congr 1
    · ring
    · congr 1; ring
  · have e1 : compare (intToBytes x1 s.size) (intToBytes x2 s.size) = false := by
      rw [Bool.eq_false_iff]
      exact fun h => hx ((compare_reduced s.size hsize x1 x2 h1 h2 k1 k2).1 h)
    have hx' : (x1 : ZMod p) ≠ x2 := fun h => hx (cast_inj _ _ h1 h2 k1 k2 h)
    rw [e1, Bool.false_and, if_neg (by simp), hsp, cast_fmod]
    push_cast
    rw [invert_cast, cast_fmod, cast_fmod, slope_of_X_ne hx', div_eq_mul_inv]
    push_cast
    rw [show ((x2 : ZMod p) - x1) = -(x1 - x2) by ring, inv_neg]
    ring

theorem mulLoop_zero (F : Nat) (c d : Int × Int) : mulLoop s F 0 c d = some c := by
  cases F <;> simp [mulLoop]

theorem mulLoop_succ (F : Nat) (v : Int) (hv : v ≠ 0) (c d : Int × Int) :
    mulLoop s (F + 1) v c d = mulLoop s F (v.fdiv 2)
      (if v.fmod 2 = 1 then s.add c.1 d.1 c.2 d.2 else c) (s.add d.1 d.1 d.2 d.2) := by
  rw [mulLoop]; simp [hv]

/-- The loop adds `v` times `R` to `N`, unless it meets an undefined addition. -/
theorem mulLoop_rep (hsp : s.p = p) (hsize : p ≤ 256 ^ s.size) (F : Nat) :
    ∀ (v : Nat) (c d : Int × Int) (N R : (curve s p).Point), v < 2 ^ F → Rep s p c N → Rep s p d R →
      (∀ i, N + (v % 2 ^ i) • R ≠ 0) → (∀ i, 2 ^ i • R ≠ 0) →
      ∃ e, mulLoop s F (v : Int) c d = some e ∧ Rep s p e (N + v • R) := by
  induction F with
  | zero =>
    intro v c d N R hv hc hd _ _
    have : v = 0 := by omega
    subst this
    exact ⟨c, mulLoop_zero 0 c d, by simpa using hc⟩
  | succ F ih =>
    intro v c d N R hv hc hd hN hR
    by_cases h0 : v = 0
    · subst h0
      exact ⟨c, mulLoop_zero _ c d, by simpa using hc⟩
    · rw [mulLoop_succ F v (by omega)]
      have e1 : (v : Int).fdiv 2 = ((v / 2 : Nat) : Int) := by
        rw [Int.fdiv_eq_ediv_of_nonneg _ (by omega)]; omega
      have e2 : (v : Int).fmod 2 = ((v % 2 : Nat) : Int) := by
        rw [Int.fmod_eq_emod_of_nonneg _ (by omega)]; omega
      rw [e1, e2]
      have hdd : Rep s p (s.add d.1 d.1 d.2 d.2) (R + R) :=
        add_rep hsp hsize hd hd (by have := hR 1; simpa [two_nsmul] using this)
      have hnext : Rep s p (if ((v % 2 : Nat) : Int) = 1 then s.add c.1 d.1 c.2 d.2 else c) (N + (v % 2) • R) := by
        by_cases hb : v % 2 = 1
        · rw [if_pos (by omega), hb, one_nsmul]
          exact add_rep hsp hsize hc hd (by have := hN 1; rwa [pow_one, hb, one_nsmul] at this)
        · rw [if_neg (by omega), show v % 2 = 0 by omega, zero_nsmul, add_zero]
          exact hc
      obtain ⟨e, he1, he2⟩ := ih (v / 2) _ _ _ _ (by rw [Nat.pow_succ] at hv; omega) hnext hdd (by
        intro i
        have := hN (i + 1)
        rw [show v % 2 ^ (i + 1) = v % 2 + (v / 2 % 2 ^ i) * 2 by
          rw [pow_succ', Nat.mod_mul]; ring, add_nsmul, ← add_assoc, mul_nsmul', two_nsmul] at this
        exact this) (by
        intro i
        have := hR (i + 1)
        rw [pow_succ, mul_nsmul', two_nsmul] at this
        exact this)
      refine ⟨e, he1, ?_⟩
      have : N + (v % 2) • R + (v / 2) • (R + R) = N + v • R := by
        rw [add_assoc, ← two_nsmul, ← mul_nsmul', ← add_nsmul]
        congr 2
        omega
      rwa [this] at he2

theorem mulPoint_eq (F : Nat) (k x y : Int) (c : Int × Int)
    (hc : c = if x > 0 ∧ y > 0 then (x, y) else (s.x, s.y)) :
    s.mulPoint F k x y = mulLoop s F (k - 1) c c := by
  unfold mulPoint
  dsimp only
  rw [← hc]

theorem two_pow_ne_zero {q : Nat} (hq : q.Prime) (hodd : 2 < q) (Q : (curve s p).Point) (hQ : addOrderOf Q = q)
    (i : Nat) : 2 ^ i • Q ≠ 0 := by
  intro h
  have h1 := addOrderOf_dvd_of_nsmul_eq_zero h
  rw [hQ] at h1
  have := (Nat.prime_dvd_prime_iff_eq hq Nat.prime_two).1 (hq.dvd_of_dvd_pow h1)
  omega

theorem mulPoint_rep (hsp : s.p = p) (hsize : p ≤ 256 ^ s.size) {q : Nat} (hq : q.Prime) (hodd : 2 < q)
    (F k : Nat) (x y : Int) (Q : (curve s p).Point)
    (hQ : Rep s p (if x > 0 ∧ y > 0 then (x, y) else (s.x, s.y)) Q)
    (ho : addOrderOf Q = q) (hk : 0 < k) (hF : k ≤ 2 ^ F) (hw : NoWrap q k) :
    ∃ e, s.mulPoint F (k : Int) x y = some e ∧ Rep s p e (k • Q) := by
  rw [mulPoint_eq F k x y _ rfl, show (k : Int) - 1 = ((k - 1 : Nat) : Int) by omega]
  obtain ⟨e, h1, h2⟩ := mulLoop_rep hsp hsize F (k - 1) _ _ Q Q (by omega) hQ hQ (by
    intro i h
    rw [← succ_nsmul'] at h
    have h1 := addOrderOf_dvd_of_nsmul_eq_zero h
    rw [ho] at h1
    exact hw i (by rw [Nat.add_comm]; exact h1)) (two_pow_ne_zero hq hodd Q ho)
  refine ⟨e, h1, ?_⟩
  rwa [← succ_nsmul', Nat.sub_add_cancel hk] at h2

theorem noWrap_of_lt {q k : Nat} (hk : 0 < k) (h : k < q) : NoWrap q k := by
  intro i hd
  have h1 := Nat.le_of_dvd (by omega) hd
  have := Nat.mod_le (k - 1) (2 ^ i)
  omega

/-- The loop never ends for a negative number. -/
theorem mulLoop_neg (F : Nat) : ∀ (v : Int) (c d : Int × Int), v < 0 → mulLoop s F v c d = none := by
  induction F with
  | zero => intro v c d hv; rw [mulLoop]; simp [show v ≠ 0 by omega]
  | succ F ih =>
    intro v c d hv
    rw [mulLoop_succ F v (by omega)]
    apply ih
    rw [Int.fdiv_eq_ediv_of_nonneg _ (by omega)]
    omega

end Gost.Sig
