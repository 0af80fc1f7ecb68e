import Verif.Proofs.SignStd

/-! A form of point multiplication which the kernel can evaluate, with a check of every addition.
Used to compute the order of concrete base points. -/

namespace Gost.Sig
open WeierstrassCurve.Affine

/-- `gcdex` with fuel. -/
def gcdexF : Nat → Int → Int → Option (Int × Int × Int)
  | F, v, n =>
    if n = 0 then some (v, 1, 0)
    else match F with
      | 0 => none
      | F + 1 => match gcdexF F n (v.fmod n) with
        | none => none
        | some (g, x, y) => some (g, y, x - y * (v.fdiv n))

theorem gcdexF_sound (F : Nat) : ∀ v n r, gcdexF F v n = some r → gcdex v n = r := by
  induction F with
  | zero =>
    intro v n r h
    rw [gcdexF] at h
    by_cases hn : n = 0
    · rw [if_pos hn] at h
      cases h
      subst hn
      exact gcdex_zero v
    · rw [if_neg hn] at h; cases h
  | succ F ih =>
    intro v n r h
    rw [gcdexF] at h
    by_cases hn : n = 0
    · rw [if_pos hn] at h
      cases h
      subst hn
      exact gcdex_zero v
    · rw [if_neg hn] at h
      cases hr : gcdexF F n (v.fmod n) with
      | none => rw [hr] at h; cases h
      | some r' =>
        obtain ⟨g, x, y⟩ := r'
        rw [hr] at h
        cases h
        rw [gcdex_ne v n hn, ih _ _ _ hr]

/-- `_invert` with fuel. -/
def invertF (F : Nat) (v n : Int) : Option Int :=
  match gcdexF F v n with
  | none => none
  | some r => some (if r.2.1 < 0 then r.2.1 + n else r.2.1)

theorem invertF_sound (F : Nat) (v n w : Int) (h : invertF F v n = some w) : invert v n = w := by
  unfold invertF at h
  cases hr : gcdexF F v n with
  | none => rw [hr] at h; cases h
  | some r =>
    rw [hr] at h
    injection h with h
    unfold invert
    rw [gcdexF_sound F v n r hr]
    exact h

/-- `_add` on reduced coordinates with fuel. -/
def addF (F : Nat) (p a : Int) (x1 x2 y1 y2 : Int) : Option (Int × Int) :=
  if x1 = x2 ∧ y1 = y2 then
    match invertF F (2 * y1) p with
    | none => none
    | some i =>
      let grad := ((3 * x1 * x1 + a) * i).fmod p
      let x3 := (grad * grad - x1 - x2).fmod p
      some (x3, (grad * (x1 - x3) - y1).fmod p)
  else
    match invertF F ((x2 - x1).fmod p) p with
    | none => none
    | some i =>
      let grad := ((y2 - y1).fmod p * i).fmod p
      let x3 := (grad * grad - x1 - x2).fmod p
      some (x3, (grad * (x1 - x3) - y1).fmod p)

variable {s : Sig} {p : Nat}

theorem addF_sound (hsp : s.p = p) (hsize : p ≤ 256 ^ s.size) (F : Nat) (x1 x2 y1 y2 : Int) (e : Int × Int)
    (h1 : 0 ≤ x1) (h2 : x1 < p) (h3 : 0 ≤ x2) (h4 : x2 < p) (h5 : 0 ≤ y1) (h6 : y1 < p) (h7 : 0 ≤ y2)
    (h8 : y2 < p) (h : addF F s.p s.a x1 x2 y1 y2 = some e) : s.add x1 x2 y1 y2 = e := by
  have cx := compare_reduced (p := p) s.size hsize x1 x2 h1 h2 h3 h4
  have cy := compare_reduced (p := p) s.size hsize y1 y2 h5 h6 h7 h8
  unfold addF at h
  unfold add
  dsimp only at h ⊢
  by_cases hc : x1 = x2 ∧ y1 = y2
  · rw [if_pos hc] at h
    rw [cx.2 hc.1, cy.2 hc.2, Bool.and_self, if_pos rfl]
    cases hi : invertF F (2 * y1) s.p with
    | none => rw [hi] at h; cases h
    | some i =>
      rw [hi] at h
      rw [invertF_sound F _ _ _ hi]
      injection h
  · rw [if_neg hc] at h
    have : (compare (intToBytes x1 s.size) (intToBytes x2 s.size) &&
        compare (intToBytes y1 s.size) (intToBytes y2 s.size)) = false := by
      rw [Bool.eq_false_iff]
      intro hb
      rw [Bool.and_eq_true] at hb
      exact hc ⟨cx.1 hb.1, cy.1 hb.2⟩
    rw [this, if_neg (by simp)]
    cases hi : invertF F ((x2 - x1).fmod s.p) s.p with
    | none => rw [hi] at h; cases h
    | some i =>
      rw [hi] at h
      rw [invertF_sound F _ _ _ hi]
      injection h

variable [Fact p.Prime]

/-- Addition of points with a given slope, which is checked. -/
def addS (p a : Nat) (c d : Nat × Nat) (l : Nat) : Option (Nat × Nat) :=
  let x3 := (l * l + (p - c.1) + (p - d.1)) % p
  let y3 := (l * (c.1 + (p - x3)) + (p - c.2)) % p
  if c.1 = d.1 then
    if c.2 = d.2 ∧ 2 * c.2 % p ≠ 0 ∧ l * (2 * c.2) % p = (3 * c.1 * c.1 + a) % p then some (x3, y3) else none
  else
    if l * (d.1 + (p - c.1)) % p = (d.2 + (p - c.2)) % p then some (x3, y3) else none

theorem natCast_sub (x : Nat) (hx : x ≤ p) : ((p - x : Nat) : ZMod p) = -(x : ZMod p) := by
  rw [Nat.cast_sub hx]; simp

theorem natCast_sub_q {q x : Nat} (hx : x ≤ q) : ((q - x : Nat) : ZMod q) = -(x : ZMod q) := by
  rw [Nat.cast_sub hx]; simp

theorem fmod_eq_of_cast (v : Int) (n : Nat) (hn : n < p) (h : (v : ZMod p) = n) : v.fmod p = n := by
  have hp0 : 0 < p := (Fact.out : p.Prime).pos
  obtain ⟨h1, h2⟩ := fmod_range p hp0 v
  apply cast_inj (p := p) _ _ h1 h2 (by omega) (by omega)
  rw [cast_fmod, h]
  simp

theorem addS_sound (hsp : s.p = p) {a : Nat} (ha : s.a = a) (hsize : p ≤ 256 ^ s.size) {c d e : Nat × Nat} {l : Nat}
    (hl : l < p) {C D : (curve s p).Point} (hc : Rep s p (c.1, c.2) C) (hd : Rep s p (d.1, d.2) D)
    (h : addS p a c d l = some e) : Rep s p (e.1, e.2) (C + D) := by
  obtain ⟨x1, y1⟩ := c
  obtain ⟨x2, y2⟩ := d
  have hp0 : 0 < p := (Fact.out : p.Prime).pos
  obtain ⟨h1, h2, h3, h4, h5, h6⟩ := id hc
  obtain ⟨k1, k2, k3, k4, k5, k6⟩ := id hd
  dsimp only at *
  have h2' : x1 < p := by omega
  have h4' : y1 < p := by omega
  have k2' : x2 < p := by omega
  have k4' : y2 < p := by omega
  have cx := compare_reduced (p := p) s.size hsize (x1 : Int) x2 h1 h2 k1 k2
  have cy := compare_reduced (p := p) s.size hsize (y1 : Int) y2 h3 h4 k3 k4
  have hlt : ∀ n, n % p < p := fun n => Nat.mod_lt n hp0
  -- the value of the addition, given its slope
  have fin : ∀ g : Int, g = l →
      ((((g * g - x1 - x2).fmod s.p), (g * (x1 - (g * g - x1 - x2).fmod s.p) - y1).fmod s.p) : Int × Int) =
      (((((l * l + (p - x1) + (p - x2)) % p : Nat) : Int)),
        (((l * (x1 + (p - (l * l + (p - x1) + (p - x2)) % p)) + (p - y1)) % p : Nat) : Int)) := by
    intro g hg
    have e1 : (g * g - x1 - x2).fmod s.p = (((l * l + (p - x1) + (p - x2)) % p : Nat) : Int) := by
      rw [hsp]
      apply fmod_eq_of_cast _ _ (hlt _)
      rw [ZMod.natCast_mod]
      push_cast
      rw [natCast_sub x1 h2'.le, natCast_sub x2 k2'.le, hg]
      push_cast
      ring
    rw [e1]
    congr 1
    rw [hsp]
    apply fmod_eq_of_cast _ _ (hlt _)
    rw [ZMod.natCast_mod]
    push_cast
    rw [natCast_sub _ (hlt _).le, natCast_sub y1 h4'.le, hg, ZMod.natCast_mod]
    push_cast
    ring
  unfold addS at h
  dsimp only at h
  by_cases hx : x1 = x2
  · rw [if_pos hx] at h
    split at h
    · next hcond =>
      obtain ⟨hy, hz, hs⟩ := hcond
      subst hx
      subst hy
      have h2y : (2 : ZMod p) * y1 ≠ 0 := by
        intro h0
        apply hz
        exact Nat.mod_eq_zero_of_dvd ((ZMod.natCast_eq_zero_iff _ p).1 (by push_cast; exact h0))
      have hCD : C = D := by rw [h6, k6]
      subst hCD
      have hne : C + C ≠ 0 := by
        intro h0
        rw [h6] at h0
        have hyy : ((y1 : Int) : ZMod p) = (curve s p).negY ((x1 : Int) : ZMod p) ((y1 : Int) : ZMod p) := by
          by_contra hxy
          rw [Point.add_some (fun h => hxy h.2)] at h0
          exact absurd h0 (Point.some_ne_zero _)
        rw [WeierstrassCurve.Affine.negY] at hyy
        simp only [curve, Int.cast_natCast] at hyy
        apply h2y
        linear_combination hyy
      have hr := add_rep hsp hsize hc hd hne
      have hadd : s.add x1 x1 y1 y1 = ((e.1 : Int), (e.2 : Int)) := by
        unfold add
        dsimp only
        rw [cx.2 rfl, cy.2 rfl, Bool.and_self, if_pos rfl]
        cases h
        apply fin
        rw [hsp]
        apply fmod_eq_of_cast _ _ hl
        have hs' : (l : ZMod p) * (2 * y1) = 3 * x1 * x1 + a := by
          have := (ZMod.natCast_eq_natCast_iff' (l * (2 * y1)) (3 * x1 * x1 + a) p).2 hs
          push_cast at this
          exact this
        rw [Int.cast_mul, invert_cast, ha]
        push_cast
        rw [← hs', mul_assoc, mul_inv_cancel₀ h2y, mul_one]
      rw [← hadd]
      exact hr
    · cases h
  · rw [if_neg hx] at h
    split at h
    · next hs =>
      have hxx : ((x2 : ZMod p) - x1) ≠ 0 := by
        intro h0
        have h00 := cast_inj (p := p) (x1 : Int) x2 h1 h2 k1 k2 (by push_cast; linear_combination -h0)
        exact hx (by exact_mod_cast h00)
      have hne : C + D ≠ 0 := by
        intro h0
        rw [h6, k6] at h0
        have hxy : ((x1 : Int) : ZMod p) = ((x2 : Int) : ZMod p) := by
          by_contra hxy
          rw [Point.add_some (fun h => hxy h.1)] at h0
          exact absurd h0 (Point.some_ne_zero _)
        apply hxx
        push_cast at hxy
        rw [hxy]
        ring
      have hr := add_rep hsp hsize hc hd hne
      have hadd : s.add x1 x2 y1 y2 = ((e.1 : Int), (e.2 : Int)) := by
        unfold add
        dsimp only
        have hcx : compare (intToBytes x1 s.size) (intToBytes x2 s.size) = false := by
          rw [Bool.eq_false_iff]
          intro hb
          exact hx (by exact_mod_cast cx.1 hb)
        rw [hcx, Bool.false_and, if_neg (by simp)]
        cases h
        apply fin
        rw [hsp]
        apply fmod_eq_of_cast _ _ hl
        have hs' : (l : ZMod p) * (x2 - x1) = y2 - y1 := by
          have := (ZMod.natCast_eq_natCast_iff' (l * (x2 + (p - x1))) (y2 + (p - y1)) p).2 hs
          push_cast at this
          rw [natCast_sub x1 h2'.le, natCast_sub y1 h4'.le] at this
          linear_combination this
        rw [Int.cast_mul, invert_cast, cast_fmod, cast_fmod]
        push_cast
        rw [← hs', mul_assoc, mul_inv_cancel₀ hxx, mul_one]
      rw [← hadd]
      exact hr
    · cases h

/-- Multiplication from the lowest bit with given slopes, packed in base `B`: c + v*d. -/
def mulS (p a B : Nat) : Nat → Nat → Nat × Nat → Nat × Nat → Nat → Option (Nat × Nat)
  | 0, v, c, _, _ => if v = 0 then some c else none
  | F + 1, v, c, d, ls =>
    if v = 0 then some c
    else
      match (if v % 2 = 1 then addS p a c d (ls % B % p) else some c) with
      | none => none
      | some c' =>
        match addS p a d d (ls / B % B % p) with
        | none => none
        | some d' => mulS p a B F (v / 2) c' d' (ls / B / B)

theorem mulS_sound (hsp : s.p = p) {a : Nat} (ha : s.a = a) (hsize : p ≤ 256 ^ s.size) (B F : Nat) :
    ∀ (v : Nat) (c d e : Nat × Nat) (ls : Nat) (N R : (curve s p).Point), Rep s p (c.1, c.2) N →
      Rep s p (d.1, d.2) R → mulS p a B F v c d ls = some e → Rep s p (e.1, e.2) (N + v • R) := by
  have hp0 : 0 < p := (Fact.out : p.Prime).pos
  induction F with
  | zero =>
    intro v c d e ls N R hc hd h
    rw [mulS] at h
    by_cases hv : v = 0
    · rw [if_pos hv] at h
      cases h
      subst hv
      simpa using hc
    · rw [if_neg hv] at h; cases h
  | succ F ih =>
    intro v c d e ls N R hc hd h
    rw [mulS] at h
    by_cases hv : v = 0
    · rw [if_pos hv] at h
      cases h
      subst hv
      simpa using hc
    · rw [if_neg hv] at h
      cases hcn : (if v % 2 = 1 then addS p a c d (ls % B % p) else some c) with
      | none => rw [hcn] at h; cases h
      | some c' =>
        rw [hcn] at h
        dsimp only at h
        cases hdn : addS p a d d (ls / B % B % p) with
        | none => rw [hdn] at h; cases h
        | some d' =>
          rw [hdn] at h
          dsimp only at h
          have hR' := addS_sound hsp ha hsize (Nat.mod_lt _ hp0) hd hd hdn
          have hN : Rep s p (c'.1, c'.2) (N + (v % 2) • R) := by
            by_cases hb : v % 2 = 1
            · rw [if_pos hb] at hcn
              rw [hb, one_nsmul]
              exact addS_sound hsp ha hsize (Nat.mod_lt _ hp0) hc hd hcn
            · rw [if_neg hb] at hcn
              cases hcn
              rw [show v % 2 = 0 by omega, zero_nsmul, add_zero]
              exact hc
          have r1 := ih (v / 2) c' d' e _ _ _ hN hR' h
          have : N + (v % 2) • R + (v / 2) • (R + R) = N + v • R := by
            rw [add_assoc, ← two_nsmul, ← mul_nsmul', ← add_nsmul]
            congr 2
            omega
          rwa [this] at r1

/-- Order of a point from a computation: (q-1)*P has the coordinates of -P. -/
theorem order_of_check (hsp : s.p = p) {a : Nat} (ha : s.a = a) (hsize : p ≤ 256 ^ s.size) {q : Nat} (hq : q.Prime)
    (hodd : 2 < q) (P : (curve s p).Point) (x y : Nat) (hP : Rep s p (x, y) P) (B F ls : Nat)
    (h : mulS p a B F (q - 2) (x, y) (x, y) ls = some (x, p - y)) : addOrderOf P = q := by
  have hp0 : 0 < p := (Fact.out : p.Prime).pos
  have : Fact q.Prime := ⟨hq⟩
  have h1 := mulS_sound hsp ha hsize B F (q - 2) (x, y) (x, y) _ ls P P hP hP h
  have h2 : (q - 1) • P = P + (q - 2) • P := by
    rw [← succ_nsmul']
    congr 1
    omega
  rw [← h2] at h1
  apply addOrderOf_eq_prime
  · have h3 : q • P = P + (q - 1) • P := by
      rw [← succ_nsmul']
      congr 1
      omega
    rw [h3]
    obtain ⟨-, -, -, -, h5, h6⟩ := h1
    obtain ⟨-, -, -, k4, k5, k6⟩ := hP
    rw [h6]
    conv_lhs => rw [k6]
    refine Point.add_of_Y_eq rfl ?_
    rw [WeierstrassCurve.Affine.negY]
    dsimp only at k4 ⊢
    have : y ≤ p := by omega
    simp [curve, natCast_sub y this]
  · exact rep_ne_zero hP

end Gost.Sig
