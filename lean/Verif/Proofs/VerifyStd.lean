import Verif.Proofs.SignStd

/-! `verify` against the standard. -/

namespace Gost.Sig
open Spec (beNat beBytes)
open WeierstrassCurve.Affine

variable {s : Sig} {p q : Nat} [Fact p.Prime] {P : (curve s p).Point}

/-- The multipliers z1 and z2. -/
theorem z_values (hq : s.q = q) [Fact q.Prime] (e r sg : Nat) (he : 0 < e) (heq : e < q) (hr : 0 < r)
    (hrq : r < q) (hs : 0 < sg) (hsq : sg < q) :
    ∃ z1 z2 : Nat, (((sg : Int) * invert e s.q).fmod s.q = z1) ∧
      (s.q - ((r : Int) * invert e s.q).fmod s.q = z2) ∧
      z1 = ((sg : ZMod q) * (e : ZMod q)⁻¹).val ∧ z2 = (-(r : ZMod q) * (e : ZMod q)⁻¹).val ∧
      0 < z1 ∧ z1 < q ∧ 0 < z2 ∧ z2 < q := by
  have hq0 : 0 < q := by omega
  have hne : ∀ n : Nat, 0 < n → n < q → (n : ZMod q) ≠ 0 := by
    intro n h1 h2 h
    have := Nat.le_of_dvd h1 ((ZMod.natCast_eq_zero_iff n q).1 h)
    omega
  have hval : ∀ v : Int, 0 ≤ v → v < q → (v : Int) = (((v : ZMod q).val : Nat) : Int) := by
    intro v h1 h2
    rw [ZMod.val_intCast, Int.emod_eq_of_lt h1 h2]
  have hinv : ((invert e s.q : Int) : ZMod q) = (e : ZMod q)⁻¹ := by
    rw [hq]
    have := invert_cast q (e : Int)
    simpa using this
  have r1 := fmod_range q hq0 ((sg : Int) * invert e s.q)
  have r2 := fmod_range q hq0 ((r : Int) * invert e s.q)
  have c1 : ((((sg : Int) * invert e s.q).fmod q : Int) : ZMod q) = (sg : ZMod q) * (e : ZMod q)⁻¹ := by
    rw [cast_fmod]; push_cast; rw [hinv]
  have c2 : ((((r : Int) * invert e s.q).fmod q : Int) : ZMod q) = (r : ZMod q) * (e : ZMod q)⁻¹ := by
    rw [cast_fmod]; push_cast; rw [hinv]
  rw [← hq] at r1 r2 c1 c2
  have n2 : ((r : Int) * invert e s.q).fmod s.q ≠ 0 := by
    intro h
    rw [h] at c2
    exact mul_ne_zero (hne r hr hrq) (inv_ne_zero (hne e he heq)) (by simpa using c2.symm)
  have v1 := hval _ r1.1 (by omega)
  rw [c1] at v1
  have v2 := hval (s.q - ((r : Int) * invert e s.q).fmod s.q) (by omega) (by omega)
  have c3 : ((s.q - ((r : Int) * invert e s.q).fmod s.q : Int) : ZMod q) = -(r : ZMod q) * (e : ZMod q)⁻¹ := by
    push_cast
    rw [c2, hq]
    simp
  rw [c3] at v2
  refine ⟨_, _, v1, v2, rfl, rfl, ?_, ZMod.val_lt _, ?_, ZMod.val_lt _⟩
  · exact Nat.pos_of_ne_zero fun h => mul_ne_zero (hne sg hs hsq) (inv_ne_zero (hne e he heq))
      ((ZMod.val_eq_zero _).1 h)
  · exact Nat.pos_of_ne_zero fun h => mul_ne_zero (neg_ne_zero.2 (hne r hr hrq)) (inv_ne_zero (hne e he heq))
      ((ZMod.val_eq_zero _).1 h)

/-- The point which `_mul_point` uses for the two numbers of a public key: the key's, unless one
of the numbers is 0, then the base point. -/
def startPair (s : Sig) (x y : Nat) : Int × Int := if x > 0 ∧ y > 0 then ((x : Int), (y : Int)) else (s.x, s.y)

/-- Out of range values are refused. -/
theorem verifyBytes_range (hq : s.q = q) (F : Nat) (pk dg sig : Bytes)
    (h : ¬ (0 < beNat (sig.take s.size) ∧ beNat (sig.take s.size) < q ∧
      0 < beNat (sig.drop s.size) ∧ beNat (sig.drop s.size) < q)) :
    s.verifyBytes F pk dg sig = some false := by
  unfold verifyBytes
  simp only [pyUpto_nat, pyFrom_nat, bytesToInt_eq]
  have : s.verifyStep1 (beNat (sig.take s.size)) (beNat (sig.drop s.size)) = false := by
    unfold verifyStep1
    rw [hq]
    simp only [Bool.not_eq_false', Bool.or_eq_true, decide_eq_true_eq]
    omega
  rw [this]
  rfl

/-- `verify` in range: both multiples and the final addition. -/
theorem Good.verifyBytes (hg : Good s p q P) (F : Nat) (hF : q ≤ 2 ^ F) (pk dg sig : Bytes)
    (r sg : Nat) (hr : beNat (sig.take s.size) = r) (hs : beNat (sig.drop s.size) = sg)
    (h : 0 < r ∧ r < q ∧ 0 < sg ∧ sg < q) (Q : (curve s p).Point)
    (hQ : Rep s p (startPair s (beNat (pk.take s.size)) (beNat (pk.drop s.size))) Q)
    (ho : addOrderOf Q = q) :
    ∃ (z1 z2 : Nat) (c d : Int × Int), stdPoint s p q P Q (stdE q dg) r sg = z1 • P + z2 • Q ∧
      z1 = ((sg : ZMod q) * (stdE q dg : ZMod q)⁻¹).val ∧ 0 < z1 ∧ z1 < q ∧ 0 < z2 ∧ z2 < q ∧
      Rep s p c (z1 • P) ∧ Rep s p d (z2 • Q) ∧
      s.verifyBytes F pk dg sig =
        some (decide ((s.add c.1 d.1 c.2 d.2).1.fmod s.q = (r : Int))) := by
  have : Fact q.Prime := ⟨hg.qprime⟩
  have hq0 := hg.qprime.pos
  have hE := stdE_range q (by have := hg.qodd; omega) dg
  obtain ⟨z1, z2, e1, e2, f1, f2, g1, g2, g3, g4⟩ :=
    z_values hg.hq (stdE q dg) r sg hE.1 hE.2 h.1 h.2.1 h.2.2.1 h.2.2.2
  obtain ⟨c, hc1, hc2⟩ := hg.mulPoint F z1 g1 (by omega) (noWrap_of_lt g1 g2)
  have hst : (if ((beNat (pk.take s.size) : Nat) : Int) > 0 ∧ ((beNat (pk.drop s.size) : Nat) : Int) > 0 then
      (((beNat (pk.take s.size) : Nat) : Int), ((beNat (pk.drop s.size) : Nat) : Int)) else (s.x, s.y)) =
      startPair s (beNat (pk.take s.size)) (beNat (pk.drop s.size)) := by
    unfold startPair
    simp only [gt_iff_lt, Int.natCast_pos]
  obtain ⟨d, hd1, hd2⟩ := mulPoint_rep hg.hp hg.size hg.qprime hg.qodd F z2
    (beNat (pk.take s.size) : Nat) (beNat (pk.drop s.size) : Nat) Q (by rw [hst]; exact hQ) ho g3 (by omega)
    (noWrap_of_lt g3 g4)
  refine ⟨z1, z2, c, d, by rw [stdPoint, f1, f2], f1, g1, g2, g3, g4, hc2, hd2, ?_⟩
  unfold Sig.verifyBytes
  simp only [pyUpto_nat, pyFrom_nat, bytesToInt_eq, hr, hs]
  have hst1 : s.verifyStep1 r sg = true := by
    unfold verifyStep1
    rw [hg.hq]
    simp only [Bool.not_eq_true', Bool.or_eq_false_iff, decide_eq_false_iff_not]
    omega
  rw [hst1, setE_eq s q hg.hq (by have := hg.qodd; omega) hg.qsize dg, e1, e2, hc1, hd1]
  show some _ = some _
  congr 1
  have hb := fmod_range q hq0 (s.add c.1 d.1 c.2 d.2).1
  rw [← hg.hq] at hb
  rw [Bool.eq_iff_iff, decide_eq_true_eq]
  have hqs := hg.qsize
  have hqq := hg.hq
  exact compare_reduced (p := q) s.size hqs _ _ hb.1 (by omega) (by omega) (by omega)

end Gost.Sig
