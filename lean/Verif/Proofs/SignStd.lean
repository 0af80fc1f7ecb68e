import Verif.Proofs.Sign

/-! `sign` and `verify` against the standard. -/

namespace Gost.Sig
open Spec (beNat beBytes)
open WeierstrassCurve.Affine

variable {s : Sig} {p q : Nat} [Fact p.Prime] {P : (curve s p).Point}

/-- The x coordinate of a represented point modulo `q`. -/
theorem xmod_iff (hq : s.q = q) {c : Int × Int} {C : (curve s p).Point} (hc : Rep s p c C) (r : Nat) :
    XMod q C r ↔ c.1.fmod s.q = (r : Int) := by
  obtain ⟨h1, h2, h3, h4, h5, rfl⟩ := hc
  have hv : ((c.1 : ZMod p).val : Int) = c.1 := by
    rw [ZMod.val_intCast, Int.emod_eq_of_lt h1 h2]
  have hm : c.1.fmod s.q = ((((c.1 : ZMod p).val) % q : Nat) : Int) := by
    rw [hq, Int.fmod_eq_emod_of_nonneg _ (by omega), Int.natCast_emod, hv]
  rw [hm]
  constructor
  · rintro ⟨x, y, h, he, hx⟩
    injection he with e1 e2
    subst e1
    rw [hx]
  · intro h
    exact ⟨_, _, h5, rfl, by exact_mod_cast h⟩

theorem xmod_exists (hq : s.q = q) (hq0 : 0 < q) {c : Int × Int} {C : (curve s p).Point} (hc : Rep s p c C) :
    ∃ r : Nat, c.1.fmod s.q = (r : Int) ∧ r < q := by
  have := fmod_range q hq0 c.1
  rw [← hq] at this
  exact ⟨(c.1.fmod s.q).toNat, by omega, by omega⟩

theorem Good.mulPoint (hg : Good s p q P) (F k : Nat) (hk : 0 < k) (hF : k ≤ 2 ^ F) (hw : NoWrap q k) :
    ∃ e, s.mulPoint F (k : Int) = some e ∧ Rep s p e (k • P) :=
  mulPoint_rep hg.hp hg.size hg.qprime hg.qodd F k (-1) (-1) P (by simpa using hg.base) hg.order hk hF hw

theorem mulPoint_zero (F : Nat) (x y : Int) : s.mulPoint F 0 x y = none := by
  rw [mulPoint_eq F 0 x y _ rfl]
  exact mulLoop_neg F _ _ _ (by omega)

/-- The loops of `sign` compute the signature of the standard, or do not end. -/
theorem Good.signOuter (hg : Good s p q P) (F : Nat) (hF : q ≤ 2 ^ F) (d e k : Nat) (hk : k < q) :
    (∃ r sg : Nat, StdSign s p q P d e k r sg ∧ r < q ∧ sg < q ∧
      signOuter s F d e k F 0 0 = some ((r : Int), (sg : Int))) ∨
    ((∀ r sg, ¬ StdSign s p q P d e k r sg) ∧ signOuter s F d e k F 0 0 = none) := by
  have hq0 : 0 < q := hg.qprime.pos
  have hF0 : 0 < F := by
    rcases Nat.eq_zero_or_pos F with h | h
    · have := hg.qodd; subst h; omega
    · exact h
  rw [signOuter_eq s q hg.hq hq0 hg.qsize F hF0]
  by_cases hk0 : k = 0
  · subst hk0
    right
    refine ⟨fun r sg h => by have := h.1; omega, ?_⟩
    rw [show ((0 : Nat) : Int) = 0 from rfl, mulPoint_zero]
  · obtain ⟨c, hc1, hc2⟩ := hg.mulPoint F k (by omega) (by omega) (noWrap_of_lt (by omega) hk)
    obtain ⟨r, hr, hrq⟩ := xmod_exists hg.hq hq0 hc2
    rw [hc1]
    dsimp only
    rw [hr]
    have hsg : ((r : Int) * d + k * e).fmod s.q = (((r * d + k * e) % q : Nat) : Int) := by
      rw [hg.hq, Int.fmod_eq_emod_of_nonneg _ (by omega)]; push_cast; rfl
    rw [hsg]
    have huniq : ∀ r', XMod q (k • P) r' → r' = r := by
      intro r' h'
      have := (xmod_iff hg.hq hc2 r').1 h'
      omega
    by_cases hr0 : r = 0
    · right
      refine ⟨fun r' sg h => ?_, by rw [if_pos (by omega)]⟩
      obtain ⟨-, -, h3, h4, -⟩ := h
      rw [huniq r' h3] at h4
      exact h4 hr0
    · rw [if_neg (by omega)]
      by_cases hs0 : (r * d + k * e) % q = 0
      · right
        refine ⟨fun r' sg h => ?_, by rw [if_pos (by omega)]⟩
        obtain ⟨-, -, h3, -, h5, h6⟩ := h
        rw [huniq r' h3] at h5
        omega
      · left
        refine ⟨r, (r * d + k * e) % q, ⟨by omega, hk, (xmod_iff hg.hq hc2 r).2 hr, hr0, rfl, hs0⟩, hrq,
          Nat.mod_lt _ hq0, by rw [if_neg (by omega)]⟩

/-- Points of odd prime order have no zero y coordinate. -/
theorem y_ne_zero (hq : q.Prime) (hodd : 2 < q) {c : Int × Int} {Q : (curve s p).Point} (hc : Rep s p c Q)
    (ho : addOrderOf Q = q) : c.2 ≠ 0 := by
  intro h0
  have h2 := two_pow_ne_zero hq hodd Q ho 1
  obtain ⟨-, -, -, -, h5, rfl⟩ := hc
  apply h2
  rw [pow_one, two_nsmul]
  refine Point.add_of_Y_eq rfl ?_
  rw [WeierstrassCurve.Affine.negY]
  simp [curve, h0]

/-- The code's addition of a point and its negative. -/
theorem add_neg_rep (hsp : s.p = p) (hsize : p ≤ 256 ^ s.size) {c d : Int × Int} {C D : (curve s p).Point}
    (hc : Rep s p c C) (hd : Rep s p d D) (h0 : C + D = 0) (hy : c.2 ≠ 0) (hp2 : 2 < p) :
    (s.add c.1 d.1 c.2 d.2).1 = (-2 * c.1).fmod s.p := by
  obtain ⟨x1, y1⟩ := c
  obtain ⟨x2, y2⟩ := d
  obtain ⟨h1, h2, h3, h4, h5, rfl⟩ := hc
  obtain ⟨k1, k2, k3, k4, k5, rfl⟩ := hd
  dsimp only at *
  have hxy : (x1 : ZMod p) = x2 ∧ (y1 : ZMod p) = (curve s p).negY x2 y2 := by
    by_contra hxy
    rw [Point.add_some hxy] at h0
    exact absurd h0 (Point.some_ne_zero _)
  have hx : x1 = x2 := cast_inj _ _ h1 h2 k1 k2 hxy.1
  subst hx
  have hyy : (y1 : ZMod p) = -(y2 : ZMod p) := by
    rw [hxy.2, WeierstrassCurve.Affine.negY]
    simp [curve]
  have hne : y1 ≠ y2 := by
    rintro rfl
    have h2y : (2 : ZMod p) * (y1 : ZMod p) = 0 := by linear_combination hyy
    rcases mul_eq_zero.1 h2y with h | h
    · have := (ZMod.natCast_eq_zero_iff 2 p).1 (by exact_mod_cast h)
      have := Nat.le_of_dvd (by omega) this
      omega
    · exact hy (cast_inj _ _ h3 h4 (by omega) (by omega) (by simpa using h))
  have e1 : compare (intToBytes y1 s.size) (intToBytes y2 s.size) = false := by
    rw [Bool.eq_false_iff]
    exact fun h => hne ((compare_reduced s.size hsize y1 y2 h3 h4 k3 k4).1 h)
  have hp0 : s.p ≠ 0 := by rw [hsp]; omega
  have hinv : invert 0 s.p = 0 := by
    unfold invert
    rw [gcdex_ne 0 s.p hp0, Int.zero_fmod, gcdex_zero]
    rfl
  unfold add
  dsimp only
  rw [e1, Bool.and_false, if_neg (by simp), sub_self, Int.zero_fmod, hinv, mul_zero, Int.zero_fmod]
  congr 1
  ring

end Gost.Sig
