import Verif.Model.Signature
import Mathlib.Algebra.Field.ZMod
import Mathlib.Tactic.Ring
import Mathlib.Tactic.LinearCombination

/-! The extended Euclidean algorithm of `_invert`. -/

namespace Gost.Sig

theorem gcdex_zero (v : Int) : gcdex v 0 = (v, 1, 0) := by
  rw [gcdex]; simp

theorem gcdex_ne (v n : Int) (h : n ≠ 0) :
    gcdex v n = ((gcdex n (v.fmod n)).1, (gcdex n (v.fmod n)).2.2,
      (gcdex n (v.fmod n)).2.1 - (gcdex n (v.fmod n)).2.2 * (v.fdiv n)) := by
  rw [gcdex]; simp [h]

theorem gcdex_spec (N : Nat) : ∀ v n : Int, n.natAbs < N →
    v * (gcdex v n).2.1 + n * (gcdex v n).2.2 = (gcdex v n).1 ∧
      (gcdex v n).1 ∣ v ∧ (gcdex v n).1 ∣ n ∧ (0 ≤ n → (n = 0 → 0 ≤ v) → 0 ≤ (gcdex v n).1) := by
  induction N with
  | zero => intro v n h; omega
  | succ N ih =>
    intro v n hN
    by_cases h : n = 0
    · subst h
      rw [gcdex_zero]
      exact ⟨by ring, dvd_refl v, dvd_zero v, fun _ h => h rfl⟩
    · obtain ⟨h1, h2, h3, h4⟩ := ih n (v.fmod n) (by have := natAbs_fmod_lt v n h; omega)
      rw [gcdex_ne v n h]
      generalize gcdex n (v.fmod n) = r at *
      have hdm := Int.mul_fdiv_add_fmod v n
      refine ⟨?_, ?_, h2, fun hn _ => h4 (Int.fmod_nonneg_of_pos _ (by omega)) fun _ => hn⟩
      · show v * r.2.2 + n * (r.2.1 - r.2.2 * v.fdiv n) = r.1
        rw [← h1]
        linear_combination (-r.2.2) * hdm
      · show r.1 ∣ v
        rw [← hdm]
        exact dvd_add (dvd_mul_of_dvd_left h2 _) h3

theorem cast_fmod (p : Nat) (v : Int) : ((v.fmod (p : Int) : Int) : ZMod p) = (v : ZMod p) := by
  rw [Int.fmod_eq_emod_of_nonneg _ (Int.natCast_nonneg p), ZMod.intCast_mod]

theorem fmod_range (p : Nat) (hp : 0 < p) (v : Int) : 0 ≤ v.fmod (p : Int) ∧ v.fmod (p : Int) < p :=
  ⟨Int.fmod_nonneg_of_pos _ (by omega), Int.fmod_lt_of_pos _ (by omega)⟩

/-- `_invert` is the inverse modulo a prime, 0 for multiples of the modulus. -/
theorem invert_cast (p : Nat) [hp : Fact p.Prime] (v : Int) :
    ((invert v p : Int) : ZMod p) = ((v : Int) : ZMod p)⁻¹ := by
  have hp0 : (p : Int) ≠ 0 := by exact_mod_cast hp.1.ne_zero
  have hx : ((invert v p : Int) : ZMod p) = (((gcdex v p).2.1 : Int) : ZMod p) := by
    unfold invert
    dsimp only
    split
    · push_cast; simp
    · rfl
  rw [hx]
  by_cases hv : ((v : Int) : ZMod p) = 0
  · have hd : (p : Int) ∣ v := (ZMod.intCast_zmod_eq_zero_iff_dvd v p).1 hv
    have : v.fmod p = 0 := Int.fmod_eq_zero_of_dvd hd
    rw [gcdex_ne v p hp0, this, gcdex_zero, hv]
    simp
  · obtain ⟨h1, h2, h3, h0⟩ := gcdex_spec ((p : Int).natAbs + 1) v p (by omega)
    generalize gcdex v p = r at *
    have h4 := congrArg (fun z : Int => (z : ZMod p)) h1
    simp only [Int.cast_add, Int.cast_mul, Int.cast_natCast, CharP.cast_eq_zero, zero_mul, add_zero] at h4
    have hnd : ¬ (p : Int) ∣ v := fun h => hv ((ZMod.intCast_zmod_eq_zero_iff_dvd v p).2 h)
    have hg : r.1 = 1 := by
      have h5 : r.1.natAbs ∣ p := by
        have := Int.natAbs_dvd_natAbs.2 h3
        simpa using this
      have h7 := h0 (by omega) (fun h => absurd h hp0)
      rcases (Nat.dvd_prime hp.1).1 h5 with h6 | h6
      · omega
      · exfalso
        apply hnd
        have : (p : Int) ∣ r.1 := by
          rw [← Int.natAbs_dvd_natAbs, h6]; simp
        exact dvd_trans this h2
    rw [hg] at h4
    exact eq_inv_of_mul_eq_one_right (by simpa using h4)

end Gost.Sig
