import Verif.Proofs.EvalCurve
import Verif.Proofs.SignCalls
import Verif.Proofs.Primes
import Verif.Spec.CurveParams

/-! The built-in curves satisfy `Good`: their base points have the prime order q. -/

namespace Gost.Sig
open WeierstrassCurve.Affine

variable {s : Sig} {p q : Nat} [Fact p.Prime]

theorem exists_rep (hp2 : 2 < p) (hp : s.p = p) (hx : 0 ≤ s.x ∧ s.x < p) (hy : 0 < s.y ∧ s.y < p)
    (hon : OnCurve s) : ∃ P : (curve s p).Point, Rep s p (s.x, s.y) P := by
  have h2 : (2 : ZMod p) ≠ 0 := by
    intro h
    have := (ZMod.natCast_eq_zero_iff 2 p).1 (by exact_mod_cast h)
    have := Nat.le_of_dvd (by omega) this
    omega
  have hy0 : (s.y : ZMod p) ≠ 0 := by
    intro h
    have := cast_inj (p := p) s.y 0 (by omega) (by omega) (by omega) (by omega) (by simpa using h)
    omega
  have hns : (curve s p).Nonsingular (s.x : ZMod p) (s.y : ZMod p) := by
    rw [nonsingular_iff, equation_iff]
    constructor
    · unfold OnCurve at hon
      rw [hp, ← ZMod.intCast_zmod_eq_zero_iff_dvd] at hon
      push_cast at hon
      simp only [curve]
      linear_combination hon
    · right
      simp only [curve]
      intro h
      have : (2 : ZMod p) * s.y = 0 := by linear_combination h
      rcases mul_eq_zero.1 this with h | h
      · exact h2 h
      · exact hy0 h
  exact ⟨.some _ _ hns, hx.1, hx.2, hy.1.le, hy.2, hns, rfl⟩

/-- Everything about the parameters except primality, computed; `ls` are the slopes of the additions. -/
def goodCheck (s : Sig) (p q a x y ls : Nat) : Bool :=
  s.p == p && s.q == q && s.a == a && s.x == x && s.y == y &&
  decide (p ≤ 256 ^ s.size) && decide (q ≤ 256 ^ s.size) && decide (2 < p) && decide (2 < q) &&
  decide (x < p) && decide (0 < y) && decide (y < p) &&
  (s.y ^ 2 - (s.x ^ 3 + s.a * s.x + s.b)) % s.p == 0 &&
  mulS p a (2 ^ 512) 512 (q - 2) (x, y) (x, y) ls == some (x, p - y)

theorem good_of_check {a x y ls : Nat} (hq : q.Prime) (h : goodCheck s p q a x y ls = true) :
    ∃ P, Good s p q P := by
  simp only [goodCheck, Bool.and_eq_true, beq_iff_eq, decide_eq_true_eq] at h
  obtain ⟨⟨⟨⟨⟨⟨⟨⟨⟨⟨⟨⟨⟨a1, a2⟩, b1⟩, b2⟩, b3⟩, a3⟩, a4⟩, a5⟩, a6⟩, a8⟩, a9⟩, a10⟩, a11⟩, a12⟩ := h
  obtain ⟨P, hP⟩ := exists_rep a5 a1 ⟨by omega, by omega⟩ ⟨by omega, by omega⟩ (Int.dvd_of_emod_eq_zero a11)
  refine ⟨P, a1, a3, a2, hq, a6, a4, hP, ?_⟩
  rw [b2, b3] at hP
  exact order_of_check a1 b1 a3 hq a6 P x y hP _ _ ls a12

end Gost.Sig
