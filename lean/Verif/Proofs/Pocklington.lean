import Mathlib.NumberTheory.LucasPrimality
import Mathlib.Data.ZMod.Basic
import Mathlib.FieldTheory.Finite.Basic

/-! Pocklington's criterion with a modular power which the kernel can evaluate; used for the primality of the
parameters of the built-in curves. -/

namespace Gost.Prime

/-- b^e mod m by squaring; the first argument is the number of binary digits of `e`. -/
def powMod (m : Nat) : Nat → Nat → Nat → Nat
  | 0, _, _ => 1 % m
  | F + 1, b, e =>
    let r := powMod m F (b * b % m) (e / 2)
    if e % 2 = 1 then b * r % m else r

theorem powMod_eq (m F : Nat) : ∀ b e, e < 2 ^ F → powMod m F b e = b ^ e % m := by
  induction F with
  | zero =>
    intro b e h
    have : e = 0 := by simpa using h
    subst this
    simp [powMod]
  | succ F ih =>
    intro b e h
    rw [powMod, ih (b * b % m) (e / 2) (by rw [pow_succ] at h; omega)]
    have h1 : (b * b % m) ^ (e / 2) % m = b ^ (2 * (e / 2)) % m := by
      rw [← Nat.pow_mod, pow_mul, pow_two]
    rw [h1]
    by_cases he : e % 2 = 1
    · rw [if_pos he]
      have : e = 2 * (e / 2) + 1 := by omega
      conv_rhs => rw [this, pow_succ, mul_comm]
      rw [Nat.mul_mod, Nat.mod_mod, ← Nat.mul_mod]
    · rw [if_neg he]
      have : e = 2 * (e / 2) := by omega
      conv_rhs => rw [this]

/-- The checks of a certificate: `a` witnesses the prime divisors `fs` of n - 1 whose product exceeds √n. -/
def check (n a : Nat) (fs : List Nat) : Bool :=
  decide (1 < n) && decide (n < 2 ^ 520) && (n - 1) % fs.prod == 0 && decide (n < fs.prod * fs.prod) &&
  powMod n 520 a (n - 1) == 1 &&
  fs.all fun r => Nat.gcd (powMod n 520 a ((n - 1) / r) + (n - 1)) n == 1

theorem prime_of_check (n a : Nat) (fs : List Nat) (hfs : ∀ r ∈ fs, r.Prime) (h : check n a fs = true) :
    n.Prime := by
  simp only [check, Bool.and_eq_true, decide_eq_true_eq, beq_iff_eq, List.all_eq_true] at h
  obtain ⟨⟨⟨⟨⟨h1, h2⟩, h3⟩, h4⟩, h5⟩, h6⟩ := h
  obtain ⟨R, hR⟩ := Nat.dvd_of_mod_eq_zero h3
  rw [powMod_eq _ _ _ _ (by omega)] at h5
  have hl : n.minFac.Prime := Nat.minFac_prime (by omega)
  have : Fact n.minFac.Prime := ⟨hl⟩
  have hdvd := Nat.minFac_dvd n
  have hF0 : fs.prod ≠ 0 := by
    intro h0
    rw [h0] at h4
    omega
  have ha1 : (a : ZMod n.minFac) ^ (n - 1) = 1 := by
    have : ((a ^ (n - 1) : Nat) : ZMod n.minFac) = ((1 : Nat) : ZMod n.minFac) := by
      rw [ZMod.natCast_eq_natCast_iff]
      have h7 : a ^ (n - 1) ≡ 1 [MOD n] := by
        rw [Nat.ModEq, h5, Nat.mod_eq_of_lt h1]
      exact h7.of_dvd hdvd
    simpa using this
  have hord : orderOf ((a : ZMod n.minFac) ^ R) = fs.prod := by
    apply orderOf_eq_of_pow_and_pow_div_prime (Nat.pos_of_ne_zero hF0)
    · rw [← pow_mul, mul_comm, ← hR, ha1]
    · intro r hr hrd
      have hmem : r ∈ fs := by
        obtain ⟨r', hr', hd'⟩ := (Prime.dvd_prod_iff (Nat.prime_iff.1 hr)).1 hrd
        rcases (Nat.dvd_prime (hfs r' hr')).1 hd' with h | h
        · exact absurd h hr.one_lt.ne'
        · rw [h]; exact hr'
      intro hcon
      have hg := h6 r hmem
      rw [powMod_eq _ _ _ _ (by have := Nat.div_le_self (n - 1) r; omega)] at hg
      have hdiv : (n - 1) / r = R * (fs.prod / r) := by
        rw [hR, mul_comm, Nat.mul_div_assoc _ hrd]
      rw [← pow_mul, ← hdiv] at hcon
      have hz : ((a ^ ((n - 1) / r) % n + (n - 1) : Nat) : ZMod n.minFac) = 0 := by
        have h8 : ((a ^ ((n - 1) / r) % n : Nat) : ZMod n.minFac) = ((a ^ ((n - 1) / r) : Nat) : ZMod n.minFac) := by
          rw [ZMod.natCast_eq_natCast_iff]
          exact (Nat.mod_modEq _ n).of_dvd hdvd
        rw [Nat.cast_add, h8, Nat.cast_pow, hcon, ← Nat.cast_one, ← Nat.cast_add,
          show 1 + (n - 1) = n by omega, ZMod.natCast_eq_zero_iff]
        exact hdvd
      rw [ZMod.natCast_eq_zero_iff] at hz
      have := Nat.dvd_gcd hz hdvd
      rw [hg] at this
      exact hl.one_lt.ne' (Nat.dvd_one.1 this)
  have ha0 : (a : ZMod n.minFac) ≠ 0 := by
    intro h0
    rw [h0, zero_pow (by omega)] at ha1
    exact zero_ne_one ha1
  have hle : fs.prod ≤ n.minFac - 1 := by
    have hb : ((a : ZMod n.minFac) ^ R) ^ (n.minFac - 1) = 1 := ZMod.pow_card_sub_one_eq_one (pow_ne_zero _ ha0)
    have := orderOf_dvd_of_pow_eq_one hb
    rw [hord] at this
    exact Nat.le_of_dvd (by have := hl.two_le; omega) this
  by_contra hnp
  have hsq := Nat.minFac_sq_le_self (by omega) hnp
  have h2le := hl.two_le
  have hle' : fs.prod ≤ n.minFac := by omega
  have := Nat.mul_le_mul hle' hle'
  rw [pow_two] at hsq
  omega

end Gost.Prime
