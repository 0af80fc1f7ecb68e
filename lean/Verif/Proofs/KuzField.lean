import Verif.Props.Field
import Mathlib.RingTheory.AdjoinRoot
import Mathlib.LinearAlgebra.FiniteDimensional.Lemmas
import Mathlib.Algebra.Polynomial.Roots

/-! The bytes of Kuznechik as the field with 256 elements, and the linear transformation as a recurrence in it. -/

namespace Gost.Kuz
open Polynomial
open Spec (gfMul bitPoly kuzPoly)

/-! ### Every byte but 0 has an inverse; the polynomial is irreducible -/

/-- The inverses of the bytes; 0 has none. -/
def inverses : List UInt8 := [
  0, 1, 225, 190, 145, 106, 95, 129, 169, 127, 53, 101, 206, 83, 161, 38, 181, 163, 222, 30, 251, 118, 211, 49,
  103, 208, 200, 148, 177, 35, 19, 223, 187, 244, 176, 29, 111, 108, 15, 160, 156, 93, 59, 241, 136, 205, 249, 195,
  210, 23, 104, 97, 100, 10, 74, 218, 185, 174, 240, 42, 232, 132, 142, 147, 188, 113, 122, 139, 88, 246, 239, 124,
  214, 221, 54, 219, 230, 167, 80, 170, 78, 171, 207, 13, 252, 158, 153, 114, 68, 247, 135, 165, 157, 41, 128, 6,
  105, 51, 234, 237, 52, 11, 209, 24, 50, 96, 5, 144, 37, 110, 109, 36, 189, 65, 87, 152, 120, 196, 21, 250,
  116, 197, 66, 138, 71, 238, 168, 9, 94, 7, 217, 242, 61, 233, 164, 90, 44, 204, 123, 67, 150, 199, 62, 146,
  107, 4, 143, 63, 27, 201, 140, 198, 115, 86, 178, 183, 40, 92, 85, 253, 39, 14, 180, 17, 134, 91, 231, 77,
  126, 8, 79, 81, 173, 172, 57, 184, 34, 28, 154, 182, 162, 16, 179, 155, 175, 56, 245, 32, 64, 112, 3, 224,
  213, 226, 248, 47, 117, 121, 151, 141, 26, 149, 228, 255, 137, 45, 12, 82, 25, 102, 48, 22, 227, 192, 72, 220,
  243, 130, 55, 75, 215, 73, 18, 31, 191, 2, 193, 212, 202, 254, 76, 166, 60, 133, 98, 236, 235, 99, 125, 70,
  58, 43, 131, 216, 33, 186, 69, 89, 194, 46, 119, 20, 84, 159, 229, 203]

theorem inverses_fin : ∀ n : Fin 256, n ≠ 0 → gfMul (inverses.getD n 0) (UInt8.ofNat n) = 1 := by decide +kernel

theorem exists_inverse (b : UInt8) (h : b ≠ 0) : ∃ c, gfMul c b = 1 := by
  refine ⟨inverses.getD b.toNat 0, ?_⟩
  have := inverses_fin ⟨b.toNat, b.toNat_lt⟩ (by
    intro e
    apply h
    have := congrArg Fin.val e
    exact UInt8.toNat_inj.1 this)
  simpa using this

theorem mk_gfMul (a b : UInt8) : AdjoinRoot.mk kuzPoly (bitPoly (gfMul a b).toNat) =
    AdjoinRoot.mk kuzPoly (bitPoly a.toNat) * AdjoinRoot.mk kuzPoly (bitPoly b.toNat) := by
  rw [gfMul_poly, ← map_mul, AdjoinRoot.mk_eq_mk, modByMonic_eq_sub_mul_div]
  exact ⟨-(bitPoly a.toNat * bitPoly b.toNat /ₘ kuzPoly), by ring⟩

theorem mk_inj (a b : UInt8) (h : AdjoinRoot.mk kuzPoly (bitPoly a.toNat) = AdjoinRoot.mk kuzPoly (bitPoly b.toNat)) :
    a = b := by
  rw [AdjoinRoot.mk_eq_mk] at h
  have hd : (bitPoly a.toNat - bitPoly b.toNat).degree < kuzPoly.degree := by
    rw [kuzPoly_degree]
    exact lt_of_le_of_lt (degree_sub_le _ _) (max_lt (bitPoly_degree a.toNat_lt) (bitPoly_degree b.toNat_lt))
  have := eq_zero_of_dvd_of_degree_lt h hd
  exact UInt8.toNat_inj.1 (bitPoly_inj (sub_eq_zero.1 this))

/-- Every polynomial of degree below 8 over the field with two elements is written by a byte. -/
theorem exists_byte (f : (ZMod 2)[X]) (hf : f.natDegree < 8) : ∃ b : UInt8, f = bitPoly b.toNat := by
  have key : ∀ n, n ≤ 8 → ∃ a, a < 2 ^ n ∧ ∀ i, i < n → (bitPoly a).coeff i = f.coeff i := by
    intro n
    induction n with
    | zero => exact fun _ => ⟨0, by norm_num, fun i hi => absurd hi (Nat.not_lt_zero _)⟩
    | succ n ih =>
      intro hn
      obtain ⟨a, ha, h⟩ := ih (by omega)
      rcases (show ∀ x : ZMod 2, x = 0 ∨ x = 1 by decide) (f.coeff n) with h0 | h1
      · refine ⟨a, by rw [pow_succ]; omega, fun i hi => ?_⟩
        rcases Nat.lt_succ_iff_lt_or_eq.1 hi with h' | rfl
        · exact h i h'
        · rw [h0, bitPoly_coeff, Nat.testBit_lt_two_pow ha]; rfl
      · refine ⟨a ^^^ 2 ^ n, Nat.xor_lt_two_pow (by rw [pow_succ]; omega) (Nat.pow_lt_pow_right (by norm_num) (by omega)),
          fun i hi => ?_⟩
        rw [bitPoly_xor, bitPoly_pow, coeff_add, coeff_X_pow]
        rcases Nat.lt_succ_iff_lt_or_eq.1 hi with h' | rfl
        · rw [h i h', if_neg (by omega), add_zero]
        · rw [if_pos rfl, h1, bitPoly_coeff, Nat.testBit_lt_two_pow ha]; rfl
  obtain ⟨a, ha, h⟩ := key 8 (Nat.le_refl _)
  refine ⟨UInt8.ofNat a, ?_⟩
  rw [UInt8.toNat_ofNat', Nat.mod_eq_of_lt ha]
  ext i
  by_cases hi : i < 8
  · exact (h i hi).symm
  · rw [coeff_eq_zero_of_natDegree_lt (by omega), coeff_eq_zero_of_degree_lt]
    exact lt_of_lt_of_le (bitPoly_degree ha) (by exact_mod_cast (by omega : 8 ≤ i))

theorem kuzPoly_irreducible : Irreducible kuzPoly := by
  have hdeg : kuzPoly.natDegree = 8 := natDegree_eq_of_degree_eq_some kuzPoly_degree
  refine (kuzPoly_monic.irreducible_iff_natDegree' ).2 ⟨?_, ?_⟩
  · intro e
    rw [e] at hdeg
    simp at hdeg
  · intro f g hf hg e hm
    rw [hdeg, Finset.mem_Ioc] at hm
    have hfg : f.natDegree + g.natDegree = 8 := by rw [← hdeg, ← e, hf.natDegree_mul hg]
    obtain ⟨a, ea⟩ := exists_byte f (by omega)
    obtain ⟨b, eb⟩ := exists_byte g (by omega)
    have ha : a ≠ 0 := by
      rintro rfl
      exact hf.ne_zero (by rw [ea]; exact bitPoly_zero)
    have hb : b ≠ 0 := by
      rintro rfl
      exact hg.ne_zero (by rw [eb]; exact bitPoly_zero)
    obtain ⟨c, hc⟩ := exists_inverse a ha
    have h1 : AdjoinRoot.mk kuzPoly (bitPoly a.toNat) * AdjoinRoot.mk kuzPoly (bitPoly b.toNat) = 0 := by
      rw [← map_mul, ← ea, ← eb, e]
      exact AdjoinRoot.mk_self
    have h2 : AdjoinRoot.mk kuzPoly (bitPoly c.toNat) * AdjoinRoot.mk kuzPoly (bitPoly a.toNat) = 1 := by
      rw [← mk_gfMul, hc, show bitPoly (1 : UInt8).toNat = 1 by simp [bitPoly], map_one]
    have h3 : AdjoinRoot.mk kuzPoly (bitPoly b.toNat) = 0 := by
      calc _ = (AdjoinRoot.mk kuzPoly (bitPoly c.toNat) * AdjoinRoot.mk kuzPoly (bitPoly a.toNat)) *
            AdjoinRoot.mk kuzPoly (bitPoly b.toNat) := by rw [h2, one_mul]
        _ = 0 := by rw [mul_assoc, h1, mul_zero]
    exact hb (mk_inj b 0 (by rw [h3]; simp [bitPoly]))

instance : Fact (Irreducible kuzPoly) := ⟨kuzPoly_irreducible⟩

/-- The field with 256 elements. -/
abbrev KF := AdjoinRoot kuzPoly

/-- A byte as an element of the field. -/
noncomputable def el (b : UInt8) : KF := AdjoinRoot.mk kuzPoly (bitPoly b.toNat)

theorem el_inj {a b : UInt8} (h : el a = el b) : a = b := mk_inj a b h

theorem el_mul (a b : UInt8) : el (gfMul a b) = el a * el b := mk_gfMul a b

theorem el_xor (a b : UInt8) : el (a ^^^ b) = el a + el b := by
  unfold el
  rw [UInt8.toNat_xor, bitPoly_xor, map_add]

theorem el_zero : el 0 = 0 := by unfold el; simp [bitPoly]

theorem el_one : el 1 = 1 := by unfold el; rw [show bitPoly (1 : UInt8).toNat = 1 by simp [bitPoly], map_one]

theorem two_eq_zero (x : KF) : x + x = 0 := by
  have : (2 : KF) = 0 := by
    have h : (2 : KF) = AdjoinRoot.of kuzPoly 2 := (map_ofNat _ 2).symm
    rw [h, show (2 : ZMod 2) = 0 by decide, map_zero]
  rw [← two_mul, this, zero_mul]

/-! ### The roots of the recurrence -/

/-- The powers of a byte. -/
def gpow (a : UInt8) : Nat → UInt8
  | 0 => 1
  | n + 1 => gfMul (gpow a n) a

theorem el_gpow (a : UInt8) (n : Nat) : el (gpow a n) = el a ^ n := by
  induction n with
  | zero => rw [gpow, el_one, pow_zero]
  | succ n ih => rw [gpow, el_mul, ih, pow_succ]

/-- The value of x^16 minus the linear form at (x^15, …, 1). -/
def charVal (x : UInt8) : UInt8 := Spec.Kuz.coeffs.foldl (fun r c => gfMul r x ^^^ c) 1

/-- The powers 120 to 135 of 39. -/
def roots16 : List UInt8 := [117, 48, 95, 239, 219, 24, 206, 150, 140, 12, 103, 75, 70, 6, 210, 196]

theorem charVal_roots : ∀ k : Fin 16, charVal (roots16.getD k 0) = 0 := by decide +kernel

theorem roots16_step : ∀ k : Fin 15, roots16.getD (k + 1) 0 = gfMul (roots16.getD k 0) 39 := by decide +kernel

theorem roots16_start : gpow 39 15 = 10 ∧ gfMul 10 10 = 68 ∧ gfMul 68 68 = 125 ∧ gfMul 125 125 = 117 := by
  decide +kernel

theorem gpow_distinct : ∀ i j : Fin 32, gpow 39 i = gpow 39 j → i = j := by decide +kernel

/-- The byte 39, of order 255. -/
noncomputable def gen : KF := el 39

theorem gen_ne : gen ≠ 0 := by
  intro h
  rw [gen, ← el_zero] at h
  exact absurd (el_inj h) (by decide)

theorem gen_distinct {i j : Nat} (hi : i < 32) (hj : j < 32) (h : gen ^ i = gen ^ j) : i = j := by
  unfold gen at h
  rw [← el_gpow, ← el_gpow] at h
  exact congrArg Fin.val (gpow_distinct ⟨i, hi⟩ ⟨j, hj⟩ (el_inj h))

theorem roots16_eq (k : Nat) (hk : k < 16) : el (roots16.getD k 0) = gen ^ (120 + k) := by
  induction k with
  | zero =>
    obtain ⟨h1, h2, h3, h4⟩ := roots16_start
    show el 117 = gen ^ 120
    rw [← h4, el_mul, ← h3, el_mul, ← h2, el_mul, ← h1, el_gpow]
    unfold gen
    ring
  | succ k ih => rw [roots16_step ⟨k, by omega⟩, el_mul, ih (by omega), ← Nat.add_assoc, pow_succ, gen]

theorem gen_root (k : Fin 16) (x : KF) (hx : x = gen ^ (120 + (k : Nat))) :
    x ^ 16 = el 148 * x ^ 15 + el 32 * x ^ 14 + el 133 * x ^ 13 + el 16 * x ^ 12 + el 194 * x ^ 11 + el 192 * x ^ 10 +
      el 1 * x ^ 9 + el 251 * x ^ 8 + el 1 * x ^ 7 + el 192 * x ^ 6 + el 194 * x ^ 5 + el 16 * x ^ 4 + el 133 * x ^ 3 +
      el 32 * x ^ 2 + el 148 * x + el 1 := by
  have h := congrArg el (charVal_roots k)
  rw [el_zero] at h
  unfold charVal Spec.Kuz.coeffs at h
  simp only [List.foldl_cons, List.foldl_nil, el_xor, el_mul] at h
  rw [roots16_eq k k.2, ← hx, el_one, one_mul] at h
  have h2 := two_eq_zero (el 148 * x ^ 15 + el 32 * x ^ 14 + el 133 * x ^ 13 + el 16 * x ^ 12 + el 194 * x ^ 11 + el 192 * x ^ 10 +
      el 1 * x ^ 9 + el 251 * x ^ 8 + el 1 * x ^ 7 + el 192 * x ^ 6 + el 194 * x ^ 5 + el 16 * x ^ 4 + el 133 * x ^ 3 +
      el 32 * x ^ 2 + el 148 * x + el 1)
  rw [el_one] at h2 ⊢
  linear_combination h - h2

end Gost.Kuz
