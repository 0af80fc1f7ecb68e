import Verif.Proofs.KuzField
import Verif.Proofs.Streebog
import Verif.Props.Diffusion

/-! The linear map of the hash on a 64-bit word as a generalised Reed-Solomon code over the field with 256 elements. -/

namespace Gost.Hash
open Polynomial Spec.Streebog
open Spec (gfMul)
open Kuz (KF el el_inj el_mul el_xor el_zero el_one el_gpow gpow two_eq_zero)

/-! ### The bytes of the hash in the field

The hash multiplies modulo another polynomial than Kuznechik. The fields are isomorphic; the map is given by the images of
the eight powers of the generator. -/

/-- The images of the bits. -/
def psiRow : List UInt8 := [1, 37, 155, 57, 241, 230, 8, 235]

/-- The sum of the images of the first n bits. -/
def psiSum (b : Nat) : Nat → UInt8
  | 0 => 0
  | n + 1 => (if b.testBit n then psiRow.getD n 0 else 0) ^^^ psiSum b n

theorem psiSum_xor (a b n : Nat) : psiSum (a ^^^ b) n = psiSum a n ^^^ psiSum b n := by
  induction n with
  | zero => simp [psiSum]
  | succ n ih =>
    simp only [psiSum, ih, Nat.testBit_xor]
    generalize psiRow.getD n 0 = r
    generalize psiSum a n = x
    generalize psiSum b n = y
    cases a.testBit n <;> cases b.testBit n <;> simp [UInt8.xor_assoc]
    · rw [← UInt8.xor_assoc, ← UInt8.xor_assoc, UInt8.xor_comm x r]
    · rw [← UInt8.xor_assoc x r y, UInt8.xor_comm x r, UInt8.xor_assoc r x y, ← UInt8.xor_assoc r r,
        UInt8.xor_self, UInt8.zero_xor]

theorem psiSum_zero : ∀ n : Fin 256, psiSum n 8 = 0 → n = 0 := by decide +kernel

/-- A byte of the hash as an element of the field. -/
noncomputable def psi (b : UInt8) : KF := el (psiSum b.toNat 8)

theorem psi_xor (a b : UInt8) : psi (a ^^^ b) = psi a + psi b := by
  unfold psi
  rw [UInt8.toNat_xor, psiSum_xor, el_xor]

theorem psi_zero : psi 0 = 0 := by
  unfold psi
  rw [show psiSum (0 : UInt8).toNat 8 = 0 by decide, el_zero]

theorem psi_eq_zero {b : UInt8} (h : psi b = 0) : b = 0 := by
  unfold psi at h
  rw [← el_zero] at h
  have := psiSum_zero ⟨b.toNat, b.toNat_lt⟩ (el_inj h)
  exact UInt8.toNat_inj.1 (congrArg Fin.val this)

/-! ### The matrix -/

/-- The byte number t of a word. -/
def byteAt (w t : Nat) : UInt8 := UInt8.ofNat (w >>> (8 * t))

theorem byteAt_xor (a b t : Nat) : byteAt (a ^^^ b) t = byteAt a t ^^^ byteAt b t := by
  unfold byteAt
  rw [Nat.shiftRight_xor_distrib, UInt8_ofNat_xor]

/-- The entries of the matrix: row i for the byte i of the argument, column t for the byte t of the value. -/
def matRow : List (List UInt8) := [
  [207, 5, 108, 251, 21, 22, 83, 117], [200, 176, 110, 157, 142, 183, 246, 150], [223, 160, 50, 247, 42, 85, 188, 204],
  [157, 52, 241, 200, 116, 73, 190, 228], [46, 226, 62, 224, 73, 116, 231, 36], [249, 211, 247, 50, 53, 184, 65, 175],
  [108, 35, 207, 237, 1, 134, 66, 182], [117, 84, 182, 217, 191, 246, 183, 207]]

def mat (i t : Nat) : UInt8 := (matRow.getD i []).getD t 0

theorem mat_bits : ∀ i t u : Fin 8,
    psiSum (byteAt (l ((2 : Nat) ^ (u : Nat) <<< (8 * (i : Nat)))) (t : Nat)).toNat 8 = gfMul (mat i t) (psiRow.getD u 0) := by decide +kernel

theorem l_zero : l 0 = 0 := by decide +kernel

theorem psiSum_pow : ∀ u : Fin 8, psiSum (2 ^ (u : Nat)) 8 = psiRow.getD u 0 := by decide +kernel

theorem shiftLeft_xor (a b n : Nat) : (a ^^^ b) <<< n = a <<< n ^^^ b <<< n := Nat.shiftLeft_xor_distrib

/-- The matrix is that of the map. -/
theorem mat_eq (i t : Nat) (hi : i < 8) (ht : t < 8) (d : Nat) (hd : d < 256) :
    psi (byteAt (l (d <<< (8 * i))) t) = el (mat i t) * el (psiSum d 8) := by
  have key : ∀ n, n ≤ 8 → ∀ d, d < 2 ^ n →
      psi (byteAt (l (d <<< (8 * i))) t) = el (mat i t) * el (psiSum d 8) := by
    intro n
    induction n with
    | zero =>
      intro _ d hd
      obtain rfl : d = 0 := by omega
      rw [Nat.zero_shiftLeft, l_zero, show byteAt 0 t = 0 by simp [byteAt], psi_zero, show psiSum 0 8 = 0 by decide, el_zero,
        mul_zero]
    | succ n ih =>
      intro hn d hd
      by_cases h : d < 2 ^ n
      · exact ih (by omega) d h
      · have hp : d - 2 ^ n < 2 ^ n := by rw [pow_succ] at hd; omega
        have e : d = (d - 2 ^ n) ^^^ 2 ^ n := by
          have := Nat.two_pow_add_eq_or_of_lt hp 1
          apply Nat.eq_of_testBit_eq
          intro j
          rw [Nat.testBit_xor, Nat.testBit_two_pow]
          have e2 : d = 2 ^ n + (d - 2 ^ n) := by omega
          by_cases hj : n = j
          · subst hj
            conv => lhs; rw [e2]
            rw [Nat.testBit_two_pow_add_eq]
            simp
          · rw [mul_one] at this
            conv => lhs; rw [e2, this]
            rw [Nat.testBit_or, Nat.testBit_two_pow]
            simp [hj]
        have h1 := ih (by omega) _ hp
        have h2 := mat_bits ⟨i, hi⟩ ⟨t, ht⟩ ⟨n, by omega⟩
        have h3 := psiSum_pow ⟨n, by omega⟩
        simp only at h2 h3
        rw [e, shiftLeft_xor, l_xor, byteAt_xor, psi_xor, h1, psiSum_xor, el_xor, mul_add]
        unfold psi
        rw [h2, el_mul, h3]
  exact key 8 (Nat.le_refl _) d hd

/-! ### The code -/

def ptX : List UInt8 := [1, 0, 8, 207, 4, 31, 217, 178]
def ptY : List UInt8 := [238, 80, 54, 33, 15, 196, 118, 93]
def mulA : List UInt8 := [7, 196, 146, 249, 127, 196, 172, 191]
def mulB : List UInt8 := [183, 123, 220, 37, 177, 172, 6, 229]

theorem code_eq : ∀ k t : Fin 8,
    (List.range 8).foldl (fun r i => r ^^^ gfMul (mat i t) (gfMul (mulA.getD i 0) (gpow (ptX.getD i 0) k))) 0 =
      gfMul (mulB.getD t 0) (gpow (ptY.getD t 0) k) := by decide +kernel

/-- The sixteen points are different. -/
theorem points_ne : ∀ i j : Fin 16, (ptX ++ ptY).getD i 0 = (ptX ++ ptY).getD j 0 → i = j := by decide +kernel

theorem mul_ne : ∀ i : Fin 8, mulA.getD i 0 ≠ 0 ∧ mulB.getD i 0 ≠ 0 := by decide +kernel

/-- The values of a polynomial of degree below 8. -/
noncomputable def poly8 (A : Fin 8 → KF) : KF[X] := ∑ k : Fin 8, C (A k) * X ^ (k : Nat)

theorem poly8_degree (A : Fin 8 → KF) : (poly8 A).natDegree < 8 := by
  unfold poly8
  refine lt_of_le_of_lt (natDegree_sum_le_of_forall_le (n := 7) _ _ fun k _ => ?_) (by norm_num)
  exact le_trans (natDegree_C_mul_X_pow_le _ _) (by omega)

theorem poly8_zero {A : Fin 8 → KF} (h : poly8 A = 0) : A = 0 := by
  funext k
  have := congrArg (fun f => f.coeff (k : Nat)) h
  simp only [poly8, finsetSum_coeff, coeff_C_mul, coeff_X_pow, coeff_zero] at this
  rw [Finset.sum_eq_single k] at this
  · simpa using this
  · intro j _ hj
    rw [if_neg (fun e => hj (Fin.ext e.symm)), mul_zero]
  · intro hk
    exact absurd (Finset.mem_univ k) hk

theorem poly8_eval (A : Fin 8 → KF) (x : KF) : (poly8 A).eval x = ∑ k : Fin 8, A k * x ^ (k : Nat) := by
  unfold poly8
  rw [eval_finsetSum]
  refine Finset.sum_congr rfl fun k _ => ?_
  rw [eval_mul, eval_C, eval_pow, eval_X]

/-- The points, as elements of the field. -/
noncomputable def pt (n : Nat) : KF := el ((ptX ++ ptY).getD n 0)

theorem pt_inj {i j : Nat} (hi : i < 16) (hj : j < 16) (h : pt i = pt j) : i = j :=
  congrArg Fin.val (points_ne ⟨i, hi⟩ ⟨j, hj⟩ (el_inj h))

theorem pt_low (i : Nat) (hi : i < 8) : pt i = el (ptX.getD i 0) := by
  unfold pt
  rw [List.getD_eq_getElem?_getD, List.getElem?_append_left (by exact hi), ← List.getD_eq_getElem?_getD]

theorem pt_high (i : Nat) : pt (8 + i) = el (ptY.getD i 0) := by
  unfold pt
  rw [List.getD_eq_getElem?_getD, List.getElem?_append_right (by simp [ptX]), ← List.getD_eq_getElem?_getD]
  simp [ptX]

/-- A polynomial of degree below 8 which is 0 at eight of the points is 0. -/
theorem poly8_points {A : Fin 8 → KF} (Z : Finset Nat) (hZ : ∀ n ∈ Z, n < 16 ∧ (poly8 A).eval (pt n) = 0)
    (hc : 8 ≤ Z.card) : A = 0 := by
  classical
  refine poly8_zero (eq_zero_of_natDegree_lt_card_of_eval_eq_zero' _ (Z.image pt) ?_ ?_)
  · intro x hx
    obtain ⟨n, hn, rfl⟩ := Finset.mem_image.1 hx
    exact (hZ n hn).2
  · rw [Finset.card_image_of_injOn]
    · exact lt_of_lt_of_le (poly8_degree A) hc
    · intro i hi j hj e
      exact pt_inj (hZ i hi).1 (hZ j hj).1 e

theorem el_ne {b : UInt8} (h : b ≠ 0) : el b ≠ 0 := fun e => h (el_inj (by rw [e, el_zero]))

/-- Every eight values are those of a polynomial, up to the multipliers. -/
theorem poly8_surj (v : Fin 8 → KF) :
    ∃ A, ∀ i : Fin 8, el (mulA.getD i 0) * (poly8 A).eval (pt i) = v i := by
  let Φ : (Fin 8 → KF) →ₗ[KF] (Fin 8 → KF) :=
    { toFun := fun A i => el (mulA.getD i 0) * (poly8 A).eval (pt i)
      map_add' := fun A B => by
        funext n
        simp only [poly8_eval, Pi.add_apply, add_mul, Finset.sum_add_distrib, mul_add]
      map_smul' := fun c A => by
        funext n
        simp only [poly8_eval, Pi.smul_apply, smul_eq_mul, RingHom.id_apply, mul_assoc]
        rw [← Finset.mul_sum]
        ring }
  have inj : Function.Injective Φ := by
    rw [← LinearMap.ker_eq_bot, LinearMap.ker_eq_bot']
    intro A h
    refine poly8_points (Finset.range 8) (fun n hn => ?_) (by simp)
    have hn := Finset.mem_range.1 hn
    have := congrFun h ⟨n, hn⟩
    exact ⟨by omega, (mul_eq_zero.1 this).resolve_left (el_ne (mul_ne ⟨n, hn⟩).1)⟩
  obtain ⟨A, hA⟩ := LinearMap.injective_iff_surjective.1 inj v
  exact ⟨A, fun n => congrFun hA n⟩

/-- The matrix takes the values at the first eight points to those at the other eight. -/
theorem mat_code (k t : Nat) (hk : k < 8) (ht : t < 8) :
    ∑ i ∈ Finset.range 8, el (mat i t) * (el (mulA.getD i 0) * pt i ^ k) = el (mulB.getD t 0) * pt (8 + t) ^ k := by
  have h := congrArg el (code_eq ⟨k, hk⟩ ⟨t, ht⟩)
  simp only [el_mul, el_gpow, List.range_succ, List.range_zero, List.foldl_append, List.foldl_nil, List.foldl_cons,
    List.nil_append, el_xor, el_zero, zero_add] at h
  rw [pt_high, ← h]
  simp only [Finset.sum_range_succ, Finset.sum_range_zero, zero_add]
  rw [pt_low 0 (by omega), pt_low 1 (by omega), pt_low 2 (by omega), pt_low 3 (by omega), pt_low 4 (by omega),
    pt_low 5 (by omega), pt_low 6 (by omega), pt_low 7 (by omega)]

/-- Of the argument and the value of the matrix together at least nine are not 0. -/
theorem mat_branch (u v : Nat → KF) (huv : ∀ t, t < 8 → v t = ∑ i ∈ Finset.range 8, el (mat i t) * u i)
    (hu : ∃ i, i < 8 ∧ u i ≠ 0) :
    9 ≤ ((Finset.range 8).filter fun i => u i ≠ 0).card + ((Finset.range 8).filter fun t => v t ≠ 0).card := by
  obtain ⟨A, hA⟩ := poly8_surj fun i => u i
  have h0 : ∀ i, i < 8 → u i = el (mulA.getD i 0) * (poly8 A).eval (pt i) := fun i hi => (hA ⟨i, hi⟩).symm
  have h1 : ∀ t, t < 8 → v t = el (mulB.getD t 0) * (poly8 A).eval (pt (8 + t)) := by
    intro t ht
    rw [huv t ht, poly8_eval, Finset.mul_sum]
    have : ∀ i ∈ Finset.range 8, el (mat i t) * u i =
        ∑ k : Fin 8, A k * (el (mat i t) * (el (mulA.getD i 0) * pt i ^ (k : Nat))) := by
      intro i hi
      rw [h0 i (Finset.mem_range.1 hi), poly8_eval, Finset.mul_sum, Finset.mul_sum]
      exact Finset.sum_congr rfl fun k _ => by ring
    rw [Finset.sum_congr rfl this, Finset.sum_comm]
    refine Finset.sum_congr rfl fun k _ => ?_
    rw [← Finset.mul_sum, mat_code k t k.2 ht]
    ring
  by_contra hlt
  have c1 := Finset.card_filter_add_card_filter_not (s := Finset.range 8) (fun i => u i ≠ 0)
  have c2 := Finset.card_filter_add_card_filter_not (s := Finset.range 8) (fun t => v t ≠ 0)
  rw [Finset.card_range] at c1 c2
  set Z1 := (Finset.range 8).filter fun i => ¬ u i ≠ 0
  set Z2 := (Finset.range 8).filter fun t => ¬ v t ≠ 0
  have hA0 : A = 0 := by
    refine poly8_points (Z1 ∪ Z2.image (fun t => 8 + t)) ?_ ?_
    · intro n hn
      rcases Finset.mem_union.1 hn with h | h
      · obtain ⟨hj, e⟩ := Finset.mem_filter.1 h
        rw [not_not] at e
        have hj := Finset.mem_range.1 hj
        rw [h0 n hj] at e
        exact ⟨by omega, (mul_eq_zero.1 e).resolve_left (el_ne (mul_ne ⟨n, hj⟩).1)⟩
      · obtain ⟨j, hj, rfl⟩ := Finset.mem_image.1 h
        obtain ⟨hj, e⟩ := Finset.mem_filter.1 hj
        rw [not_not] at e
        have hj := Finset.mem_range.1 hj
        rw [h1 j hj] at e
        exact ⟨by omega, (mul_eq_zero.1 e).resolve_left (el_ne (mul_ne ⟨j, hj⟩).2)⟩
    · rw [Finset.card_union_of_disjoint, Finset.card_image_of_injective]
      · omega
      · intro i j e
        simp only at e
        omega
      · rw [Finset.disjoint_left]
        intro n h2 h3
        have := Finset.mem_range.1 (Finset.mem_filter.1 h2).1
        obtain ⟨j, hj, e⟩ := Finset.mem_image.1 h3
        omega
  obtain ⟨i, hi, hne⟩ := hu
  apply hne
  rw [h0 i hi, hA0, poly8_eval]
  simp

end Gost.Hash
