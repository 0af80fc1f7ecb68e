import Mathlib.Tactic.ComputeDegree
import Mathlib.Tactic.IntervalCases
import Verif.Spec.Field
import Verif.Props.BlockCipher
import Verif.Props.Mac

/-! Property C86: the tables of Kuznyechik and the keys of the MAC are computed in the fields of
the standards, given as quotients of the polynomials over GF(2). -/

namespace Gost
open Polynomial
open Spec (bitPoly kuzPoly macPoly Alg)

theorem lt_of_testBit' {a i : Nat} (h : a.testBit i = true) : i < a := by
  have := Nat.ge_two_pow_of_testBit h
  exact Nat.lt_of_lt_of_le Nat.lt_two_pow_self this

theorem bitPoly_coeff (a i : Nat) : (bitPoly a).coeff i = if a.testBit i then 1 else 0 := by
  unfold bitPoly
  rw [finset_sum_coeff]
  have : ∀ b ∈ Finset.range a, ((if a.testBit b then X ^ b else 0 : (ZMod 2)[X])).coeff i =
      if i = b then (if a.testBit i then 1 else 0) else 0 := by
    intro b _
    by_cases hb : i = b
    · subst hb; by_cases h : a.testBit i <;> simp [h]
    · by_cases h : a.testBit b <;> simp [h, hb, coeff_X_pow]
  rw [Finset.sum_congr rfl this, Finset.sum_ite_eq]
  by_cases h : a.testBit i
  · simp [h, lt_of_testBit' h]
  · simp [h]

theorem bitPoly_xor (a b : Nat) : bitPoly (a ^^^ b) = bitPoly a + bitPoly b := by
  ext i
  rw [coeff_add, bitPoly_coeff, bitPoly_coeff, bitPoly_coeff, Nat.testBit_xor]
  cases a.testBit i <;> cases b.testBit i <;> decide

theorem bitPoly_shift (a k : Nat) : bitPoly (a <<< k) = bitPoly a * X ^ k := by
  ext i
  rw [coeff_mul_X_pow', bitPoly_coeff, Nat.testBit_shiftLeft]
  by_cases h : k ≤ i
  · simp [h, bitPoly_coeff]
  · simp [h]

theorem bitPoly_zero : bitPoly 0 = 0 := by simp [bitPoly]

theorem bitPoly_degree {a n : Nat} (h : a < 2 ^ n) : (bitPoly a).degree < n := by
  rw [degree_lt_iff_coeff_zero]
  intro m hm
  rw [bitPoly_coeff, Nat.testBit_lt_two_pow (Nat.lt_of_lt_of_le h (Nat.pow_le_pow_right (by omega) hm))]
  rfl

/-- Different numbers are different polynomials. -/
theorem bitPoly_inj {a b : Nat} (h : bitPoly a = bitPoly b) : a = b := by
  refine Nat.eq_of_testBit_eq fun i => ?_
  have := congrArg (fun p => p.coeff i) h
  simp only [bitPoly_coeff] at this
  revert this
  cases a.testBit i <;> cases b.testBit i <;> simp

theorem bitPoly_clmul (a b : Nat) (hb : b < 256) : bitPoly (Spec.clmul a b) = bitPoly a * bitPoly b := by
  have hf : ∀ (l : List Nat) (acc : Nat),
      bitPoly (l.foldl (fun acc i => if b.testBit i then acc ^^^ (a <<< i) else acc) acc) =
        bitPoly acc + bitPoly a * (l.map fun i => if b.testBit i then X ^ i else 0).sum := by
    intro l
    induction l with
    | nil => simp
    | cons i l ih =>
      intro acc
      rw [List.foldl_cons, ih, List.map_cons, List.sum_cons]
      by_cases h : b.testBit i
      · simp only [h, if_true, bitPoly_xor, bitPoly_shift]; ring
      · simp [h]
  unfold Spec.clmul
  rw [hf, bitPoly_zero, zero_add]
  congr 1
  ext i
  have e : ∀ l : List Nat, (l.map fun i => if b.testBit i then (X : (ZMod 2)[X]) ^ i else 0).sum.coeff i =
      (l.map fun j => if i = j then (if b.testBit i then (1 : ZMod 2) else 0) else 0).sum := by
    intro l
    induction l with
    | nil => simp
    | cons j l ih =>
      rw [List.map_cons, List.sum_cons, coeff_add, ih, List.map_cons, List.sum_cons]
      congr 1
      by_cases hb : i = j
      · subst hb; by_cases h : b.testBit i <;> simp [h]
      · by_cases h : b.testBit j <;> simp [h, hb, coeff_X_pow]
  rw [e, bitPoly_coeff]
  by_cases hi : i < 8
  · interval_cases i <;> simp [List.range, List.range.loop]
  · rw [Nat.testBit_lt_two_pow (Nat.lt_of_lt_of_le hb (Nat.pow_le_pow_right (n := 2) (by omega) (by omega : 8 ≤ i)))]
    simp

theorem bitPoly_kuz : bitPoly 0x1c3 = kuzPoly := by
  have : (0x1c3 : Nat) = (1 <<< 8) ^^^ (1 <<< 7) ^^^ (1 <<< 6) ^^^ (1 <<< 1) ^^^ (1 <<< 0) := by decide
  rw [this]
  simp only [bitPoly_xor, bitPoly_shift, show bitPoly 1 = 1 by simp [bitPoly], kuzPoly]
  ring

theorem lt_of_bits {a n : Nat} (h : ∀ i, n ≤ i → a.testBit i = false) : a < 2 ^ n :=
  Nat.lt_pow_two_of_testBit _ h

theorem reduce_step (n acc : Nat) (h : acc < 2 ^ (n + 9)) :
    (if acc.testBit (n + 8) then acc ^^^ (0x1c3 <<< n) else acc) < 2 ^ (n + 8) ∧
    kuzPoly ∣ bitPoly (if acc.testBit (n + 8) then acc ^^^ (0x1c3 <<< n) else acc) - bitPoly acc := by
  have hb : ∀ i, n + 9 ≤ i → acc.testBit i = false := fun i hi =>
    Nat.testBit_lt_two_pow (Nat.lt_of_lt_of_le h (Nat.pow_le_pow_right (by omega) hi))
  by_cases ht : acc.testBit (n + 8)
  · rw [if_pos ht]
    refine ⟨lt_of_bits fun i hi => ?_, ?_⟩
    · rw [Nat.testBit_xor, Nat.testBit_shiftLeft]
      by_cases he : i = n + 8
      · subst he
        rw [ht, Nat.add_sub_cancel_left]
        simp; decide
      · rw [hb i (by omega), Nat.testBit_lt_two_pow (x := 0x1c3)
          (Nat.lt_of_lt_of_le (by decide : 0x1c3 < 2 ^ 9) (Nat.pow_le_pow_right (n := 2) (by omega) (by omega : 9 ≤ i - n)))]
        simp
    · rw [bitPoly_xor, bitPoly_shift, bitPoly_kuz]
      exact ⟨X ^ n, by ring⟩
  · rw [if_neg ht]
    refine ⟨lt_of_bits fun i hi => ?_, by simp⟩
    by_cases he : i = n + 8
    · subst he; simpa using ht
    · exact hb i (by omega)

theorem reduce_ok (n acc : Nat) (h : acc < 2 ^ (n + 8)) :
    (List.range n).reverse.foldl
      (fun acc i => if acc.testBit (i + 8) then acc ^^^ (0x1c3 <<< i) else acc) acc < 2 ^ 8 ∧
    kuzPoly ∣ bitPoly ((List.range n).reverse.foldl
      (fun acc i => if acc.testBit (i + 8) then acc ^^^ (0x1c3 <<< i) else acc) acc) - bitPoly acc := by
  induction n generalizing acc with
  | zero => simpa using h
  | succ n ih =>
    rw [List.range_succ, List.reverse_append, List.reverse_singleton, List.singleton_append,
      List.foldl_cons]
    obtain ⟨h1, h2⟩ := reduce_step n acc (by rw [show n + 9 = n + 1 + 8 by omega]; exact h)
    obtain ⟨h3, h4⟩ := ih _ h1
    refine ⟨h3, ?_⟩
    have := dvd_add h4 h2
    rwa [sub_add_sub_cancel] at this

theorem kuzPoly_degree : kuzPoly.degree = 8 := by unfold kuzPoly; compute_degree!
theorem kuzPoly_monic : kuzPoly.Monic := by unfold kuzPoly; monicity!

theorem clmul_lt (a b : Nat) (ha : a < 256) (hb : b < 256) : Spec.clmul a b < 2 ^ 15 := by
  have hf : ∀ (l : List Nat) (acc : Nat), acc < 2 ^ 15 → (∀ i ∈ l, i < 8) →
      l.foldl (fun acc i => if b.testBit i then acc ^^^ (a <<< i) else acc) acc < 2 ^ 15 := by
    intro l
    induction l with
    | nil => intro acc h _; exact h
    | cons i l ih =>
      intro acc h hl
      rw [List.foldl_cons]
      refine ih _ ?_ (fun j hj => hl j (by simp [hj]))
      split
      · refine Nat.xor_lt_two_pow h ?_
        have := hl i (by simp)
        rw [Nat.shiftLeft_eq]
        have h7 : 2 ^ i ≤ 2 ^ 7 := Nat.pow_le_pow_right (by omega) (by omega)
        calc a * 2 ^ i ≤ 255 * 2 ^ 7 := Nat.mul_le_mul (by omega) h7
          _ < 2 ^ 15 := by norm_num
      · exact h
  exact hf _ 0 (by norm_num) (fun i hi => List.mem_range.1 hi)

/-- The product of the specification is the product modulo the polynomial. -/
theorem gfMul_poly (a b : UInt8) :
    bitPoly (Spec.gfMul a b).toNat = (bitPoly a.toNat * bitPoly b.toNat) %ₘ kuzPoly := by
  obtain ⟨h1, h2⟩ := reduce_ok 7 _ (clmul_lt a.toNat b.toNat a.toNat_lt b.toNat_lt)
  change Spec.kuzReduce _ < _ at h1
  change kuzPoly ∣ bitPoly (Spec.kuzReduce _) - _ at h2
  rw [bitPoly_clmul _ _ b.toNat_lt] at h2
  have e : (Spec.gfMul a b).toNat = Spec.kuzReduce (Spec.clmul a.toNat b.toNat) := by
    unfold Spec.gfMul
    rw [UInt8.toNat_ofNat', Nat.mod_eq_of_lt h1]
  rw [e]
  obtain ⟨q, hq⟩ := h2
  refine ((div_modByMonic_unique (-q) _ kuzPoly_monic ⟨?_, ?_⟩).2).symm
  · rw [mul_neg, ← hq]; ring
  · rw [kuzPoly_degree]; exact bitPoly_degree h1

/-- C86, Kuznyechik: every entry `_GF[i][b]` is the product of the coefficient of the linear form
and `b`, as polynomials modulo x^8+x^7+x^6+x+1. -/
theorem C86_gf (i : Nat) (hi : i < 16) (b : UInt8) :
    bitPoly (gf i b).toNat =
      (bitPoly ([1, 148, 32, 133, 16, 194, 192, 1, 251, 1, 192, 194, 16, 133, 32, 148].getD i 0) *
        bitPoly b.toNat) %ₘ kuzPoly := by
  rw [C03_gf_tables i hi b, gfMul_poly]
  congr 3
  revert i
  decide +kernel

/-- A case: 148 · 2 needs a reduction (296 = 0x128, and 0x128 + 0x1c3 = 0xeb). -/
example : gf 1 2 = 0xeb := by decide +kernel

/-! ### The keys of the MAC -/

theorem bitPoly_pow (n : Nat) : bitPoly (2 ^ n) = X ^ n := by
  rw [show 2 ^ n = 1 <<< n by rw [Nat.shiftLeft_eq, one_mul], bitPoly_shift,
    show bitPoly 1 = 1 by simp [bitPoly], one_mul]

theorem macPoly_kuz : macPoly Alg.kuznechik.blockSize = X ^ 128 + X ^ 7 + X ^ 2 + X + 1 := by
  rw [show Alg.kuznechik.blockSize = 16 from rfl, macPoly, if_neg (by decide)]

theorem macPoly_magma : macPoly Alg.magma.blockSize = X ^ 64 + X ^ 4 + X ^ 3 + X + 1 := by
  rw [show Alg.magma.blockSize = 8 from rfl, macPoly, if_pos rfl]

theorem bitPoly_macB (a : Alg) : bitPoly (2 ^ (8 * a.blockSize) ^^^ Spec.macB a.blockSize) = macPoly a.blockSize := by
  have h1 : (0x1b : Nat) = 1 <<< 4 ^^^ 1 <<< 3 ^^^ 1 <<< 1 ^^^ 1 <<< 0 := by decide
  have h2 : (0x87 : Nat) = 1 <<< 7 ^^^ 1 <<< 2 ^^^ 1 <<< 1 ^^^ 1 <<< 0 := by decide
  rw [bitPoly_xor, bitPoly_pow]
  cases a
  · rw [macPoly_kuz, show Spec.macB Alg.kuznechik.blockSize = 0x87 from rfl,
      show 8 * Alg.kuznechik.blockSize = 128 from rfl, h2]
    simp only [bitPoly_xor, bitPoly_shift, show bitPoly 1 = 1 by simp [bitPoly], pow_one, pow_zero]
    ring
  · rw [macPoly_magma, show Spec.macB Alg.magma.blockSize = 0x1b from rfl,
      show 8 * Alg.magma.blockSize = 64 from rfl, h1]
    simp only [bitPoly_xor, bitPoly_shift, show bitPoly 1 = 1 by simp [bitPoly], pow_one, pow_zero]
    ring

theorem macPoly_monic (a : Alg) : (macPoly a.blockSize).Monic := by
  cases a
  · rw [macPoly_kuz]; monicity!
  · rw [macPoly_magma]; monicity!

theorem macPoly_degree (a : Alg) : (macPoly a.blockSize).degree = (8 * a.blockSize : Nat) := by
  cases a
  · rw [macPoly_kuz, show 8 * Alg.kuznechik.blockSize = 128 from rfl]; compute_degree!
  · rw [macPoly_magma, show 8 * Alg.magma.blockSize = 64 from rfl]; compute_degree!

theorem macPoly_eval_one (a : Alg) : (macPoly a.blockSize).eval 1 = 1 := by
  cases a
  · rw [macPoly_kuz]; simp; decide
  · rw [macPoly_magma]; simp; decide

theorem bitPoly_double (x : Nat) : bitPoly (2 * x) = X * bitPoly x := by
  rw [show 2 * x = x <<< 1 by rw [Nat.shiftLeft_eq]; omega, bitPoly_shift, pow_one, mul_comm]

/-- The number of the doubled string. -/
theorem macDouble_cases (a : Alg) (v : Bytes) (hv : v.length = a.blockSize) :
    (Spec.beNat v < 2 ^ (8 * a.blockSize - 1) ∧
      bitPoly (Spec.beNat (Spec.macDouble a.blockSize v)) = X * bitPoly (Spec.beNat v)) ∨
    (bitPoly (Spec.beNat (Spec.macDouble a.blockSize v)) =
      X * bitPoly (Spec.beNat v) + macPoly a.blockSize) := by
  have hpow : (2 : Nat) ^ (8 * a.blockSize) = 256 ^ a.blockSize := by rw [Nat.pow_mul]
  have hpow1 : (2 : Nat) ^ (8 * a.blockSize) = 2 * 2 ^ (8 * a.blockSize - 1) := by
    rw [← Nat.pow_succ']; congr 1; have := Alg.blockSize_pos a; omega
  have hlt := beNat_lt v
  rw [hv, ← hpow] at hlt
  unfold Spec.macDouble
  by_cases h : Spec.beNat v < 2 ^ (8 * a.blockSize - 1)
  · left
    refine ⟨h, ?_⟩
    rw [if_pos h, beNat_beBytes, ← hpow, Nat.mod_eq_of_lt (by omega), bitPoly_double]
  · right
    have hB : Spec.macB a.blockSize < 2 ^ (8 * a.blockSize) := by cases a <;> decide
    rw [if_neg h]
    change bitPoly (Spec.beNat (addXor (Spec.beBytes _ _) (Spec.beBytes _ _))) = _
    rw [beBytes_xor, beNat_beBytes, ← hpow, Nat.mod_eq_of_lt (Nat.xor_lt_two_pow (by omega) hB),
      bitPoly_xor]
    have e : bitPoly (2 * Spec.beNat v) =
        bitPoly (2 * Spec.beNat v - 2 ^ (8 * a.blockSize)) + X ^ (8 * a.blockSize) := by
      rw [← bitPoly_pow, ← bitPoly_xor]
      congr 1
      have hs : 2 * Spec.beNat v - 2 ^ (8 * a.blockSize) < 2 ^ (8 * a.blockSize) := by omega
      have := Nat.two_pow_add_eq_or_of_lt hs 1
      refine Nat.eq_of_testBit_eq fun i => ?_
      rw [Nat.testBit_xor, Nat.testBit_two_pow,
        show 2 * Spec.beNat v = 2 ^ (8 * a.blockSize) + (2 * Spec.beNat v - 2 ^ (8 * a.blockSize)) by omega]
      by_cases hi : 8 * a.blockSize = i
      · subst hi
        rw [Nat.testBit_two_pow_add_eq, Nat.add_sub_cancel_left]
        simp
      · rcases Nat.lt_or_gt_of_ne hi with hi' | hi'
        · rw [Nat.testBit_lt_two_pow, Nat.add_sub_cancel_left, Nat.testBit_lt_two_pow]
          · simp [hi]
          · exact Nat.lt_trans hs (Nat.pow_lt_pow_right (by omega) hi')
          · have : 2 ^ (8 * a.blockSize + 1) ≤ 2 ^ i := Nat.pow_le_pow_right (by omega) hi'
            rw [Nat.pow_succ] at this; omega
        · rw [Nat.testBit_two_pow_add_gt hi', Nat.add_sub_cancel_left]
          simp [hi]
    rw [← bitPoly_double, e, ← bitPoly_macB, bitPoly_xor, bitPoly_pow]
    have h2 : (X ^ (8 * a.blockSize) + X ^ (8 * a.blockSize) : (ZMod 2)[X]) = 0 := by
      rw [← two_mul, show (2 : (ZMod 2)[X]) = C 2 from rfl, show (2 : ZMod 2) = 0 from rfl]; simp
    rw [add_assoc, ← add_assoc (X ^ _), h2, zero_add]

/-- Doubling is multiplication by x modulo the polynomial. -/
theorem macDouble_poly (a : Alg) (v : Bytes) (hv : v.length = a.blockSize) :
    bitPoly (Spec.beNat (Spec.macDouble a.blockSize v)) =
      (X * bitPoly (Spec.beNat v)) %ₘ macPoly a.blockSize := by
  have hd : (bitPoly (Spec.beNat (Spec.macDouble a.blockSize v))).degree < (macPoly a.blockSize).degree := by
    rw [macPoly_degree]
    refine bitPoly_degree ?_
    have := beNat_lt (Spec.macDouble a.blockSize v)
    rwa [macDouble_length, show 256 = 2 ^ 8 from rfl, ← Nat.pow_mul] at this
  rcases macDouble_cases a v hv with ⟨_, h⟩ | h
  · exact ((div_modByMonic_unique 0 _ (macPoly_monic a) ⟨by rw [h]; ring, hd⟩).2).symm
  · exact ((div_modByMonic_unique (-1) _ (macPoly_monic a) ⟨by rw [h]; ring, hd⟩).2).symm

theorem encrypt_zero_length (a : Alg) (key : Bytes) (hl : key.length = 32) :
    (a.encrypt key (List.replicate a.blockSize 0)).length = a.blockSize := by
  obtain ⟨o, D, hg, hbs, hI, _⟩ := new_mac a (.bytes key) key rfl hl none none
  have := hI.enc_len (List.replicate o.blockSize 0) (by simp)
  rwa [hbs] at this

theorem mac_keys_of_new (a : Alg) (kv : PyVal) (key : Bytes) (hk : kv.data? = some key)
    (hl : key.length = 32) (dat : Option PyVal) (s : Mac)
    (h : newCipher a.name kv modeMac (data := dat) = .ok (.mac s)) :
    s.key1 = Spec.macKey1 (a.encrypt key) a.blockSize ∧
      s.key2 = Spec.macKey2 (a.encrypt key) a.blockSize := by
  obtain ⟨_, a', key', d, ha, hk', _, hd⟩ := new_mac_inv h
  obtain ⟨o, D, hg, hbs, hI, h1, h2⟩ := new_mac a kv key hk hl none none
  by_cases hd0 : d = []
  · subst hd0
    rw [h1 dat hd, hbs] at h
    cases h
    exact ⟨rfl, rfl⟩
  · cases dat with
    | none => simp [PyVal.data?] at hd; exact absurd hd hd0
    | some dv =>
      rw [h2 dv d hd hd0] at h
      split at h
      · cases h
      · rw [hbs] at h; cases h; exact ⟨rfl, rfl⟩

/-- C86, MAC: the keys of every MAC object are E(0)·x and E(0)·x² modulo the polynomial of the
standard, where E is the cipher of the standard under the key of the object. -/
theorem C86_mac_keys (a : Alg) (kv : PyVal) (key : Bytes) (hk : kv.data? = some key)
    (hl : key.length = 32) (dat : Option PyVal) (s : Mac)
    (h : newCipher a.name kv modeMac (data := dat) = .ok (.mac s)) :
    bitPoly (Spec.beNat s.key1) =
      (X * bitPoly (Spec.beNat (a.encrypt key (List.replicate a.blockSize 0)))) %ₘ macPoly a.blockSize ∧
    bitPoly (Spec.beNat s.key2) =
      (X ^ 2 * bitPoly (Spec.beNat (a.encrypt key (List.replicate a.blockSize 0)))) %ₘ
        macPoly a.blockSize := by
  have hE := encrypt_zero_length a key hl
  obtain ⟨e1, e2⟩ := mac_keys_of_new a kv key hk hl dat s h
  rw [e1, e2]
  unfold Spec.macKey2 Spec.macKey1
  rw [macDouble_poly a _ (macDouble_length _ _), macDouble_poly a _ hE]
  refine ⟨rfl, ?_⟩
  set p := bitPoly (Spec.beNat (a.encrypt key (List.replicate a.blockSize 0)))
  have := modByMonic_add_div (X * p) (macPoly a.blockSize)
  have e2 : X ^ 2 * p = X * (X * p %ₘ macPoly a.blockSize) +
      macPoly a.blockSize * (X * (X * p /ₘ macPoly a.blockSize)) := by
    conv => lhs; rw [pow_two, mul_assoc, ← this]
    ring
  rw [e2, add_modByMonic, (modByMonic_eq_zero_iff_dvd (macPoly_monic a)).2 (dvd_mul_right _ _), add_zero]

end Gost
