import Verif.Proofs.VerifyStd
import Verif.Proofs.Cipher

/-! The calls `sign`, `verify`, `public_key_generate` with their argument checks. -/

namespace Gost.Sig
open Spec (beNat beBytes)
open WeierstrassCurve.Affine

variable {s : Sig}

theorem beNat_replicate_zero (n : Nat) : beNat (List.replicate n 0) = 0 := by
  induction n with
  | zero => rfl
  | succ n ih => simp [List.replicate_succ, beNat, ih]

theorem checkValue_iff (v : PyVal) (n : Nat) : checkValue v n = true ↔ ∃ b, v.data? = some b ∧ b.length = n := by
  cases v <;> simp [checkValue, PyVal.data?]

theorem not_checkValue {v : PyVal} {b : Bytes} {n : Nat} (h : v.data? = some b) (hl : b.length = n) :
    (!checkValue v n) = false := by
  rw [checkValue_data h, hl]; simp

theorem isEmpty_data {v : PyVal} {b : Bytes} (h : v.data? = some b) (hb : b ≠ []) : v.isEmpty = false := by
  cases v <;> simp_all [PyVal.data?, PyVal.isEmpty]

theorem isEmpty_nil {v : PyVal} (h : v.data? = some []) : v.isEmpty = true := by
  cases v <;> simp_all [PyVal.data?, PyVal.isEmpty]

theorem isEmpty_none {v : PyVal} (h : v.data? = none) : v.isEmpty = false := by
  cases v <;> simp_all [PyVal.data?, PyVal.isEmpty]

/-- The bytes of a signature from the pair of numbers. -/
def pairBytes (s : Sig) (c : Int × Int) : Bytes := intToBytes c.1 s.size ++ intToBytes c.2 s.size

theorem publicKeyGenerate_eq {sk : PyVal} {d : Bytes} (h : sk.data? = some d) (hl : d.length = s.size)
    (F : Nat) :
    s.publicKeyGenerate F sk = (s.mulPoint F (beNat d : Nat)).map fun c => .ok (pairBytes s c) := by
  unfold publicKeyGenerate
  rw [not_checkValue h hl]
  simp only [h, Option.getD_some, bytesToInt_eq]
  cases s.mulPoint F (beNat d : Nat) <;> rfl

theorem publicKeyGenerate_bad {sk : PyVal} (h : checkValue sk s.size = false) (F : Nat) :
    s.publicKeyGenerate F sk =
      some (.error (.signatureError "GOSTSignatureError: invalid private key")) := by
  unfold publicKeyGenerate
  rw [h]
  rfl

/-- `sign` after the checks, for the bytes `rk` of the random value. -/
def signWith (s : Sig) (F : Nat) (d dg rk : Bytes) : Option (Res Bytes) :=
  (signOuter s F (beNat d : Nat) (s.setE dg) (beNat rk : Nat) F 0 0).map fun c => .ok (pairBytes s c)

theorem sign_explicit {sk dgv rkv : PyVal} {d dg rk : Bytes} (h1 : sk.data? = some d) (l1 : d.length = s.size)
    (h2 : dgv.data? = some dg) (l2 : dg.length = s.size) (h3 : rkv.data? = some rk) (h4 : rk ≠ [])
    (F : Nat) (rand : Nat → Bytes) :
    s.sign F rand sk dgv rkv =
      if (beNat rk : Int) ≥ s.q then
        some (.error (.signatureError "GOSTSignatureError: invalid random value"))
      else signWith s F d dg rk := by
  unfold sign signWith
  rw [not_checkValue h1 l1, not_checkValue h2 l2, isEmpty_data h3 h4]
  simp only [h1, h2, Option.getD_some, bytesToInt_eq, Bool.false_eq_true, if_false, Option.bind_eq_bind,
    Option.bind_some, h3]
  split
  · rfl
  · cases signOuter s F (beNat d : Nat) (s.setE dg) (beNat rk : Nat) F 0 0 <;> rfl

theorem getRandK_lt (F : Nat) : ∀ rand b, s.getRandK F rand = some b → (beNat b : Int) < s.q := by
  induction F with
  | zero =>
    intro rand b h
    rw [getRandK] at h
    split at h
    · next hc => cases h; rwa [bytesToInt_eq] at hc
    · cases h
  | succ F ih =>
    intro rand b h
    rw [getRandK] at h
    split at h
    · next hc => cases h; rwa [bytesToInt_eq] at hc
    · exact ih _ _ h

theorem getRandK_mem (F : Nat) : ∀ rand b, s.getRandK F rand = some b → ∃ i, b = rand i := by
  induction F with
  | zero =>
    intro rand b h
    rw [getRandK] at h
    split at h
    · cases h; exact ⟨0, rfl⟩
    · cases h
  | succ F ih =>
    intro rand b h
    rw [getRandK] at h
    split at h
    · cases h; exact ⟨0, rfl⟩
    · obtain ⟨i, hi⟩ := ih _ _ h
      exact ⟨i + 1, hi⟩

theorem getRandK_first (F : Nat) : ∀ rand b, s.getRandK F rand = some b →
    ∃ i, b = rand i ∧ ∀ j, j < i → s.q ≤ (beNat (rand j) : Int) := by
  induction F with
  | zero =>
    intro rand b h
    rw [getRandK] at h
    split at h
    · cases h; exact ⟨0, rfl, fun j hj => by omega⟩
    · cases h
  | succ F ih =>
    intro rand b h
    rw [getRandK] at h
    split at h
    · cases h; exact ⟨0, rfl, fun j hj => by omega⟩
    · next hc =>
      obtain ⟨i, hi, hj⟩ := ih _ _ h
      refine ⟨i + 1, hi, fun j hlt => ?_⟩
      cases j with
      | zero => rw [bytesToInt_eq] at hc; omega
      | succ j => exact hj j (by omega)

theorem getRandK_of_first (F : Nat) : ∀ i rand, i ≤ F → (∀ j, j < i → s.q ≤ (beNat (rand j) : Int)) →
    (beNat (rand i) : Int) < s.q → s.getRandK F rand = some (rand i) := by
  induction F with
  | zero =>
    intro i rand hi h1 h2
    have : i = 0 := by omega
    subst this
    rw [getRandK, if_pos (by rw [bytesToInt_eq]; exact h2)]
  | succ F ih =>
    intro i rand hi h1 h2
    cases i with
    | zero => rw [getRandK, if_pos (by rw [bytesToInt_eq]; exact h2)]
    | succ i =>
      rw [getRandK, if_neg (by rw [bytesToInt_eq]; have := h1 0 (by omega); omega)]
      exact ih i (fun i => rand (i + 1)) (by omega) (fun j hj => h1 (j + 1) (by omega)) h2

theorem sign_random {sk dgv rkv : PyVal} {d dg : Bytes} (h1 : sk.data? = some d) (l1 : d.length = s.size)
    (h2 : dgv.data? = some dg) (l2 : dg.length = s.size) (h3 : rkv.data? = some [])
    (F : Nat) (rand : Nat → Bytes) :
    s.sign F rand sk dgv rkv =
      match s.getRandK F rand with
      | none => none
      | some rk => signWith s F d dg rk := by
  unfold sign signWith
  rw [not_checkValue h1 l1, not_checkValue h2 l2, isEmpty_nil h3]
  simp only [h1, h2, Option.getD_some, bytesToInt_eq, Bool.false_eq_true, if_false, if_true, Option.bind_eq_bind]
  cases hr : s.getRandK F rand with
  | none => rfl
  | some rk =>
    have := getRandK_lt F rand rk hr
    simp only [Option.map_some, Option.bind_some, PyVal.data?]
    rw [if_neg (by omega)]
    cases signOuter s F (beNat d : Nat) (s.setE dg) (beNat rk : Nat) F 0 0 <;> rfl

theorem sign_badRand {sk dgv rkv : PyVal} {d dg : Bytes} (h1 : sk.data? = some d) (l1 : d.length = s.size)
    (h2 : dgv.data? = some dg) (l2 : dg.length = s.size) (h3 : rkv.data? = none)
    (F : Nat) (rand : Nat → Bytes) :
    s.sign F rand sk dgv rkv = some (.error (.signatureError "GOSTSignatureError: invalid random value")) := by
  unfold sign
  rw [not_checkValue h1 l1, not_checkValue h2 l2, isEmpty_none h3]
  simp only [Bool.false_eq_true, if_false, Option.bind_eq_bind, Option.bind_some, h3]

theorem sign_badKey {sk : PyVal} (h1 : checkValue sk s.size = false) (dgv rkv : PyVal)
    (F : Nat) (rand : Nat → Bytes) :
    s.sign F rand sk dgv rkv = some (.error (.signatureError "GOSTSignatureError: invalid private key value")) := by
  unfold sign
  rw [h1]
  rfl

theorem sign_badDigest {sk dgv : PyVal} (h1 : checkValue sk s.size = true) (h2 : checkValue dgv s.size = false)
    (rkv : PyVal) (F : Nat) (rand : Nat → Bytes) :
    s.sign F rand sk dgv rkv = some (.error (.signatureError "GOSTSignatureError: invalid digest value")) := by
  unfold sign
  rw [h1, h2]
  rfl

/-- A successful `sign` had a value below `q`. -/
theorem sign_ok {F : Nat} {rand : Nat → Bytes} {sk dgv rkv : PyVal} {sig : Bytes}
    (h : s.sign F rand sk dgv rkv = some (.ok sig)) :
    ∃ d dg rk, sk.data? = some d ∧ d.length = s.size ∧ dgv.data? = some dg ∧ dg.length = s.size ∧
      ((rkv.data? = some rk ∧ rk ≠ []) ∨ (rkv.data? = some [] ∧ s.getRandK F rand = some rk)) ∧
      (beNat rk : Int) < s.q ∧ signWith s F d dg rk = some (.ok sig) := by
  cases hk : checkValue sk s.size with
  | false => rw [sign_badKey hk] at h; cases h
  | true =>
    cases hd : checkValue dgv s.size with
    | false => rw [sign_badDigest hk hd] at h; cases h
    | true =>
      obtain ⟨d, h1, l1⟩ := (checkValue_iff _ _).1 hk
      obtain ⟨dg, h2, l2⟩ := (checkValue_iff _ _).1 hd
      cases h3 : rkv.data? with
      | none => rw [sign_badRand h1 l1 h2 l2 h3] at h; cases h
      | some rk =>
        by_cases h4 : rk = []
        · subst h4
          rw [sign_random h1 l1 h2 l2 h3] at h
          cases hr : s.getRandK F rand with
          | none => rw [hr] at h; cases h
          | some rk =>
            rw [hr] at h
            exact ⟨d, dg, rk, h1, l1, h2, l2, .inr ⟨rfl, rfl⟩, getRandK_lt F rand rk hr, h⟩
        · rw [sign_explicit h1 l1 h2 l2 h3 h4] at h
          by_cases hc : (beNat rk : Int) ≥ s.q
          · rw [if_pos hc] at h; cases h
          · rw [if_neg hc] at h
            exact ⟨d, dg, rk, h1, l1, h2, l2, .inl ⟨rfl, h4⟩, by omega, h⟩

theorem signOuter_zero_fuel (d e k : Int) : signOuter s 0 d e k 0 0 0 = none := by
  rw [signOuter_step s 0 d e k 0 0 0 (by omega) (by positivity)]
  simp

/-- More fuel does not change a result. -/
theorem signOuter_mono {q : Nat} (hq : s.q = q) (hq0 : 0 < q) (hsize : q ≤ 256 ^ s.size) {F G : Nat}
    (hG : F ≤ G) (d e k : Int) (c : Int × Int) (h : signOuter s F d e k F 0 0 = some c) :
    signOuter s G d e k G 0 0 = some c := by
  rcases Nat.eq_zero_or_pos F with h0 | h0
  · subst h0; rw [signOuter_zero_fuel] at h; cases h
  · rw [signOuter_eq s q hq hq0 hsize F h0] at h
    rw [signOuter_eq s q hq hq0 hsize G (by omega)]
    cases hm : s.mulPoint F k with
    | none => rw [hm] at h; cases h
    | some e =>
      rw [hm] at h
      rw [mulPoint_mono s F G hG k _ _ e hm]
      exact h

theorem signWith_mono {q : Nat} (hq : s.q = q) (hq0 : 0 < q) (hsize : q ≤ 256 ^ s.size) {F G : Nat}
    (hG : F ≤ G) (d dg rk : Bytes) (r : Res Bytes) (h : signWith s F d dg rk = some r) :
    signWith s G d dg rk = some r := by
  unfold signWith at *
  cases hs : signOuter s F (beNat d : Nat) (s.setE dg) (beNat rk : Nat) F 0 0 with
  | none => rw [hs] at h; cases h
  | some c =>
    rw [hs] at h
    rw [signOuter_mono hq hq0 hsize hG _ _ _ c hs]
    exact h

/-- Point multiplication ends for every positive number. -/
theorem mulLoop_ends (F : Nat) : ∀ (v : Nat) (c d : Int × Int), v < 2 ^ F → ∃ e, mulLoop s F (v : Int) c d = some e := by
  induction F with
  | zero =>
    intro v c d h
    have : v = 0 := by simpa using h
    subst this
    exact ⟨c, mulLoop_zero 0 c d⟩
  | succ F ih =>
    intro v c d h
    by_cases hv : v = 0
    · subst hv
      exact ⟨c, mulLoop_zero _ c d⟩
    · rw [mulLoop_succ F v (by omega)]
      have e1 : (v : Int).fdiv 2 = ((v / 2 : Nat) : Int) := by
        rw [Int.fdiv_eq_ediv_of_nonneg _ (by omega)]; omega
      rw [e1]
      exact ih _ _ _ (by rw [pow_succ] at h; omega)

theorem mulPoint_ends (F k : Nat) (hk : 0 < k) (hF : k ≤ 2 ^ F) (x y : Int) :
    ∃ e, s.mulPoint F (k : Int) x y = some e := by
  rw [mulPoint_eq F k x y _ rfl, show (k : Int) - 1 = ((k - 1 : Nat) : Int) by omega]
  exact mulLoop_ends F _ _ _ (by omega)

theorem verify_eq {pkv dgv sigv : PyVal} {pk dg sig : Bytes} (h1 : pkv.data? = some pk) (l1 : pk.length = s.size * 2)
    (h2 : dgv.data? = some dg) (l2 : dg.length = s.size) (h3 : sigv.data? = some sig)
    (l3 : sig.length = s.size * 2) (F : Nat) :
    s.verify F pkv dgv sigv = (s.verifyBytes F pk dg sig).map .ok := by
  unfold verify
  rw [not_checkValue h1 l1, not_checkValue h3 l3, not_checkValue h2 l2]
  simp only [h1, h2, h3, Option.getD_some, Bool.false_eq_true, if_false]

theorem pairBytes_nat (x y : Nat) : pairBytes s ((x : Int), (y : Int)) = beBytes s.size x ++ beBytes s.size y := by
  simp only [pairBytes, intToBytes_nat]

theorem pair_parts (n x y : Nat) (hx : x < 256 ^ n) (hy : y < 256 ^ n) :
    beNat ((beBytes n x ++ beBytes n y).take n) = x ∧ beNat ((beBytes n x ++ beBytes n y).drop n) = y := by
  have h1 : (beBytes n x ++ beBytes n y).take n = beBytes n x := by
    rw [List.take_left' (beBytes_length n x)]
  have h2 : (beBytes n x ++ beBytes n y).drop n = beBytes n y := by
    rw [List.drop_left' (beBytes_length n x)]
  rw [h1, h2, beNat_beBytes, beNat_beBytes, Nat.mod_eq_of_lt hx, Nat.mod_eq_of_lt hy]
  exact ⟨rfl, rfl⟩

variable {p q : Nat} [Fact p.Prime] {P : (curve s p).Point}

theorem encodes_of_rep (hsize : p ≤ 256 ^ s.size) {c : Int × Int} {C : (curve s p).Point} (hc : Rep s p c C) :
    EncodesPoint s p (pairBytes s c) C := by
  obtain ⟨x, y⟩ := c
  obtain ⟨h1, h2, h3, h4, h5, h6⟩ := hc
  dsimp only at *
  obtain ⟨x, rfl⟩ : ∃ n : Nat, x = n := ⟨x.toNat, by omega⟩
  obtain ⟨y, rfl⟩ : ∃ n : Nat, y = n := ⟨y.toNat, by omega⟩
  refine ⟨x, y, by omega, by omega, pairBytes_nat x y, ?_⟩
  refine ⟨by simpa using h5, ?_⟩
  rw [h6]
  congr 1 <;> simp

theorem rep_of_encodes (hsize : p ≤ 256 ^ s.size) {b : Bytes} {C : (curve s p).Point} (h : EncodesPoint s p b C) :
    Rep s p ((beNat (b.take s.size) : Int), (beNat (b.drop s.size) : Int)) C ∧ b.length = s.size * 2 := by
  obtain ⟨x, y, hx, hy, rfl, h5, h6⟩ := h
  obtain ⟨e1, e2⟩ := pair_parts s.size x y (by omega) (by omega)
  rw [e1, e2]
  refine ⟨⟨by simp, by simpa using hx, by simp, by simpa using hy, by simpa using h5, ?_⟩, by simp; omega⟩
  rw [h6]
  congr 1 <;> simp

theorem encodes_unique (hsize : p ≤ 256 ^ s.size) {b b' : Bytes} {C : (curve s p).Point} (h : EncodesPoint s p b C)
    (h' : EncodesPoint s p b' C) : b = b' := by
  obtain ⟨x, y, hx, hy, rfl, h5, h6⟩ := h
  obtain ⟨x', y', hx', hy', rfl, h5', h6'⟩ := h'
  rw [h6] at h6'
  injection h6' with e1 e2
  have e1' := (ZMod.natCast_eq_natCast_iff' x x' p).1 e1
  have e2' := (ZMod.natCast_eq_natCast_iff' y y' p).1 e2
  rw [Nat.mod_eq_of_lt hx, Nat.mod_eq_of_lt hx'] at e1'
  rw [Nat.mod_eq_of_lt hy, Nat.mod_eq_of_lt hy'] at e2'
  rw [e1', e2']

/-- With a base point of odd order the field is not the one of two elements. -/
theorem Good.p_gt_two (hg : Good s p q P) : 2 < p := by
  have h2 := (Fact.out : p.Prime).two_le
  rcases Nat.lt_or_ge 2 p with h | h
  · exact h
  · exfalso
    have : p = 2 := by omega
    subst this
    have h2' := two_pow_ne_zero hg.qprime hg.qodd P hg.order 1
    obtain ⟨-, -, -, -, h5, h6⟩ := hg.base
    apply h2'
    rw [pow_one, two_nsmul, h6]
    refine Point.add_of_Y_eq rfl ?_
    rw [WeierstrassCurve.Affine.negY]
    simp [curve]

/-- Multiples of the base point have order q. -/
theorem order_nsmul {G : Type*} [AddGroup G] {q : Nat} (hq : q.Prime) {P : G} (ho : addOrderOf P = q) {n : Nat}
    (hn : ¬ q ∣ n) : addOrderOf (n • P) = q := by
  have : Fact q.Prime := ⟨hq⟩
  apply addOrderOf_eq_prime
  · rw [← mul_nsmul, mul_comm, mul_nsmul, ← ho, addOrderOf_nsmul_eq_zero, nsmul_zero]
  · intro h
    have := addOrderOf_dvd_of_nsmul_eq_zero h
    rw [ho] at this
    exact hn this

end Gost.Sig
