import Verif.Props.SignatureBuiltin

/-! Properties C41, C43: the private keys outside 1..q-1. Which of them make the multiplication pass
through the point at infinity, and what `public_key_generate` returns for the key q. -/

namespace Gost.Sig
open Spec (beNat beBytes)
open WeierstrassCurve.Affine

variable {s : Sig} {p q : Nat} [Fact p.Prime] {P : (curve s p).Point}

/-- The code's addition of a point and its negative: both coordinates. -/
theorem add_neg_pair (hsp : s.p = p) (hsize : p ≤ 256 ^ s.size) {c d : Int × Int} {C D : (curve s p).Point}
    (hc : Rep s p c C) (hd : Rep s p d D) (h0 : C + D = 0) (hy : c.2 ≠ 0) (hp2 : 2 < p) :
    s.add c.1 d.1 c.2 d.2 = ((-2 * d.1).fmod s.p, d.2) := by
  obtain ⟨x1, y1⟩ := c
  obtain ⟨x2, y2⟩ := d
  obtain ⟨h1, h2, h3, h4, h5, rfl⟩ := hc
  obtain ⟨k1, k2, k3, k4, k5, rfl⟩ := hd
  dsimp only at *
  have hxy : (x1 : ZMod p) = x2 ∧ (y1 : ZMod p) = (curve s p).negY x2 y2 := by
    by_contra hxy
    rw [Point.add_some hxy] at h0
    exact absurd h0 (Point.some_ne_zero _)
  have hx : x1 = x2 := cast_inj _ _ h1 h2 k1 k2 hxy.1
  subst hx
  have hyy : (y1 : ZMod p) = -(y2 : ZMod p) := by
    rw [hxy.2, WeierstrassCurve.Affine.negY]
    simp [curve]
  have hne : y1 ≠ y2 := by
    rintro rfl
    have h2y : (2 : ZMod p) * (y1 : ZMod p) = 0 := by linear_combination hyy
    rcases mul_eq_zero.1 h2y with h | h
    · have := (ZMod.natCast_eq_zero_iff 2 p).1 (by exact_mod_cast h)
      have := Nat.le_of_dvd (by omega) this
      omega
    · exact hy (cast_inj _ _ h3 h4 (by omega) (by omega) (by simpa using h))
  have e1 : compare (intToBytes y1 s.size) (intToBytes y2 s.size) = false := by
    rw [Bool.eq_false_iff]
    exact fun h => hne ((compare_reduced s.size hsize y1 y2 h3 h4 k3 k4).1 h)
  have hp0 : s.p ≠ 0 := by rw [hsp]; omega
  have hinv : invert 0 s.p = 0 := by
    unfold invert
    rw [gcdex_ne 0 s.p hp0, Int.zero_fmod, gcdex_zero]
    rfl
  have hr := fmod_range p (by omega) (0 * (x1 - (0 * 0 - x1 - x1).fmod s.p) - y1)
  have hy2 : (0 * (x1 - (0 * 0 - x1 - x1).fmod s.p) - y1).fmod s.p = y2 := by
    rw [hsp]
    rw [hsp] at hr
    refine cast_inj _ _ hr.1 hr.2 k3 k4 ?_
    rw [cast_fmod]
    push_cast
    rw [hyy]
    ring
  unfold add
  dsimp only
  rw [e1, Bool.and_false, if_neg (by simp), sub_self, Int.zero_fmod, hinv, mul_zero, Int.zero_fmod, hy2]
  congr 2
  ring

/-- The loop when the sum is the point at infinity and no partial sum is: the result comes from the
last doubled point. -/
theorem mulLoop_last (hsp : s.p = p) (hsize : p ≤ 256 ^ s.size) (hp2 : 2 < p) (F : Nat) :
    ∀ (v : Nat) (c d : Int × Int) (N R : (curve s p).Point), 0 < v → v < 2 ^ F → Rep s p c N → Rep s p d R →
      (∀ i, v % 2 ^ i ≠ v → N + (v % 2 ^ i) • R ≠ 0) → (∀ i, 2 ^ i • R ≠ 0) → N + v • R = 0 →
      ∃ t, Rep s p t (2 ^ Nat.log2 v • R) ∧
        mulLoop s F (v : Int) c d = some ((-2 * t.1).fmod s.p, t.2) := by
  induction F with
  | zero => intro v c d N R h0 hv; omega
  | succ F ih =>
    intro v c d N R h0 hv hc hd hN hR hz
    rw [mulLoop_succ F v (by omega)]
    have e1 : (v : Int).fdiv 2 = ((v / 2 : Nat) : Int) := by
      rw [Int.fdiv_eq_ediv_of_nonneg _ (by omega)]; omega
    have e2 : (v : Int).fmod 2 = ((v % 2 : Nat) : Int) := by
      rw [Int.fmod_eq_emod_of_nonneg _ (by omega)]; omega
    rw [e1, e2]
    by_cases h1 : v = 1
    · subst h1
      refine ⟨d, by rw [show Nat.log2 1 = 0 by decide, pow_zero, one_nsmul]; exact hd, ?_⟩
      rw [show ((1 / 2 : Nat) : Int) = 0 from rfl, mulLoop_zero, if_pos (by rfl)]
      rw [one_nsmul] at hz
      have hy : c.2 ≠ 0 := by
        intro h
        have h2 := hR 1
        rw [pow_one, two_nsmul] at h2
        apply h2
        have hNR : N = -R := eq_neg_of_add_eq_zero_left hz
        have hNN : N + N = 0 := by
          obtain ⟨-, -, -, -, h5, rfl⟩ := hc
          refine Point.add_of_Y_eq rfl ?_
          rw [WeierstrassCurve.Affine.negY]
          simp [curve, h]
        rw [hNR] at hNN
        rw [← neg_neg (R + R), neg_add, hNN, neg_zero]
      rw [add_neg_pair hsp hsize hc hd hz hy hp2]
    · have hdd : Rep s p (s.add d.1 d.1 d.2 d.2) (R + R) :=
        add_rep hsp hsize hd hd (by have := hR 1; simpa [two_nsmul] using this)
      have hnext : Rep s p (if ((v % 2 : Nat) : Int) = 1 then s.add c.1 d.1 c.2 d.2 else c) (N + (v % 2) • R) := by
        by_cases hb : v % 2 = 1
        · rw [if_pos (by omega), hb, one_nsmul]
          exact add_rep hsp hsize hc hd (by
            have := hN 1 (by rw [pow_one]; omega); rwa [pow_one, hb, one_nsmul] at this)
        · rw [if_neg (by omega), show v % 2 = 0 by omega, zero_nsmul, add_zero]
          exact hc
      have hsum : N + (v % 2) • R + (v / 2) • (R + R) = N + v • R := by
        rw [add_assoc, ← two_nsmul, ← mul_nsmul', ← add_nsmul]
        congr 2
        omega
      obtain ⟨t, ht, he⟩ := ih (v / 2) _ _ _ _ (by omega) (by rw [Nat.pow_succ] at hv; omega) hnext hdd (by
        intro i hi
        have hm : v % 2 ^ (i + 1) = v % 2 + (v / 2 % 2 ^ i) * 2 := by
          rw [pow_succ', Nat.mod_mul]; ring
        have := hN (i + 1) (by rw [hm]; omega)
        rw [hm, add_nsmul, ← add_assoc, mul_nsmul', two_nsmul] at this
        exact this) (by
        intro i
        have := hR (i + 1)
        rw [pow_succ, mul_nsmul', two_nsmul] at this
        exact this) (by rw [hsum]; exact hz)
      refine ⟨t, ?_, he⟩
      rw [← two_nsmul, ← mul_nsmul', ← pow_succ] at ht
      rwa [show Nat.log2 v = Nat.log2 (v / 2) + 1 by
        rw [Nat.log2_def, if_pos (by omega)]]

/-- **C43**, the key q: the call returns, and the bytes are those of (-2x, y), where (x, y) is the last doubled
point 2^i*P, 2^i < q <= 2^(i+1). -/
theorem C43_key_q (hg : Good s p q P) {sk : PyVal} {d : Bytes} (h : sk.data? = some d)
    (hl : d.length = s.size) (hd : beNat d = q) :
    ∃ x y : Nat, ∃ hn : (curve s p).Nonsingular (x : ZMod p) (y : ZMod p), x < p ∧ y < p ∧
      2 ^ Nat.log2 (q - 1) • P = .some _ _ hn ∧
      ∀ F, q ≤ 2 ^ F → s.publicKeyGenerate F sk =
        some (.ok (beBytes s.size ((-2 * x : ZMod p).val) ++ beBytes s.size y)) := by
  have hq2 := hg.qodd
  have hloop : ∀ F, q ≤ 2 ^ F → ∃ t, Rep s p t (2 ^ Nat.log2 (q - 1) • P) ∧
      s.mulPoint F (q : Int) = some ((-2 * t.1).fmod s.p, t.2) := by
    intro F hF
    rw [mulPoint_eq F q (-1) (-1) (s.x, s.y) (by simp), show (q : Int) - 1 = ((q - 1 : Nat) : Int) by omega]
    refine mulLoop_last hg.hp hg.size hg.p_gt_two F (q - 1) _ _ P P (by omega) (by omega) hg.base hg.base ?_
      (two_pow_ne_zero hg.qprime hg.qodd P hg.order) ?_
    · intro i hi h0
      rw [← succ_nsmul'] at h0
      have h1 := addOrderOf_dvd_of_nsmul_eq_zero h0
      rw [hg.order] at h1
      have h2 := Nat.le_of_dvd (by omega) h1
      have := Nat.mod_le (q - 1) (2 ^ i)
      omega
    · rw [← succ_nsmul', Nat.sub_add_cancel (by omega), ← hg.order, addOrderOf_nsmul_eq_zero]
  obtain ⟨t, ht, -⟩ := hloop q Nat.lt_two_pow_self.le
  obtain ⟨h1, h2, h3, h4, h5, h6⟩ := id ht
  have ex : ((t.1.toNat : Nat) : Int) = t.1 := Int.toNat_of_nonneg h1
  have ey : ((t.2.toNat : Nat) : Int) = t.2 := Int.toNat_of_nonneg h3
  have cx : ((t.1.toNat : Nat) : ZMod p) = (t.1 : ZMod p) := by rw [← Int.cast_natCast, ex]
  have cy : ((t.2.toNat : Nat) : ZMod p) = (t.2 : ZMod p) := by rw [← Int.cast_natCast, ey]
  refine ⟨t.1.toNat, t.2.toNat, by rw [cx, cy]; exact h5, by omega, by omega, ?_, fun F hF => ?_⟩
  · rw [h6]; simp only [cx, cy]
  · obtain ⟨t', ht', hm⟩ := hloop F hF
    have := rep_inj ht ht'
    subst this
    rw [publicKeyGenerate_eq h hl, hd, hm]
    have hv : (-2 * t.1).fmod s.p = (((-2 * (t.1.toNat : ZMod p)).val : Nat) : Int) := by
      have hcast : (-2 * ((t.1.toNat : Nat) : ZMod p)) = ((-2 * t.1 : Int) : ZMod p) := by
        rw [cx]; push_cast; ring
      rw [hcast, ZMod.val_intCast, hg.hp, Int.fmod_eq_emod_of_nonneg _ (by omega)]
    rw [hv, ← ey, Option.map_some, pairBytes_nat, ey]

/-- Only the bit positions from the length of q on can meet the point at infinity. -/
theorem noWrap_iff (q d n : Nat) (hd0 : 0 < d) (hd : d ≤ 2 ^ n) :
    NoWrap q d ↔ ∀ i, q ≤ 2 ^ i → i ≤ n → ¬ q ∣ 1 + (d - 1) % 2 ^ i := by
  refine ⟨fun h i _ _ => h i, fun h i hi => ?_⟩
  have hpos : 0 < 2 ^ i := Nat.two_pow_pos i
  by_cases hq : q ≤ 2 ^ i
  · by_cases hn : i ≤ n
    · exact h i hq hn hi
    · have hle : 2 ^ n ≤ 2 ^ i := Nat.pow_le_pow_right (by omega) (by omega)
      rw [Nat.mod_eq_of_lt (by omega)] at hi
      have hqn : q ≤ 2 ^ n := Nat.le_trans (Nat.le_of_dvd (by omega) hi) (by omega)
      exact h n hqn (Nat.le_refl _) (by rwa [Nat.mod_eq_of_lt (by omega)])
  · have := Nat.le_of_dvd (by omega) hi
    have := Nat.mod_lt (d - 1) hpos
    omega

/-- **C43**: when q has as many bits as a key (2^(n-1) < q), the only key in 1..2^n with an undefined addition is
q itself. -/
theorem C43_wrap_top (q d n : Nat) (hq : 2 ^ n < q) (hd0 : 0 < d) (hd : d < 2 ^ (n + 1)) :
    NoWrap q d ↔ d ≠ q := by
  rw [noWrap_iff q d (n + 1) hd0 (by omega)]
  have hlt : 2 ^ (n + 1) = 2 * 2 ^ n := by rw [Nat.pow_succ]; omega
  constructor
  · rintro h rfl
    exact h (n + 1) (by omega) (by omega) (by rw [Nat.mod_eq_of_lt (by omega)]; exact ⟨1, by omega⟩)
  · intro hne i h1 h2 h3
    have hi : i = n + 1 := by
      by_contra hc
      have : 2 ^ i ≤ 2 ^ n := Nat.pow_le_pow_right (by omega) (by omega)
      omega
    subst hi
    rw [Nat.mod_eq_of_lt (by omega), show 1 + (d - 1) = d by omega] at h3
    obtain ⟨m, rfl⟩ := h3
    have hm : m < 2 := by
      by_contra hc
      have : q * 2 ≤ q * m := Nat.mul_le_mul_left _ (by omega)
      omega
    interval_cases m <;> omega

/-- **C43**: when q is one bit shorter, the keys with an undefined addition are q, its multiples, and q + 2^(n-1). -/
theorem C43_wrap_second (q d n : Nat) (hq : 2 ^ n < q) (hq' : q ≤ 2 ^ (n + 1)) (hd0 : 0 < d)
    (hd : d < 2 ^ (n + 2)) : NoWrap q d ↔ ¬ q ∣ d ∧ d ≠ q + 2 ^ (n + 1) := by
  rw [noWrap_iff q d (n + 2) hd0 (by omega)]
  have h2n : 2 ^ (n + 1) = 2 * 2 ^ n := by rw [Nat.pow_succ]; omega
  have h4n : 2 ^ (n + 2) = 4 * 2 ^ n := by rw [Nat.pow_succ, Nat.pow_succ]; omega
  constructor
  · intro h
    refine ⟨fun hc => h (n + 2) (by omega) (by omega) ?_, ?_⟩
    · rwa [Nat.mod_eq_of_lt (by omega), show 1 + (d - 1) = d by omega]
    · rintro rfl
      refine h (n + 1) hq' (by omega) ⟨1, ?_⟩
      rw [show q + 2 ^ (n + 1) - 1 = q - 1 + 2 ^ (n + 1) by omega, Nat.add_mod_right, Nat.mod_eq_of_lt (by omega)]
      omega
  · rintro ⟨h1, h2⟩ i hi hin hdv
    have hcase : i = n + 1 ∨ i = n + 2 := by
      by_contra hc
      have : 2 ^ i ≤ 2 ^ n := Nat.pow_le_pow_right (by omega) (by omega)
      omega
    rcases hcase with rfl | rfl
    · obtain ⟨m, hm⟩ := hdv
      have hlt := Nat.mod_lt (d - 1) (Nat.two_pow_pos (n + 1))
      have hm2 : m < 2 := by
        by_contra hc
        have : q * 2 ≤ q * m := Nat.mul_le_mul_left _ (by omega)
        omega
      have hdm := Nat.div_add_mod (d - 1) (2 ^ (n + 1))
      have hk : (d - 1) / 2 ^ (n + 1) < 2 := by
        rw [Nat.div_lt_iff_lt_mul (Nat.two_pow_pos _)]; omega
      generalize hkk : (d - 1) / 2 ^ (n + 1) = k at hdm hk
      interval_cases m
      · omega
      · interval_cases k
        · exact h1 ⟨1, by omega⟩
        · exact h2 (by omega)
    · rw [Nat.mod_eq_of_lt (by omega), show 1 + (d - 1) = d by omega] at hdv
      exact h1 hdv

/-- **C43**: when q is two bits shorter. -/
theorem C43_wrap_third (q d n : Nat) (hq : 2 ^ n < q) (hq' : q ≤ 2 ^ (n + 1)) (hd0 : 0 < d)
    (hd : d < 2 ^ (n + 3)) : NoWrap q d ↔
      ¬ q ∣ d ∧ ¬ q ∣ 1 + (d - 1) % 2 ^ (n + 2) ∧ ¬ q ∣ 1 + (d - 1) % 2 ^ (n + 1) := by
  rw [noWrap_iff q d (n + 3) hd0 (by omega)]
  have h1 : 2 ^ (n + 1) ≤ 2 ^ (n + 2) := Nat.pow_le_pow_right (by omega) (by omega)
  have h2 : 2 ^ (n + 2) ≤ 2 ^ (n + 3) := Nat.pow_le_pow_right (by omega) (by omega)
  have e : 1 + (d - 1) % 2 ^ (n + 3) = d := by rw [Nat.mod_eq_of_lt (by omega)]; omega
  constructor
  · intro h
    refine ⟨?_, h (n + 2) (by omega) (by omega), h (n + 1) (by omega) (by omega)⟩
    have := h (n + 3) (by omega) (by omega)
    rwa [e] at this
  · rintro ⟨g1, g2, g3⟩ i hi hin
    have hcase : i = n + 1 ∨ i = n + 2 ∨ i = n + 3 := by
      by_contra hc
      have : 2 ^ i ≤ 2 ^ n := Nat.pow_le_pow_right (by omega) (by omega)
      omega
    rcases hcase with rfl | rfl | rfl
    · exact g3
    · exact g2
    · rwa [e]

/-- **C43**: the keys with an undefined addition for the built-in parameter sets. -/
theorem C43_wrap_builtin (d : Nat) (h0 : 0 < d) :
    (d < 2 ^ 256 → (NoWrap B42.q d ↔ d ≠ B42.q) ∧ (NoWrap C59.q d ↔ d ≠ C59.q) ∧ (NoWrap D41.q d ↔ d ≠ D41.q) ∧
      (NoWrap A59.q d ↔ d ≠ A59.q ∧ d ≠ 2 * A59.q ∧ d ≠ 3 * A59.q ∧ d ≠ A59.q + 2 ^ 255)) ∧
    (d < 2 ^ 512 → (NoWrap F59.qA d ↔ d ≠ F59.qA) ∧ (NoWrap E59.q d ↔ d ≠ E59.q) ∧
      (NoWrap F59.qC d ↔
        ¬ F59.qC ∣ d ∧ ¬ F59.qC ∣ 1 + (d - 1) % 2 ^ 511 ∧ ¬ F59.qC ∣ 1 + (d - 1) % 2 ^ 510)) := by
  refine ⟨fun h => ⟨C43_wrap_top _ d 255 (by decide +kernel) h0 h, C43_wrap_top _ d 255 (by decide +kernel) h0 h,
    C43_wrap_top _ d 255 (by decide +kernel) h0 h, ?_⟩,
    fun h => ⟨C43_wrap_top _ d 511 (by decide +kernel) h0 h, C43_wrap_top _ d 511 (by decide +kernel) h0 h,
    C43_wrap_third _ d 509 (by decide +kernel) (by decide +kernel) h0 h⟩⟩
  rw [C43_wrap_second A59.q d 254 (by decide +kernel) (by decide +kernel) h0 h]
  have h4 : 2 ^ 256 < A59.q * 4 := by decide +kernel
  generalize A59.q = q at *
  constructor
  · rintro ⟨h1, h2⟩
    exact ⟨fun e => h1 ⟨1, by omega⟩, fun e => h1 ⟨2, by omega⟩, fun e => h1 ⟨3, by omega⟩, h2⟩
  · rintro ⟨h1, h2, h3, h5⟩
    refine ⟨?_, h5⟩
    rintro ⟨m, rfl⟩
    have hm : m < 4 := by
      by_contra hc
      have : q * 4 ≤ q * m := Nat.mul_le_mul_left _ (by omega)
      omega
    interval_cases m <;> omega

/-- **C43**: when q has 8*size bits, `public_key_generate` returns d times the base point for every key other than
0 (no end) and q (`C43_key_q`), the keys above q included. -/
theorem C43_all_keys (hg : Good s p q P) (n : Nat) (hn : 8 * s.size = n + 1) (hq : 2 ^ n < q) {sk : PyVal} {d : Bytes}
    (h : sk.data? = some d) (hl : d.length = s.size) (h0 : 0 < beNat d) (hne : beNat d ≠ q) :
    ∃ b, EncodesPoint s p b (beNat d • P) ∧ ∀ F, 8 * s.size ≤ F → s.publicKeyGenerate F sk = some (.ok b) := by
  have hlt : beNat d < 2 ^ (n + 1) := by
    rw [← hn, pow_mul, ← hl]
    exact beNat_lt d
  obtain ⟨b, hb, hF⟩ := C43_point hg h hl h0 ((C43_wrap_top q _ n hq h0 hlt).2 hne)
  refine ⟨b, hb, fun F hle => hF F ?_⟩
  rw [hn] at hle
  have : 2 ^ (n + 1) ≤ 2 ^ F := Nat.pow_le_pow_right (by omega) hle
  omega

/-- The part of C44 that holds: `public_key_generate` ends for every argument other than the zero key, `verify` for
every argument, and `sign` with an explicit k for every argument, valid or not, except those for which the standard
has no signature. Missing: exactly these cases (`C44_public_key`, `C44_sign`, `C44_statement_false`). -/
theorem C44_terminates_partial (hg : Good s p q P) (sk pk dgv rkv sigv : PyVal) (rand : Nat → Bytes) :
    (sk.data? ≠ some (List.replicate s.size 0) → Ends (fun F => s.publicKeyGenerate F sk)) ∧
    Ends (fun F => s.verify F pk dgv sigv) ∧
    (rkv.data? ≠ some [] →
      (Ends (fun F => s.sign F rand sk dgv rkv) ↔
        ∀ d dg rk, sk.data? = some d → d.length = s.size → dgv.data? = some dg → dg.length = s.size →
          rkv.data? = some rk → beNat rk < q →
          ∃ r sg, StdSign s p q P (beNat d) (stdE q dg) (beNat rk) r sg)) := by
  refine ⟨(C44_public_key s sk).2, C44_verify hg.hq hg.qprime hg.qsize pk dgv sigv, fun hr => ?_⟩
  cases h1 : checkValue sk s.size with
  | false =>
    refine ⟨fun _ d dg rk h hl => ?_, fun _ => ⟨0, _, sign_badKey h1 dgv rkv 0 rand⟩⟩
    rw [(checkValue_iff _ _).2 ⟨d, h, hl⟩] at h1
    cases h1
  | true =>
    cases h2 : checkValue dgv s.size with
    | false =>
      refine ⟨fun _ d dg rk _ _ h hl => ?_, fun _ => ⟨0, _, sign_badDigest h1 h2 rkv 0 rand⟩⟩
      rw [(checkValue_iff _ _).2 ⟨dg, h, hl⟩] at h2
      cases h2
    | true =>
      obtain ⟨d, hd, ld⟩ := (checkValue_iff _ _).1 h1
      obtain ⟨dg, hdg, ldg⟩ := (checkValue_iff _ _).1 h2
      cases hrk : rkv.data? with
      | none =>
        refine ⟨fun _ _ _ rk _ _ _ _ h => ?_, fun _ => ⟨0, _, sign_badRand hd ld hdg ldg hrk 0 rand⟩⟩
        cases h
      | some rk =>
        have hne : rk ≠ [] := by rintro rfl; exact hr hrk
        by_cases hk : beNat rk < q
        · rw [C44_sign hg hd ld hdg ldg hrk hne hk rand]
          constructor
          · rintro h d' dg' rk' e1 - e2 - e3 -
            rw [hd] at e1; rw [hdg] at e2
            cases e1; cases e2; cases e3
            exact h
          · intro h
            exact h d dg rk hd ld hdg ldg rfl hk
        · refine ⟨fun _ d' dg' rk' _ _ _ _ e3 hk' => ?_, fun _ => ⟨0, .error (.signatureError "GOSTSignatureError: invalid random value"), ?_⟩⟩
          · cases e3; exact absurd hk' hk
          · dsimp only
            rw [sign_explicit hd ld hdg ldg hrk hne, if_pos (by rw [hg.hq]; omega)]

end Gost.Sig
