import Verif.Proofs.SignCalls

/-! `_mul_point` of gost_34_10_2012.py, for a base point whose coordinates are not reduced modulo p. -/

namespace Gost.Sig
open Spec

theorem fmod_moved (a k p : Int) : (a + k * p).fmod p = a.fmod p := by
  rw [Int.mul_comm]
  exact Int.add_mul_fmod_self_left a p k

/-- Numbers which differ by a multiple of p have the same remainder. -/
theorem fmod_of_dvd {a b p : Int} (h : p ∣ a - b) : a.fmod p = b.fmod p := by
  obtain ⟨k, h⟩ := h
  rw [show a = b + k * p by rw [Int.mul_comm k p, ← h]; ring, fmod_moved]

/-- `_invert` reduces its argument first. -/
theorem invert_of_dvd {a b p : Int} (hp : p ≠ 0) (h : p ∣ a - b) : invert a p = invert b p := by
  have step : ∀ v, (gcdex v p).2.1 = (gcdex p (v.fmod p)).2.2 := by
    intro v
    rw [gcdex, dif_neg hp]
  have e : (gcdex a p).2.1 = (gcdex b p).2.1 := by rw [step, step, fmod_of_dvd h]
  unfold invert
  rw [e]

/-- `_add` depends on the remainders modulo p and on the two comparisons. -/
theorem add_of_dvd (s : Sig) (hp : s.p ≠ 0) {x1 x2 y1 y2 u1 u2 v1 v2 : Int} (h1 : s.p ∣ u1 - x1) (h2 : s.p ∣ u2 - x2)
    (k1 : s.p ∣ v1 - y1) (k2 : s.p ∣ v2 - y2)
    (hc : (compare (intToBytes u1 s.size) (intToBytes u2 s.size) && compare (intToBytes v1 s.size) (intToBytes v2 s.size)) =
      (compare (intToBytes x1 s.size) (intToBytes x2 s.size) && compare (intToBytes y1 s.size) (intToBytes y2 s.size))) :
    s.add u1 u2 v1 v2 = s.add x1 x2 y1 y2 := by
  have g1 : ((3 * u1 * u1 + s.a) * invert (2 * v1) s.p).fmod s.p = ((3 * x1 * x1 + s.a) * invert (2 * y1) s.p).fmod s.p := by
    rw [invert_of_dvd hp (show s.p ∣ 2 * v1 - 2 * y1 by rw [← mul_sub]; exact k1.mul_left 2)]
    apply fmod_of_dvd
    rw [show (3 * u1 * u1 + s.a) * invert (2 * y1) s.p - (3 * x1 * x1 + s.a) * invert (2 * y1) s.p =
      (u1 - x1) * (3 * (u1 + x1) * invert (2 * y1) s.p) by ring]
    exact h1.mul_right _
  have g2 : ((v2 - v1).fmod s.p * invert ((u2 - u1).fmod s.p) s.p).fmod s.p =
      ((y2 - y1).fmod s.p * invert ((x2 - x1).fmod s.p) s.p).fmod s.p := by
    rw [fmod_of_dvd (show s.p ∣ (v2 - v1) - (y2 - y1) by
        rw [show (v2 - v1) - (y2 - y1) = (v2 - y2) - (v1 - y1) by ring]; exact k2.sub k1),
      fmod_of_dvd (show s.p ∣ (u2 - u1) - (x2 - x1) by
        rw [show (u2 - u1) - (x2 - x1) = (u2 - x2) - (u1 - x1) by ring]; exact h2.sub h1)]
  have gx : ∀ g : Int, (g * g - u1 - u2).fmod s.p = (g * g - x1 - x2).fmod s.p := by
    intro g
    apply fmod_of_dvd
    rw [show g * g - u1 - u2 - (g * g - x1 - x2) = -((u1 - x1) + (u2 - x2)) by ring]
    exact (h1.add h2).neg_right
  have gy : ∀ g x3 : Int, (g * (u1 - x3) - v1).fmod s.p = (g * (x1 - x3) - y1).fmod s.p := by
    intro g x3
    apply fmod_of_dvd
    rw [show g * (u1 - x3) - v1 - (g * (x1 - x3) - y1) = (u1 - x1) * g - (v1 - y1) by ring]
    exact (h1.mul_right _).sub k1
  unfold add
  dsimp only
  rw [hc, g1, g2, gx, gy]

theorem compare_self (b : Bytes) : compare b b = true := (C48_compare b b).2 rfl

/-- The loop of `_mul_point` does not read the base point of the object. -/
theorem mulLoop_same (s : Sig) (x y : Int) (F : Nat) : ∀ (v : Int) (c d : Int × Int),
    mulLoop { s with x := x, y := y } F v c d = mulLoop s F v c d := by
  induction F with
  | zero => intro v c d; rw [mulLoop, mulLoop]
  | succ F ih =>
    intro v c d
    by_cases hv : v = 0
    · rw [hv, mulLoop_zero, mulLoop_zero]
    · rw [mulLoop_succ F v hv, mulLoop_succ F v hv, ih]
      rfl

/-- Doubling. -/
theorem double_of_dvd (s : Sig) (hp : s.p ≠ 0) {x y u v : Int} (h : s.p ∣ u - x) (k : s.p ∣ v - y) :
    s.add u u v v = s.add x x y y :=
  add_of_dvd s hp h h k k (by simp only [compare_self])

section
variable {s : Sig} {p : Nat} [Fact p.Prime]

/-- The loop with a point `N` whose coordinates `c'` are not reduced, while the other point `R` has reduced ones and no
doubling of it is `N`. -/
theorem mulLoop_moved (hsp : s.p = p) (hsize : p ≤ 256 ^ s.size) {c c' : Int × Int} {N : (curve s p).Point} (hc : Rep s p c N)
    (h1 : s.p ∣ c'.1 - c.1) (h2 : s.p ∣ c'.2 - c.2) (r1 : 0 ≤ c'.1) (r2 : c'.1 < (256 ^ s.size : Nat)) (r3 : 0 ≤ c'.2)
    (r4 : c'.2 < (256 ^ s.size : Nat)) (F : Nat) : ∀ (v : Nat) (d : Int × Int) (R : (curve s p).Point), 0 < v → Rep s p d R →
      (∀ i, 2 ^ i ≤ v → 2 ^ i • R ≠ N) → (∀ i, 2 ^ i • R ≠ 0) → mulLoop s F (v : Int) c' d = mulLoop s F (v : Int) c d := by
  have hp0 : s.p ≠ 0 := by
    rw [hsp]
    exact_mod_cast (Fact.out : p.Prime).ne_zero
  induction F with
  | zero =>
    intro v d R hv hd hn hz
    rw [mulLoop, mulLoop, if_neg (by omega), if_neg (by omega)]
  | succ F ih =>
    intro v d R hv hd hn hz
    rw [mulLoop_succ F _ (by omega), mulLoop_succ F _ (by omega)]
    have ev : ((v : Int).fdiv 2) = ((v / 2 : Nat) : Int) := by
      rw [Int.fdiv_eq_ediv_of_nonneg _ (by omega)]
      omega
    by_cases hb : (v : Int).fmod 2 = 1
    · rw [if_pos hb, if_pos hb]
      have hne : N ≠ R := fun e => hn 0 (by omega) (by rw [pow_zero, one_nsmul, e])
      obtain ⟨a1, a2, a3, a4, a5, a6⟩ := hc
      obtain ⟨b1, b2, b3, b4, b5, b6⟩ := hd
      have cd : ¬ (c.1 = d.1 ∧ c.2 = d.2) := by
        rintro ⟨e1, e2⟩
        apply hne
        rw [a6, b6]
        congr 1
        · rw [e1]
        · rw [e2]
      have cd' : ¬ (c'.1 = d.1 ∧ c'.2 = d.2) := by
        rintro ⟨e1, e2⟩
        apply cd
        rw [e1, hsp] at h1
        rw [e2, hsp] at h2
        exact ⟨by
          have := (Int.emod_eq_emod_iff_emod_sub_eq_zero).2 (Int.emod_eq_zero_of_dvd h1)
          rw [Int.emod_eq_of_lt b1 b2, Int.emod_eq_of_lt a1 a2] at this
          exact this.symm, by
          have := (Int.emod_eq_emod_iff_emod_sub_eq_zero).2 (Int.emod_eq_zero_of_dvd h2)
          rw [Int.emod_eq_of_lt b3 b4, Int.emod_eq_of_lt a3 a4] at this
          exact this.symm⟩
      have hs' : (p : Int) ≤ (256 ^ s.size : Nat) := by exact_mod_cast hsize
      have f : ∀ {x y : Int}, 0 ≤ x → x < (256 ^ s.size : Nat) → 0 ≤ y → y < (256 ^ s.size : Nat) →
          (compare (intToBytes x s.size) (intToBytes y s.size) = true ↔ x = y) := fun q1 q2 q3 q4 =>
        compare_reduced s.size le_rfl _ _ q1 q2 q3 q4
      rw [add_of_dvd s hp0 h1 (show s.p ∣ d.1 - d.1 by rw [sub_self]; exact dvd_zero _) h2
        (show s.p ∣ d.2 - d.2 by rw [sub_self]; exact dvd_zero _) (by
          rw [Bool.eq_iff_iff, Bool.and_eq_true, Bool.and_eq_true, f r1 r2 b1 (by omega), f r3 r4 b3 (by omega),
            f a1 (by omega) b1 (by omega), f a3 (by omega) b3 (by omega)]
          exact ⟨fun h => absurd h cd', fun h => absurd h cd⟩)]
    · rw [if_neg hb, if_neg hb, ev]
      have h2v : v % 2 = 0 := by
        rw [Int.fmod_eq_emod_of_nonneg _ (by omega)] at hb
        omega
      have hd2 := add_rep hsp hsize hd hd (by rw [← two_nsmul]; simpa using hz 1)
      refine ih (v / 2) _ (R + R) (by omega) hd2 (fun i hi => ?_) (fun i => ?_)
      · rw [← two_nsmul, ← mul_nsmul', ← pow_succ]
        exact hn (i + 1) (by rw [pow_succ]; omega)
      · rw [← two_nsmul, ← mul_nsmul', ← pow_succ]
        exact hz (i + 1)

/-- The loop of `_mul_point` for a point of order q and all numbers but 1: the coordinates need not be reduced. -/
theorem mulStart_moved (hsp : s.p = p) (hsize : p ≤ 256 ^ s.size) {q : Nat} (hq : q.Prime) (hodd : 2 < q) {c c' : Int × Int}
    {Q : (curve s p).Point} (hc : Rep s p c Q) (ho : addOrderOf Q = q) (h1 : s.p ∣ c'.1 - c.1) (h2 : s.p ∣ c'.2 - c.2)
    (r1 : 0 ≤ c'.1) (r2 : c'.1 < (256 ^ s.size : Nat)) (r3 : 0 ≤ c'.2) (r4 : c'.2 < (256 ^ s.size : Nat))
    (F k : Nat) (hk : k ≠ 1) (hkq : k < q) : mulLoop s F ((k : Int) - 1) c' c' = mulLoop s F ((k : Int) - 1) c c := by
  have hp0 : s.p ≠ 0 := by
    rw [hsp]
    exact_mod_cast (Fact.out : p.Prime).ne_zero
  rcases Nat.eq_zero_or_pos k with h0 | h0
  · rw [h0, mulLoop_neg F _ _ _ (by omega), mulLoop_neg F _ _ _ (by omega)]
  cases F with
  | zero => rw [mulLoop, mulLoop, if_neg (by omega), if_neg (by omega)]
  | succ F =>
    rw [show (k : Int) - 1 = ((k - 1 : Nat) : Int) by omega, mulLoop_succ F _ (by omega), mulLoop_succ F _ (by omega)]
    rw [double_of_dvd s hp0 h1 h2]
    by_cases hb : ((k - 1 : Nat) : Int).fmod 2 = 1
    · rw [if_pos hb, if_pos hb]
    · rw [if_neg hb, if_neg hb, show ((k - 1 : Nat) : Int).fdiv 2 = (((k - 1) / 2 : Nat) : Int) by
        rw [Int.fdiv_eq_ediv_of_nonneg _ (by omega)]; omega]
      have h2v : (k - 1) % 2 = 0 := by
        rw [Int.fmod_eq_emod_of_nonneg _ (by omega)] at hb
        omega
      have z := two_pow_ne_zero hq hodd Q ho
      have hd := add_rep hsp hsize hc hc (by rw [← two_nsmul]; simpa using z 1)
      refine mulLoop_moved hsp hsize hc h1 h2 r1 r2 r3 r4 F _ _ (Q + Q) (by omega) hd (fun i hi e => ?_) (fun i => ?_)
      · rw [← two_nsmul, ← mul_nsmul', ← pow_succ] at e
        have p1 : 0 < 2 ^ i := by positivity
        have e' : (2 ^ (i + 1) - 1) • Q = 0 := by
          have : (2 ^ (i + 1) - 1 + 1) • Q = Q := by rw [Nat.sub_add_cancel (by rw [pow_succ]; omega)]; exact e
          rw [succ_nsmul] at this
          exact left_eq_add.1 (by rw [add_comm]; exact this.symm)
        have dv := addOrderOf_dvd_of_nsmul_eq_zero e'
        rw [ho] at dv
        have := Nat.le_of_dvd (by rw [pow_succ]; omega) dv
        rw [pow_succ] at this
        omega
      · rw [← two_nsmul, ← mul_nsmul', ← pow_succ]
        exact z (i + 1)

/-- `_mul_point` for all numbers but 1 does not see that the coordinates of the base point are not reduced. -/
theorem mulPoint_moved {q : Nat} {P : (curve s p).Point} (g : Good s p q P) {x y : Int} (h1 : s.p ∣ x - s.x)
    (h2 : s.p ∣ y - s.y) (r1 : 0 ≤ x) (r2 : x < (256 ^ s.size : Nat)) (r3 : 0 ≤ y) (r4 : y < (256 ^ s.size : Nat))
    (F k : Nat) (hk : k ≠ 1) (hq : k < q) : ({ s with x := x, y := y } : Sig).mulPoint F k = s.mulPoint F k := by
  rw [mulPoint_eq F k (-1) (-1) (x, y) (by rw [if_neg (by omega)]), mulPoint_eq F k (-1) (-1) (s.x, s.y) (by rw [if_neg (by omega)])]
  rw [mulLoop_same]
  exact mulStart_moved (c' := (x, y)) g.hp g.size g.qprime g.qodd g.base g.order h1 h2 r1 r2 r3 r4 F k hk hq

/-- `verify` for two public keys with coordinates which are equal modulo p. -/
theorem verifyBytes_key {q : Nat} {P Q : (curve s p).Point} (g : Good s p q P) (pk pk' dg sig : Bytes)
    (hQ : Rep s p ((beNat (pyUpto pk s.size) : Int), (beNat (pyFrom pk s.size) : Int)) Q) (ho : addOrderOf Q = q)
    (kx : 0 < beNat (pyUpto pk s.size)) (ky : 0 < beNat (pyFrom pk s.size))
    (kx' : 0 < beNat (pyUpto pk' s.size)) (ky' : 0 < beNat (pyFrom pk' s.size))
    (bx : beNat (pyUpto pk' s.size) < 256 ^ s.size) (by' : beNat (pyFrom pk' s.size) < 256 ^ s.size)
    (h1 : s.p ∣ (beNat (pyUpto pk' s.size) : Int) - beNat (pyUpto pk s.size))
    (h2 : s.p ∣ (beNat (pyFrom pk' s.size) : Int) - beNat (pyFrom pk s.size))
    (hz : beNat (pyUpto sig s.size) + stdE q dg ≠ q) (F : Nat) :
    verifyBytes s F pk' dg sig = verifyBytes s F pk dg sig := by
  have : Fact q.Prime := ⟨g.qprime⟩
  have q1 := g.qprime.one_lt
  have er := stdE_range q q1 dg
  unfold verifyBytes
  dsimp only
  cases hs : s.verifyStep1 (bytesToInt (pyUpto sig s.size) : Int) (bytesToInt (pyFrom sig s.size) : Int) with
  | false => rfl
  | true =>
    have hr : 0 < beNat (pyUpto sig s.size) ∧ beNat (pyUpto sig s.size) < q := by
      unfold verifyStep1 at hs
      rw [bytesToInt_eq, bytesToInt_eq, g.hq] at hs
      simp only [Bool.not_eq_true', Bool.or_eq_false_iff, decide_eq_false_iff_not] at hs
      omega
    have e2 : s.mulPoint F (s.q - ((bytesToInt (pyUpto sig s.size) : Int) * invert (s.setE dg) s.q).fmod s.q)
          (bytesToInt (pyUpto pk' s.size) : Int) (bytesToInt (pyFrom pk' s.size) : Int) =
        s.mulPoint F (s.q - ((bytesToInt (pyUpto sig s.size) : Int) * invert (s.setE dg) s.q).fmod s.q)
          (bytesToInt (pyUpto pk s.size) : Int) (bytesToInt (pyFrom pk s.size) : Int) := by
      obtain ⟨z0, z1⟩ := fmod_range q (by omega) ((bytesToInt (pyUpto sig s.size) : Int) * invert (s.setE dg) s.q)
      have hc := cast_fmod q ((bytesToInt (pyUpto sig s.size) : Int) * invert (s.setE dg) s.q)
      rw [← g.hq] at z0 z1 hc
      obtain ⟨z, ez⟩ := Int.eq_ofNat_of_zero_le z0
      rw [ez] at hc z1 ⊢
      rw [g.hq] at z1
      have hc' : (z : ZMod q) * (stdE q dg : ZMod q) = (beNat (pyUpto sig s.size) : ZMod q) := by
        rw [g.hq, setE_eq s q g.hq q1 g.qsize, bytesToInt_eq] at hc
        push_cast at hc
        rw [invert_cast] at hc
        have hne : ((stdE q dg : Nat) : ZMod q) ≠ 0 := fun h => by
          rw [ZMod.natCast_eq_zero_iff] at h
          exact absurd (Nat.le_of_dvd er.1 h) (by omega)
        rw [hc]
        push_cast
        rw [mul_assoc, inv_mul_cancel₀ hne, mul_one]
      have zpos : z ≠ 0 := fun h => by
        rw [h, Nat.cast_zero, zero_mul, eq_comm, ZMod.natCast_eq_zero_iff] at hc'
        exact absurd (Nat.le_of_dvd hr.1 hc') (by omega)
      have zne : q - z ≠ 1 := fun h => by
        have hz1 : (z : ZMod q) = -1 := by
          have : z + 1 = q := by omega
          rw [eq_neg_iff_add_eq_zero, ← Nat.cast_one, ← Nat.cast_add, this, ZMod.natCast_self]
        rw [hz1, neg_one_mul, neg_eq_iff_add_eq_zero, ← Nat.cast_add, ZMod.natCast_eq_zero_iff] at hc'
        obtain ⟨m, hm⟩ := hc'
        have m1 : m < 2 := by
          by_contra hm2
          have : q * 2 ≤ q * m := Nat.mul_le_mul_left q (by omega)
          omega
        interval_cases m
        · omega
        · exact hz (by omega)
      have hzq : s.q - ((z : Nat) : Int) = ((q - z : Nat) : Int) := by
        rw [g.hq]
        have : z < q := by exact_mod_cast z1
        omega
      have bx2 : (beNat (pyUpto pk' s.size) : Int) < (256 ^ s.size : Nat) := by exact_mod_cast bx
      have by2 : (beNat (pyFrom pk' s.size) : Int) < (256 ^ s.size : Nat) := by exact_mod_cast by'
      rw [hzq, bytesToInt_eq, bytesToInt_eq, bytesToInt_eq, bytesToInt_eq,
        mulPoint_eq F _ _ _ ((beNat (pyUpto pk' s.size) : Int), (beNat (pyFrom pk' s.size) : Int)) (by rw [if_pos (by omega)]),
        mulPoint_eq F _ _ _ ((beNat (pyUpto pk s.size) : Int), (beNat (pyFrom pk s.size) : Int)) (by rw [if_pos (by omega)])]
      exact mulStart_moved (c' := ((beNat (pyUpto pk' s.size) : Int), (beNat (pyFrom pk' s.size) : Int))) g.hp g.size g.qprime g.qodd
        hQ ho h1 h2 (by positivity) bx2 (by positivity) by2 F (q - z) zne (by omega)
    rw [e2]

section
variable {q : Nat} {P : (curve s p).Point} (g : Good s p q P) {x y : Int} (h1 : s.p ∣ x - s.x)
    (h2 : s.p ∣ y - s.y) (r1 : 0 ≤ x) (r2 : x < (256 ^ s.size : Nat)) (r3 : 0 ≤ y) (r4 : y < (256 ^ s.size : Nat))
include g h1 h2 r1 r2 r3 r4

theorem publicKey_moved (F : Nat) (kv : PyVal) (h : ∀ d, kv.data? = some d → beNat d ≠ 1 ∧ beNat d < q) :
    ({ s with x := x, y := y } : Sig).publicKeyGenerate F kv = s.publicKeyGenerate F kv := by
  unfold publicKeyGenerate
  dsimp only
  cases hc : checkValue kv s.size with
  | false => rfl
  | true =>
    cases hd : kv.data? with
    | none =>
      unfold checkValue at hc
      rw [hd] at hc
      cases hc
    | some d =>
      obtain ⟨a, b⟩ := h d hd
      rw [Option.getD_some, bytesToInt_eq, mulPoint_moved g h1 h2 r1 r2 r3 r4 F (beNat d) a b]

theorem signInner_moved (F k : Nat) (hk : k ≠ 1) (hq : k < q) : ∀ (n : Nat) (r : Int),
    signInner { s with x := x, y := y } F k n r = signInner s F k n r := by
  intro n
  induction n with
  | zero => intro r; unfold signInner; rfl
  | succ n ih =>
    intro r
    unfold signInner
    rw [mulPoint_moved g h1 h2 r1 r2 r3 r4 F k hk hq]
    simp only [ih]

theorem signOuter_moved (F : Nat) (d e : Int) (k : Nat) (hk : k ≠ 1) (hq : k < q) : ∀ (n : Nat) (r sg : Int),
    signOuter { s with x := x, y := y } F d e k n r sg = signOuter s F d e k n r sg := by
  intro n
  induction n with
  | zero => intro r sg; unfold signOuter; rfl
  | succ n ih =>
    intro r sg
    unfold signOuter
    simp only [signInner_moved g h1 h2 r1 r2 r3 r4 F k hk hq, ih]

theorem signWith_moved (F : Nat) (d dg rk : Bytes) (hk : beNat rk ≠ 1) (hq : beNat rk < q) :
    signWith { s with x := x, y := y } F d dg rk = signWith s F d dg rk := by
  unfold signWith
  rw [signOuter_moved g h1 h2 r1 r2 r3 r4 F _ _ _ hk hq]
  rfl

theorem verifyBytes_moved (F : Nat) (pk dg sig : Bytes) (kx : 0 < beNat (pyUpto pk s.size)) (ky : 0 < beNat (pyFrom pk s.size))
    (hz : beNat (pyFrom sig s.size) ≠ stdE q dg) :
    verifyBytes { s with x := x, y := y } F pk dg sig = verifyBytes s F pk dg sig := by
  have : Fact q.Prime := ⟨g.qprime⟩
  have q1 := g.qprime.one_lt
  unfold verifyBytes
  dsimp only
  rw [show verifyStep1 { s with x := x, y := y } = verifyStep1 s from rfl]
  cases hs : s.verifyStep1 (bytesToInt (pyUpto sig s.size) : Int) (bytesToInt (pyFrom sig s.size) : Int) with
  | false => rfl
  | true =>
    rw [show setE { s with x := x, y := y } = s.setE from rfl, show add { s with x := x, y := y } = s.add from rfl]
    have e2 : ∀ z, mulPoint { s with x := x, y := y } F z (bytesToInt (pyUpto pk s.size) : Int) (bytesToInt (pyFrom pk s.size) : Int) =
        s.mulPoint F z (bytesToInt (pyUpto pk s.size) : Int) (bytesToInt (pyFrom pk s.size) : Int) := by
      intro z
      rw [bytesToInt_eq, bytesToInt_eq,
        mulPoint_eq F z _ _ ((beNat (pyUpto pk s.size) : Int), (beNat (pyFrom pk s.size) : Int)) (by rw [if_pos (by omega)]),
        mulPoint_eq F z _ _ ((beNat (pyUpto pk s.size) : Int), (beNat (pyFrom pk s.size) : Int)) (by rw [if_pos (by omega)]),
        mulLoop_same]
    have e1 : mulPoint { s with x := x, y := y } F (((bytesToInt (pyFrom sig s.size) : Int) * invert (s.setE dg) s.q).fmod s.q) =
        s.mulPoint F (((bytesToInt (pyFrom sig s.size) : Int) * invert (s.setE dg) s.q).fmod s.q) := by
      have hA : ∀ A : Int, ∃ z : Nat, A.fmod s.q = z ∧ z < q ∧ (z : ZMod q) = (A : ZMod q) := by
        intro A
        obtain ⟨z0, z1⟩ := fmod_range q (by omega) A
        have hc := cast_fmod q A
        rw [← g.hq] at z0 z1 hc
        obtain ⟨z, ez⟩ := Int.eq_ofNat_of_zero_le z0
        rw [ez] at hc z1
        rw [g.hq] at z1
        exact ⟨z, ez, by exact_mod_cast z1, by exact_mod_cast hc⟩
      obtain ⟨z, ez, z1, hc⟩ := hA ((bytesToInt (pyFrom sig s.size) : Int) * invert (s.setE dg) s.q)
      rw [ez]
      refine mulPoint_moved g h1 h2 r1 r2 r3 r4 F z (fun e => hz ?_) z1
      rw [g.hq] at hc
      rw [e] at hc
      push_cast at hc
      rw [invert_cast, setE_eq s q g.hq q1 g.qsize, bytesToInt_eq] at hc
      have hn : ((stdE q dg : Int) : ZMod q)⁻¹ ≠ 0 := fun h => by
        rw [h, mul_zero] at hc
        exact one_ne_zero hc
      have hc' := eq_inv_of_mul_eq_one_left hc.symm
      rw [inv_inv] at hc'
      have hlt := (stdE_range q q1 dg).2
      have hsg : beNat (pyFrom sig s.size) < q := by
        unfold verifyStep1 at hs
        rw [bytesToInt_eq, bytesToInt_eq, g.hq] at hs
        simp only [Bool.not_eq_true', Bool.or_eq_false_iff, decide_eq_false_iff_not] at hs
        omega
      have hm : ((beNat (pyFrom sig s.size) : Nat) : ZMod q) = ((stdE q dg : Nat) : ZMod q) := by exact_mod_cast hc'
      rw [ZMod.natCast_eq_natCast_iff', Nat.mod_eq_of_lt hsg, Nat.mod_eq_of_lt hlt] at hm
      exact hm
    rw [e1, e2]

end

end

end Gost.Sig
