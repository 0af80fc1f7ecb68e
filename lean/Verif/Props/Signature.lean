import Verif.Proofs.SignCalls

/-! C41, C42, C43, C44, C47: the calls of the signature object against GOST R 34.10-2012.

`Good s p q P` (in `Verif.Spec.Curve`) is the hypothesis on the curve: `p` prime, the base point `P`
has the odd prime order `q`, both fit the size. `Verif.Props.SignatureExamples` gives objects which
satisfy it, with the results of the calls.

The fuel `F` is universally quantified: a call "returns" when it gives a result for some `F`, and the
theorems say which result that is. -/

namespace Gost.Sig
open Spec (beNat beBytes)

variable {s : Sig} {p q : Nat} [Fact p.Prime] {P : (curve s p).Point}

/-- The call ends (returns or raises) after finitely many loop iterations. -/
def Ends {α : Type} (f : Nat → Option α) : Prop := ∃ F r, f F = some r

/-! ### C43 -/

/-- `public_key_generate` is the multiple of the base point in the curve's group, for every key whose
double-and-add run does not pass through the point at infinity. -/
theorem C43_point (hg : Good s p q P) {sk : PyVal} {d : Bytes} (h : sk.data? = some d)
    (hl : d.length = s.size) (h0 : 0 < beNat d) (hw : NoWrap q (beNat d)) :
    ∃ b, EncodesPoint s p b (beNat d • P) ∧
      ∀ F, beNat d ≤ 2 ^ F → s.publicKeyGenerate F sk = some (.ok b) := by
  obtain ⟨e, -, he⟩ := hg.mulPoint (beNat d) (beNat d) h0 Nat.lt_two_pow_self.le hw
  refine ⟨pairBytes s e, encodes_of_rep hg.size he, fun F hF => ?_⟩
  rw [publicKeyGenerate_eq h hl]
  obtain ⟨e', h1, h2⟩ := hg.mulPoint F (beNat d) h0 hF hw
  rw [h1]
  have := rep_inj he h2
  subst this
  rfl

/-- In particular for every private key of the standard, 0 < d < q. -/
theorem C43_private_key (hg : Good s p q P) {sk : PyVal} {d : Bytes} (h : sk.data? = some d)
    (hl : d.length = s.size) (h0 : 0 < beNat d) (hq : beNat d < q) :
    ∃ b, EncodesPoint s p b (beNat d • P) ∧
      ∀ F, q ≤ 2 ^ F → s.publicKeyGenerate F sk = some (.ok b) := by
  obtain ⟨b, h1, h2⟩ := C43_point hg h hl h0 (noWrap_of_lt h0 hq)
  exact ⟨b, h1, fun F hF => h2 F (by omega)⟩

/-- A result of the call is the encoding of d*P, whatever the fuel. -/
theorem C43_result (hg : Good s p q P) {sk : PyVal} {d : Bytes} (h : sk.data? = some d)
    (hl : d.length = s.size) (hw : NoWrap q (beNat d)) {F : Nat} {b : Bytes}
    (hb : s.publicKeyGenerate F sk = some (.ok b)) : EncodesPoint s p b (beNat d • P) := by
  rw [publicKeyGenerate_eq h hl] at hb
  cases hm : s.mulPoint F (beNat d : Nat) with
  | none => rw [hm] at hb; cases hb
  | some e =>
    rw [hm] at hb
    cases hb
    by_cases h0 : beNat d = 0
    · rw [h0] at hm
      rw [show ((0 : Nat) : Int) = 0 from rfl, mulPoint_zero] at hm
      cases hm
    · obtain ⟨e', h1, h2⟩ := hg.mulPoint (max F (beNat d)) (beNat d) (by omega)
        ((Nat.lt_two_pow_self.le).trans (Nat.pow_le_pow_right (by omega) (by omega))) hw
      rw [mulPoint_mono s F (max F (beNat d)) (by omega) _ _ _ e hm] at h1
      cases h1
      exact encodes_of_rep hg.size h2

/-- The result only depends on the key modulo q (for keys without a wrap). -/
theorem C43_mod_q_partial (hg : Good s p q P) {sk sk' : PyVal} {d d' : Bytes}
    (h : sk.data? = some d) (hl : d.length = s.size) (hw : NoWrap q (beNat d))
    (h' : sk'.data? = some d') (hl' : d'.length = s.size) (hw' : NoWrap q (beNat d'))
    (hmod : beNat d % q = beNat d' % q) {F F' : Nat} {b b' : Bytes}
    (hb : s.publicKeyGenerate F sk = some (.ok b)) (hb' : s.publicKeyGenerate F' sk' = some (.ok b')) :
    b = b' := by
  have e1 := C43_result hg h hl hw hb
  have e2 := C43_result hg h' hl' hw' hb'
  have : beNat d • P = beNat d' • P := by
    rw [← mod_addOrderOf_nsmul P (beNat d), ← mod_addOrderOf_nsmul P (beNat d'), hg.order, hmod]
  rw [this] at e1
  exact encodes_unique hg.size e1 e2

/-- Where the statement of C43 fails: for a non-zero multiple of q the call returns a byte string (it meets an undefined
addition), but d*P is the point at infinity, which has no encoding. -/
theorem C43_multiple_of_q (hg : Good s p q P) {sk : PyVal} {d : Bytes} (h : sk.data? = some d)
    (hl : d.length = s.size) (h0 : 0 < beNat d) (hq : q ∣ beNat d) :
    (∃ b, ∀ F, beNat d ≤ 2 ^ F → s.publicKeyGenerate F sk = some (.ok b)) ∧ beNat d • P = 0 ∧
      ¬ ∃ b, EncodesPoint s p b (beNat d • P) := by
  have hz : beNat d • P = 0 := by
    obtain ⟨m, hm⟩ := hq
    rw [hm, mul_nsmul, ← hg.order, addOrderOf_nsmul_eq_zero, nsmul_zero]
  refine ⟨?_, hz, ?_⟩
  · obtain ⟨e, he⟩ := mulPoint_ends (s := s) (beNat d) (beNat d) h0 Nat.lt_two_pow_self.le (-1) (-1)
    refine ⟨pairBytes s e, fun F hF => ?_⟩
    obtain ⟨e', he'⟩ := mulPoint_ends (s := s) F (beNat d) h0 hF (-1) (-1)
    have h1 := mulPoint_mono s _ (max F (beNat d)) (by omega) _ _ _ e he
    rw [mulPoint_mono s _ (max F (beNat d)) (by omega) _ _ _ e' he'] at h1
    cases h1
    rw [publicKeyGenerate_eq h hl, he']
    rfl
  · rintro ⟨b, x, y, -, -, -, h5, h6⟩
    rw [hz] at h6
    exact absurd h6.symm (WeierstrassCurve.Affine.Point.some_ne_zero _)

/-! ### C42 -/

/-- Outside 1..q-1 the answer is False. -/
theorem verify_out_of_range (hq : s.q = q) {pkv dgv sigv : PyVal} {pk dg sig : Bytes}
    (h1 : pkv.data? = some pk) (l1 : pk.length = s.size * 2)
    (h2 : dgv.data? = some dg) (l2 : dg.length = s.size)
    (h3 : sigv.data? = some sig) (l3 : sig.length = s.size * 2)
    (h : ¬ (0 < beNat (sig.take s.size) ∧ beNat (sig.take s.size) < q ∧
      0 < beNat (sig.drop s.size) ∧ beNat (sig.drop s.size) < q)) (F : Nat) :
    s.verify F pkv dgv sigv = some (.ok false) := by
  rw [verify_eq h1 l1 h2 l2 h3 l3, verifyBytes_range hq F pk dg sig h]
  rfl

/-- The point which `verify` uses for a key: the key's point, or the base point if the x coordinate
of the key is 0. -/
def KeyPoint (s : Sig) (p : Nat) (P : (curve s p).Point) (pk : Bytes) (Q : (curve s p).Point) : Prop :=
  (beNat (pk.take s.size) ≠ 0 ∧ EncodesPoint s p pk Q) ∨ (beNat (pk.take s.size) = 0 ∧ Q = P)

theorem Good.keyPoint (hg : Good s p q P) {pk : Bytes} {Q : (curve s p).Point}
    (hk : KeyPoint s p P pk Q) (ho : addOrderOf Q = q) :
    Rep s p (startPair s (beNat (pk.take s.size)) (beNat (pk.drop s.size))) Q := by
  rcases hk with ⟨hx, he⟩ | ⟨hx, rfl⟩
  · have hr := (rep_of_encodes hg.size he).1
    have hy := y_ne_zero hg.qprime hg.qodd hr ho
    dsimp only at hy
    rw [startPair, if_pos ⟨by omega, by omega⟩]
    exact hr
  · rw [startPair, if_neg (by omega)]
    exact hg.base

/-- `verify` is the check of the standard for the point it uses, when z1*P + z2*Q is not the point at
infinity. -/
theorem C42_key_point (hg : Good s p q P) {pkv dgv sigv : PyVal} {pk dg sig : Bytes}
    (h1 : pkv.data? = some pk) (l1 : pk.length = s.size * 2)
    (h2 : dgv.data? = some dg) (l2 : dg.length = s.size)
    (h3 : sigv.data? = some sig) (l3 : sig.length = s.size * 2)
    {Q : (curve s p).Point} (hk : KeyPoint s p P pk Q) (ho : addOrderOf Q = q)
    (hO : stdPoint s p q P Q (stdE q dg) (beNat (sig.take s.size)) (beNat (sig.drop s.size)) ≠ 0) :
    ∃ v : Bool, (v = true ↔
        StdVerify s p q P Q (stdE q dg) (beNat (sig.take s.size)) (beNat (sig.drop s.size))) ∧
      ∀ F, q ≤ 2 ^ F → s.verify F pkv dgv sigv = some (.ok v) := by
  by_cases hr : 0 < beNat (sig.take s.size) ∧ beNat (sig.take s.size) < q ∧
      0 < beNat (sig.drop s.size) ∧ beNat (sig.drop s.size) < q
  · have key : ∀ F, q ≤ 2 ^ F → ∃ v : Bool, (v = true ↔
        StdVerify s p q P Q (stdE q dg) (beNat (sig.take s.size)) (beNat (sig.drop s.size))) ∧
        s.verify F pkv dgv sigv = some (.ok v) := by
      intro F hF
      obtain ⟨z1, z2, c, d, e1, -, g1, g2, g3, g4, hc, hd, hv⟩ :=
        hg.verifyBytes F hF pk dg sig _ _ rfl rfl hr Q (hg.keyPoint hk ho) ho
      refine ⟨_, ?_, by rw [verify_eq h1 l1 h2 l2 h3 l3, hv]; rfl⟩
      rw [decide_eq_true_eq]
      have hadd := add_rep hg.hp hg.size hc hd (by rw [← e1]; exact hO)
      rw [← e1] at hadd
      rw [← xmod_iff hg.hq hadd]
      unfold StdVerify
      tauto
    obtain ⟨v, hv1, hv2⟩ := key q Nat.lt_two_pow_self.le
    refine ⟨v, hv1, fun F hF => ?_⟩
    obtain ⟨v', hv1', hv2'⟩ := key F hF
    have : v' = v := by
      rw [Bool.eq_iff_iff, hv1, hv1']
    rw [hv2', this]
  · refine ⟨false, ?_, fun F _ => verify_out_of_range hg.hq h1 l1 h2 l2 h3 l3 hr F⟩
    simp only [Bool.false_eq_true, false_iff]
    rintro ⟨a, b, c, d, -⟩
    exact hr ⟨a, b, c, d⟩

/-- When z1*P + z2*Q is the point at infinity the code compares r with the number -2*x modulo p modulo q,
where x is the x coordinate of z1*P; the standard has no such case. -/
theorem C42_infinity (hg : Good s p q P) {pkv dgv sigv : PyVal} {pk dg sig : Bytes}
    (h1 : pkv.data? = some pk) (l1 : pk.length = s.size * 2)
    (h2 : dgv.data? = some dg) (l2 : dg.length = s.size)
    (h3 : sigv.data? = some sig) (l3 : sig.length = s.size * 2)
    {Q : (curve s p).Point} (hk : KeyPoint s p P pk Q) (ho : addOrderOf Q = q)
    (hr : 0 < beNat (sig.take s.size) ∧ beNat (sig.take s.size) < q ∧
      0 < beNat (sig.drop s.size) ∧ beNat (sig.drop s.size) < q)
    (hO : stdPoint s p q P Q (stdE q dg) (beNat (sig.take s.size)) (beNat (sig.drop s.size)) = 0) :
    ∃ x y h, ((beNat (sig.drop s.size) : ZMod q) * (stdE q dg : ZMod q)⁻¹).val • P = .some x y h ∧
      ∀ F, q ≤ 2 ^ F → s.verify F pkv dgv sigv =
        some (.ok (decide ((-2 * x).val % q = beNat (sig.take s.size)))) := by
  have hE := stdE_range q (by have := hg.qodd; omega) dg
  have hK := hg.keyPoint hk ho
  obtain ⟨z1, z2, c, d, e1, f1, g1, g2, g3, g4, hc, hd, -⟩ :=
    hg.verifyBytes q Nat.lt_two_pow_self.le pk dg sig _ _ rfl rfl hr Q hK ho
  obtain ⟨k1, k2, k3, k4, hns, hsome⟩ := id hc
  refine ⟨_, _, hns, by rw [← f1]; exact hsome, fun F hF => ?_⟩
  obtain ⟨z1', z2', c', d', e1', f1', -, -, -, -, hc', hd', hv⟩ :=
    hg.verifyBytes F hF pk dg sig _ _ rfl rfl hr Q hK ho
  obtain rfl : z1 = z1' := by rw [f1, f1']
  obtain rfl : c = c' := rep_inj hc hc'
  rw [verify_eq h1 l1 h2 l2 h3 l3, hv]
  show some (Except.ok _) = some (Except.ok _)
  congr 2
  have hy : c.2 ≠ 0 := y_ne_zero hg.qprime hg.qodd hc
    (order_nsmul hg.qprime hg.order (fun hd => by have := Nat.le_of_dvd g1 hd; omega))
  rw [add_neg_rep hg.hp hg.size hc hd' (by rw [← e1']; exact hO) hy hg.p_gt_two]
  have hcast : (-2 * (c.1 : ZMod p)) = ((-2 * c.1 : Int) : ZMod p) := by push_cast; ring
  have hval : (((-2 * c.1 : Int) : ZMod p).val : Int) = (-2 * c.1) % p := ZMod.val_intCast _
  rw [hcast, hg.hp, hg.hq, Int.fmod_eq_emod_of_nonneg _ (by omega), Int.fmod_eq_emod_of_nonneg _ (by omega),
    ← hval, ← Int.natCast_emod]
  simp only [Int.natCast_inj]

/-- **C42** (partial): for a public key that is a multiple of the base point, `verify` returns, and returns True
exactly when the standard's check succeeds. Missing: keys with x coordinate 0 (the code then uses the base
point instead, `C42_zero_x`), and signatures with z1*P + z2*Q at infinity (`C42_infinity`); in both cases the
answer can be wrong, see `C42_statement_false`. -/
theorem C42_verify_partial (hg : Good s p q P) {pkv dgv sigv : PyVal} {pk dg sig : Bytes}
    (h1 : pkv.data? = some pk) (h2 : dgv.data? = some dg) (l2 : dg.length = s.size)
    (h3 : sigv.data? = some sig) (l3 : sig.length = s.size * 2)
    {n : Nat} (hk : EncodesPoint s p pk (n • P)) (hx : beNat (pk.take s.size) ≠ 0)
    (hO : stdPoint s p q P (n • P) (stdE q dg) (beNat (sig.take s.size)) (beNat (sig.drop s.size)) ≠ 0) :
    ∃ v : Bool, (v = true ↔
        StdVerify s p q P (n • P) (stdE q dg) (beNat (sig.take s.size)) (beNat (sig.drop s.size))) ∧
      ∀ F, q ≤ 2 ^ F → s.verify F pkv dgv sigv = some (.ok v) := by
  have hn : ¬ q ∣ n := by
    rintro ⟨m, rfl⟩
    obtain ⟨x, y, -, -, -, h5, h6⟩ := hk
    rw [mul_nsmul, ← hg.order, addOrderOf_nsmul_eq_zero, nsmul_zero] at h6
    exact absurd h6.symm (WeierstrassCurve.Affine.Point.some_ne_zero _)
  exact C42_key_point hg h1 (rep_of_encodes hg.size hk).2 h2 l2 h3 l3 (.inl ⟨hx, hk⟩)
    (order_nsmul hg.qprime hg.order hn) hO

/-- A key with x coordinate 0 is treated as the base point. -/
theorem C42_zero_x (hg : Good s p q P) {pkv dgv sigv : PyVal} {pk dg sig : Bytes}
    (h1 : pkv.data? = some pk) (l1 : pk.length = s.size * 2)
    (h2 : dgv.data? = some dg) (l2 : dg.length = s.size)
    (h3 : sigv.data? = some sig) (l3 : sig.length = s.size * 2) (hx : beNat (pk.take s.size) = 0)
    (hO : stdPoint s p q P P (stdE q dg) (beNat (sig.take s.size)) (beNat (sig.drop s.size)) ≠ 0) :
    ∃ v : Bool, (v = true ↔
        StdVerify s p q P P (stdE q dg) (beNat (sig.take s.size)) (beNat (sig.drop s.size))) ∧
      ∀ F, q ≤ 2 ^ F → s.verify F pkv dgv sigv = some (.ok v) :=
  C42_key_point hg h1 l1 h2 l2 h3 l3 (.inr ⟨hx, rfl⟩) hg.order hO

/-! ### C41 -/

/-- The scheme of the standard is correct: a signature it can produce passes its check, and the point of the check
is k*P. -/
theorem std_correct (hq : q.Prime) (ho : addOrderOf P = q) {d e k r sg : Nat} (he : 0 < e) (heq : e < q)
    (hP : P ≠ 0) (h : StdSign s p q P d e k r sg) :
    stdPoint s p q P (d • P) e r sg = k • P ∧ StdVerify s p q P (d • P) e r sg := by
  have : Fact q.Prime := ⟨hq⟩
  obtain ⟨h1, h2, h3, h4, h5, h6⟩ := h
  have he0 : (e : ZMod q) ≠ 0 := by
    rw [Ne, ZMod.natCast_eq_zero_iff]
    intro hd
    have := Nat.le_of_dvd he hd
    omega
  have hpt : stdPoint s p q P (d • P) e r sg = k • P := by
    unfold stdPoint
    rw [← mul_nsmul, ← add_nsmul, ← mod_addOrderOf_nsmul P (_ + _), ← mod_addOrderOf_nsmul P k, ho]
    congr 1
    rw [← ZMod.natCast_eq_natCast_iff']
    push_cast
    rw [ZMod.natCast_zmod_val, ZMod.natCast_zmod_val, h5, ZMod.natCast_mod]
    push_cast
    field_simp
    ring
  refine ⟨hpt, ?_, ?_, by omega, ?_, by rw [hpt]; exact h3⟩
  · omega
  · obtain ⟨x, y, hns, -, hx⟩ := h3
    rw [← hx]
    exact Nat.mod_lt _ hq.pos
  · rw [h5]
    exact Nat.mod_lt _ hq.pos

/-- The signature which `sign` returns is the one of the standard for some k below q. -/
theorem C41_sign_std (hg : Good s p q P) {sk dgv rkv : PyVal} {d dg : Bytes} (hd : sk.data? = some d)
    (hdg : dgv.data? = some dg) {F : Nat} {rand : Nat → Bytes} {sig : Bytes}
    (h : s.sign F rand sk dgv rkv = some (.ok sig)) :
    d.length = s.size ∧ dg.length = s.size ∧
    ∃ rk r sg, ((rkv.data? = some rk ∧ rk ≠ []) ∨ (rkv.data? = some [] ∧ ∃ i, rk = rand i)) ∧
      StdSign s p q P (beNat d) (stdE q dg) (beNat rk) r sg ∧ sig = beBytes s.size r ++ beBytes s.size sg := by
  obtain ⟨d', dg', rk, h1, l1, h2, l2, h3, h4, h5⟩ := sign_ok h
  rw [hd] at h1
  cases h1
  rw [hdg] at h2
  cases h2
  refine ⟨l1, l2, rk, ?_⟩
  have hm := signWith_mono hg.hq hg.qprime.pos hg.qsize (show F ≤ max F q by omega) d dg rk _ h5
  unfold signWith at hm
  rw [setE_eq s q hg.hq (by have := hg.qodd; omega) hg.qsize dg] at hm
  have hF : q ≤ 2 ^ max F q :=
    Nat.lt_two_pow_self.le.trans (Nat.pow_le_pow_right (by omega) (by omega))
  have hk : beNat rk < q := by have := hg.hq; omega
  have hsrc : (rkv.data? = some rk ∧ rk ≠ []) ∨ (rkv.data? = some [] ∧ ∃ i, rk = rand i) := by
    rcases h3 with h3 | ⟨h3, h3'⟩
    · exact .inl h3
    · exact .inr ⟨h3, getRandK_mem F rand rk h3'⟩
  rcases hg.signOuter (max F q) hF (beNat d) (stdE q dg) (beNat rk) hk with ⟨r, sg, a, -, -, b⟩ | ⟨-, b⟩
  · rw [b] at hm
    refine ⟨r, sg, hsrc, a, ?_⟩
    rw [← pairBytes_nat]
    injection hm with hm
    injection hm with hm
    exact hm.symm
  · rw [b] at hm
    cases hm

theorem std_unique {d e k r sg r' sg' : Nat} (h : StdSign s p q P d e k r sg) (h' : StdSign s p q P d e k r' sg') :
    r = r' ∧ sg = sg' := by
  obtain ⟨-, -, ⟨x, y, h1, h2, h3⟩, -, h4, -⟩ := h
  obtain ⟨-, -, ⟨x', y', h1', h2', h3'⟩, -, h4', -⟩ := h'
  rw [h2] at h2'
  injection h2' with e1 e2
  rw [e1, h3'] at h3
  subst h3
  exact ⟨rfl, by rw [h4, h4']⟩

/-- When the standard has a signature for the explicit k, `sign` returns it. -/
theorem C41_sign_returns (hg : Good s p q P) {sk dgv rkv : PyVal} {d dg rk : Bytes} (hd : sk.data? = some d)
    (ld : d.length = s.size) (hdg : dgv.data? = some dg) (ldg : dg.length = s.size)
    (hrk : rkv.data? = some rk) (hne : rk ≠ []) (rand : Nat → Bytes) {r sg : Nat}
    (h : StdSign s p q P (beNat d) (stdE q dg) (beNat rk) r sg) :
    ∀ F, q ≤ 2 ^ F → s.sign F rand sk dgv rkv = some (.ok (beBytes s.size r ++ beBytes s.size sg)) := by
  intro F hF
  have hk : beNat rk < q := h.2.1
  have hnot : ¬ (beNat rk : Int) ≥ s.q := by rw [hg.hq]; omega
  rw [sign_explicit hd ld hdg ldg hrk hne, if_neg hnot, signWith,
    setE_eq s q hg.hq (by have := hg.qodd; omega) hg.qsize dg]
  rcases hg.signOuter F hF (beNat d) (stdE q dg) (beNat rk) hk with ⟨r', sg', a, -, -, b⟩ | ⟨c, -⟩
  · obtain ⟨e1, e2⟩ := std_unique h a
    subst e1
    subst e2
    rw [b, ← pairBytes_nat]
    rfl
  · exact absurd h (c r sg)

/-- **C41** (partial): a signature which `sign` returns is accepted by `verify` with the key which
`public_key_generate` returns. Missing: public keys with x coordinate 0 other than the base point, for which
the statement is false (`C41_statement_false`), and private keys d > q for which the multiplication d*P passes through
the point at infinity. -/
theorem C41_sign_verify_partial (hg : Good s p q P) {sk dgv rkv pkv sigv : PyVal} {d pk sig : Bytes}
    (hd : sk.data? = some d) (hw : NoWrap q (beNat d))
    {F1 F2 : Nat} {rand : Nat → Bytes}
    (hpk : s.publicKeyGenerate F1 sk = some (.ok pk))
    (hsig : s.sign F2 rand sk dgv rkv = some (.ok sig))
    (hx : beNat (pk.take s.size) ≠ 0 ∨ beNat d % q = 1)
    (h1 : pkv.data? = some pk) (h3 : sigv.data? = some sig) :
    ∀ F, q ≤ 2 ^ F → s.verify F pkv dgv sigv = some (.ok true) := by
  obtain ⟨d', dg, rk', e1, e2, e3, e4, -⟩ := sign_ok hsig
  rw [hd] at e1
  cases e1
  obtain ⟨-, l2, rk, r, sg, -, hstd, rfl⟩ := C41_sign_std hg hd e3 hsig
  have hE := C43_result hg hd e2 hw hpk
  have hP : P ≠ 0 := rep_ne_zero hg.base
  have hEr := stdE_range q (by have := hg.qodd; omega) dg
  obtain ⟨hpt, hver⟩ := std_correct hg.qprime hg.order hEr.1 hEr.2 hP hstd
  have hrq := hver.2.1
  have hsq := hver.2.2.2.1
  obtain ⟨p1, p2⟩ := pair_parts s.size r sg (by have := hg.qsize; omega) (by have := hg.qsize; omega)
  have hkP : beNat rk • P ≠ 0 := by
    intro h0
    have h1 := addOrderOf_dvd_of_nsmul_eq_zero h0
    rw [hg.order] at h1
    have h2 := Nat.le_of_dvd hstd.1 h1
    have := hstd.2.1
    omega
  have hKP : KeyPoint s p P pk (beNat d • P) := by
    rcases hx with hx | hx
    · exact .inl ⟨hx, hE⟩
    · by_cases hx0 : beNat (pk.take s.size) = 0
      · refine .inr ⟨hx0, ?_⟩
        rw [← mod_addOrderOf_nsmul, hg.order, hx, one_nsmul]
      · exact .inl ⟨hx0, hE⟩
  have hdq : ¬ q ∣ beNat d := by
    rintro ⟨m, hm⟩
    obtain ⟨x, y, -, -, -, h5, h6⟩ := hE
    rw [hm, mul_nsmul, ← hg.order, addOrderOf_nsmul_eq_zero, nsmul_zero] at h6
    exact absurd h6.symm (WeierstrassCurve.Affine.Point.some_ne_zero _)
  obtain ⟨v, hv1, hv2⟩ := C42_key_point hg (sigv := sigv) h1 (rep_of_encodes hg.size hE).2 e3 l2 h3 (by simp; omega) hKP
    (order_nsmul hg.qprime hg.order hdq) (by rw [p1, p2, hpt]; exact hkP)
  rw [p1, p2] at hv1
  rw [hv1.2 hver] at hv2
  exact hv2

/-! ### C44 -/

/-- `public_key_generate` ends exactly for arguments other than the zero key (any object). -/
theorem C44_public_key (s : Sig) (sk : PyVal) :
    Ends (fun F => s.publicKeyGenerate F sk) ↔ sk.data? ≠ some (List.replicate s.size 0) := by
  cases hk : checkValue sk s.size with
  | false =>
    constructor
    · intro _ h
      have : checkValue sk s.size = true := (checkValue_iff _ _).2 ⟨_, h, by simp⟩
      rw [hk] at this
      cases this
    · intro _
      exact ⟨0, _, publicKeyGenerate_bad hk 0⟩
  | true =>
    obtain ⟨d, hd, hl⟩ := (checkValue_iff _ _).1 hk
    have hz : beNat d = 0 ↔ d = List.replicate s.size 0 := by
      constructor
      · intro h
        apply beNat_inj _ _ (by simp [hl])
        rw [h, beNat_replicate_zero]
      · rintro rfl
        exact beNat_replicate_zero _
    rw [hd, Ne, Option.some_inj, ← hz]
    constructor
    · rintro ⟨F, r, h⟩ h0
      dsimp only at h
      rw [publicKeyGenerate_eq hd hl, h0, show ((0 : Nat) : Int) = 0 from rfl, mulPoint_zero] at h
      cases h
    · intro h0
      obtain ⟨e, he⟩ := mulPoint_ends (s := s) (beNat d) (beNat d) (by omega) Nat.lt_two_pow_self.le (-1) (-1)
      refine ⟨beNat d, .ok (pairBytes s e), ?_⟩
      dsimp only
      rw [publicKeyGenerate_eq hd hl, he]
      rfl

/-- `sign` with valid arguments ends exactly when the standard has a signature for this k (then it is returned). -/
theorem C44_sign (hg : Good s p q P) {sk dgv rkv : PyVal} {d dg rk : Bytes} (hd : sk.data? = some d)
    (ld : d.length = s.size) (hdg : dgv.data? = some dg) (ldg : dg.length = s.size)
    (hrk : rkv.data? = some rk) (hne : rk ≠ []) (hk : beNat rk < q) (rand : Nat → Bytes) :
    Ends (fun F => s.sign F rand sk dgv rkv) ↔
      ∃ r sg, StdSign s p q P (beNat d) (stdE q dg) (beNat rk) r sg := by
  have hnot : ¬ (beNat rk : Int) ≥ s.q := by rw [hg.hq]; omega
  constructor
  · rintro ⟨F, r, h⟩
    have h' := h
    dsimp only at h'
    rw [sign_explicit hd ld hdg ldg hrk hne, if_neg hnot] at h'
    unfold signWith at h'
    cases hs : signOuter s F (beNat d : Nat) (s.setE dg) (beNat rk : Nat) F 0 0 with
    | none => rw [hs] at h'; cases h'
    | some c =>
      rw [hs] at h'
      cases h'
      obtain ⟨-, -, rk', r, sg, h1, h2, -⟩ := C41_sign_std hg hd hdg h
      rcases h1 with ⟨h1, -⟩ | ⟨h1, -⟩
      · rw [hrk] at h1
        cases h1
        exact ⟨r, sg, h2⟩
      · rw [hrk] at h1
        cases h1
        exact absurd rfl hne
  · rintro ⟨r, sg, h⟩
    have hF : q ≤ 2 ^ q := Nat.lt_two_pow_self.le
    rcases hg.signOuter q hF (beNat d) (stdE q dg) (beNat rk) hk with ⟨r, sg, a, -, -, b⟩ | ⟨c, -⟩
    · refine ⟨q, .ok (pairBytes s (r, sg)), ?_⟩
      dsimp only
      rw [sign_explicit hd ld hdg ldg hrk hne, if_neg hnot, signWith,
        setE_eq s q hg.hq (by have := hg.qodd; omega) hg.qsize dg, b]
      rfl
    · exact absurd h (c r sg)

/-- On any accepted object: `sign` with k = 0 does not end. -/
theorem C44_zero_k {q : Nat} (hq : s.q = q) (hq0 : 0 < q) (hsize : q ≤ 256 ^ s.size)
    {sk dgv rkv : PyVal} {d dg rk : Bytes} (hd : sk.data? = some d)
    (ld : d.length = s.size) (hdg : dgv.data? = some dg) (ldg : dg.length = s.size)
    (hrk : rkv.data? = some rk) (hne : rk ≠ []) (hk : beNat rk = 0) (rand : Nat → Bytes) :
    ¬ Ends (fun F => s.sign F rand sk dgv rkv) := by
  rintro ⟨F, r, h⟩
  dsimp only at h
  rw [sign_explicit hd ld hdg ldg hrk hne, if_neg (by omega), signWith] at h
  rcases Nat.eq_zero_or_pos F with h0 | h0
  · subst h0
    rw [signOuter_zero_fuel] at h
    cases h
  · rw [signOuter_eq s q hq hq0 hsize F h0, hk, show ((0 : Nat) : Int) = 0 from rfl, mulPoint_zero] at h
    cases h

/-- `verify` ends for every argument when q is a prime that fits the size. -/
theorem C44_verify {q : Nat} (hq : s.q = q) (hprime : q.Prime) (hsize : q ≤ 256 ^ s.size) (pkv dgv sigv : PyVal) :
    Ends (fun F => s.verify F pkv dgv sigv) := by
  have : Fact q.Prime := ⟨hprime⟩
  cases h1 : checkValue pkv (s.size * 2) with
  | false => exact ⟨0, _, by dsimp only; unfold verify; rw [h1]; rfl⟩
  | true =>
    cases h3 : checkValue sigv (s.size * 2) with
    | false => exact ⟨0, _, by dsimp only; unfold verify; rw [h1, h3]; rfl⟩
    | true =>
      cases h2 : checkValue dgv s.size with
      | false => exact ⟨0, _, by dsimp only; unfold verify; rw [h1, h3, h2]; rfl⟩
      | true =>
        obtain ⟨pk, d1, l1⟩ := (checkValue_iff _ _).1 h1
        obtain ⟨sig, d3, l3⟩ := (checkValue_iff _ _).1 h3
        obtain ⟨dg, d2, l2⟩ := (checkValue_iff _ _).1 h2
        by_cases hr : 0 < beNat (sig.take s.size) ∧ beNat (sig.take s.size) < q ∧
          0 < beNat (sig.drop s.size) ∧ beNat (sig.drop s.size) < q
        · have hE := stdE_range q hprime.one_lt dg
          obtain ⟨z1, z2, e1, e2, -, -, g1, g2, g3, g4⟩ :=
            z_values hq (stdE q dg) _ _ hE.1 hE.2 hr.1 hr.2.1 hr.2.2.1 hr.2.2.2
          have hF : q ≤ 2 ^ q := Nat.lt_two_pow_self.le
          obtain ⟨c, hc⟩ := mulPoint_ends (s := s) q z1 g1 (by omega) (-1) (-1)
          obtain ⟨d, hd⟩ := mulPoint_ends (s := s) q z2 g3 (by omega) (beNat (pk.take s.size) : Nat)
            (beNat (pk.drop s.size) : Nat)
          refine ⟨q, ?_⟩
          dsimp only
          rw [verify_eq d1 l1 d2 l2 d3 l3]
          unfold verifyBytes
          simp only [pyUpto_nat, pyFrom_nat, bytesToInt_eq]
          have hst1 : s.verifyStep1 (beNat (sig.take s.size) : Nat) (beNat (sig.drop s.size) : Nat) = true := by
            unfold verifyStep1
            rw [hq]
            simp only [Bool.not_eq_true', Bool.or_eq_false_iff, decide_eq_false_iff_not]
            omega
          rw [hst1, setE_eq s q hq hprime.one_lt hsize dg, e1, e2, hc, hd]
          exact ⟨_, rfl⟩
        · exact ⟨0, _, verify_out_of_range hq d1 l1 d2 l2 d3 l3 hr 0⟩

/-- Without an explicit k: `sign` draws values until one is below q and ends exactly when there is one and
the standard has a signature for it. -/
theorem C44_sign_random (hg : Good s p q P) {sk dgv rkv : PyVal} {d dg : Bytes} (hd : sk.data? = some d)
    (ld : d.length = s.size) (hdg : dgv.data? = some dg) (ldg : dg.length = s.size)
    (hrk : rkv.data? = some []) (rand : Nat → Bytes) :
    Ends (fun F => s.sign F rand sk dgv rkv) ↔
      ∃ i, (∀ j, j < i → q ≤ beNat (rand j)) ∧
        ∃ r sg, StdSign s p q P (beNat d) (stdE q dg) (beNat (rand i)) r sg := by
  constructor
  · rintro ⟨F, res, h⟩
    dsimp only at h
    rw [sign_random hd ld hdg ldg hrk] at h
    cases hr : s.getRandK F rand with
    | none => rw [hr] at h; cases h
    | some rk =>
      rw [hr] at h
      obtain ⟨i, rfl, hi⟩ := getRandK_first F rand rk hr
      have hk := getRandK_lt F rand _ hr
      refine ⟨i, fun j hj => by have := hi j hj; rw [hg.hq] at this; omega, ?_⟩
      have h' : signWith s F d dg (rand i) = some res := h
      have hm := signWith_mono hg.hq hg.qprime.pos hg.qsize (show F ≤ max F q by omega) d dg (rand i) _ h'
      unfold signWith at hm
      rw [setE_eq s q hg.hq (by have := hg.qodd; omega) hg.qsize dg] at hm
      have hF : q ≤ 2 ^ max F q :=
        Nat.lt_two_pow_self.le.trans (Nat.pow_le_pow_right (by omega) (by omega))
      rcases hg.signOuter (max F q) hF (beNat d) (stdE q dg) (beNat (rand i)) (by rw [hg.hq] at hk; omega)
        with ⟨r, sg, a, -, -, b⟩ | ⟨-, b⟩
      · exact ⟨r, sg, a⟩
      · rw [b] at hm; cases hm
  · rintro ⟨i, hi, r, sg, h⟩
    have hF : q ≤ 2 ^ (q + i) := Nat.lt_two_pow_self.le.trans (Nat.pow_le_pow_right (by omega) (by omega))
    have hk : beNat (rand i) < q := h.2.1
    rcases hg.signOuter (q + i) hF (beNat d) (stdE q dg) (beNat (rand i)) hk with ⟨r, sg, a, -, -, b⟩ | ⟨c, -⟩
    · refine ⟨q + i, .ok (pairBytes s (r, sg)), ?_⟩
      dsimp only
      rw [sign_random hd ld hdg ldg hrk, getRandK_of_first (q + i) i rand (by omega)
        (fun j hj => by have := hi j hj; rw [hg.hq]; omega) (by rw [hg.hq]; omega)]
      show signWith s (q + i) d dg (rand i) = _
      rw [signWith, setE_eq s q hg.hq (by have := hg.qodd; omega) hg.qsize dg, b]
      rfl
    · exact absurd h (c r sg)

/-! ### C47 -/

/-- The argument is a byte string of length `n`. -/
def IsBytes (v : PyVal) (n : Nat) : Prop := ∃ b, v.data? = some b ∧ b.length = n

theorem isBytes_iff (v : PyVal) (n : Nat) : checkValue v n = true ↔ IsBytes v n := checkValue_iff v n

/-- `public_key_generate` raises exactly for arguments which are not `size` bytes. -/
theorem C47_public_key_generate (s : Sig) (sk : PyVal) (F : Nat) (e : Err) :
    s.publicKeyGenerate F sk = some (.error e) ↔
      ¬ IsBytes sk s.size ∧ e = .signatureError "GOSTSignatureError: invalid private key" := by
  rw [← isBytes_iff]
  cases hk : checkValue sk s.size with
  | false =>
    rw [publicKeyGenerate_bad hk]
    simp [eq_comm (b := e)]
  | true =>
    obtain ⟨d, hd, hl⟩ := (checkValue_iff _ _).1 hk
    rw [publicKeyGenerate_eq hd hl]
    cases s.mulPoint F (beNat d : Nat) <;> simp

/-- `verify` raises exactly for a key, then a signature, which is not 2*size bytes, then a digest which is not size
bytes. -/
theorem C47_verify (s : Sig) (pkv dgv sigv : PyVal) (F : Nat) (e : Err) :
    s.verify F pkv dgv sigv = some (.error e) ↔
      (¬ IsBytes pkv (s.size * 2) ∧ e = .signatureError "GOSTSignatureError: invalid public key value") ∨
      (IsBytes pkv (s.size * 2) ∧ ¬ IsBytes sigv (s.size * 2) ∧
        e = .signatureError "GOSTSignatureError: invalid signature value") ∨
      (IsBytes pkv (s.size * 2) ∧ IsBytes sigv (s.size * 2) ∧ ¬ IsBytes dgv s.size ∧
        e = .signatureError "GOSTSignatureError: invalid digest value") := by
  simp only [← isBytes_iff]
  unfold verify
  cases checkValue pkv (s.size * 2) <;> cases checkValue sigv (s.size * 2) <;> cases checkValue dgv s.size <;>
    simp [eq_comm (b := e)]

/-- `verify` returns False when r or s is outside 1..q-1 (any object). -/
theorem C47_verify_range (hq : s.q = q) {pkv dgv sigv : PyVal} {sig : Bytes} (h1 : IsBytes pkv (s.size * 2))
    (h2 : IsBytes dgv s.size) (h3 : sigv.data? = some sig) (l3 : sig.length = s.size * 2)
    (h : ¬ (0 < beNat (sig.take s.size) ∧ beNat (sig.take s.size) < q ∧
      0 < beNat (sig.drop s.size) ∧ beNat (sig.drop s.size) < q)) (F : Nat) :
    s.verify F pkv dgv sigv = some (.ok false) := by
  obtain ⟨pk, h1, l1⟩ := h1
  obtain ⟨dg, h2, l2⟩ := h2
  exact verify_out_of_range hq h1 l1 h2 l2 h3 l3 h F

/-- `sign` raises exactly for a private key, then a digest, which is not `size` bytes, then a random value which is
not a byte string or is not below q. The length of the random value is not checked. -/
theorem C47_sign (s : Sig) (rand : Nat → Bytes) (sk dgv rkv : PyVal) (F : Nat) (e : Err) :
    s.sign F rand sk dgv rkv = some (.error e) ↔
      (¬ IsBytes sk s.size ∧ e = .signatureError "GOSTSignatureError: invalid private key value") ∨
      (IsBytes sk s.size ∧ ¬ IsBytes dgv s.size ∧
        e = .signatureError "GOSTSignatureError: invalid digest value") ∨
      (IsBytes sk s.size ∧ IsBytes dgv s.size ∧
        (rkv.data? = none ∨ ∃ rk, rkv.data? = some rk ∧ rk ≠ [] ∧ s.q ≤ (beNat rk : Int)) ∧
        e = .signatureError "GOSTSignatureError: invalid random value") := by
  simp only [← isBytes_iff]
  cases hk : checkValue sk s.size with
  | false => rw [sign_badKey hk]; simp [eq_comm (b := e)]
  | true =>
    cases hdg : checkValue dgv s.size with
    | false => rw [sign_badDigest hk hdg]; simp [eq_comm (b := e)]
    | true =>
      obtain ⟨d, h1, l1⟩ := (checkValue_iff _ _).1 hk
      obtain ⟨dg, h2, l2⟩ := (checkValue_iff _ _).1 hdg
      cases h3 : rkv.data? with
      | none => rw [sign_badRand h1 l1 h2 l2 h3]; simp [eq_comm (b := e)]
      | some rk =>
        by_cases h4 : rk = []
        · subst h4
          rw [sign_random h1 l1 h2 l2 h3]
          cases s.getRandK F rand with
          | none => simp
          | some rk =>
            simp only [signWith]
            cases signOuter s F (beNat d : Nat) (s.setE dg) (beNat rk : Nat) F 0 0 <;> simp
        · rw [sign_explicit h1 l1 h2 l2 h3 h4]
          by_cases hc : (beNat rk : Int) ≥ s.q
          · rw [if_pos hc]
            simp [h4, hc, eq_comm (b := e)]
          · rw [if_neg hc, signWith]
            cases signOuter s F (beNat d : Nat) (s.setE dg) (beNat rk : Nat) F 0 0 <;> simp [h4, hc]

/-- A signature has 2*size bytes, two numbers in 1..q-1 (any object whose q fits the size). -/
theorem C47_sign_output {q : Nat} (hq : s.q = q) (hq0 : 0 < q) (hsize : q ≤ 256 ^ s.size) {F : Nat}
    {rand : Nat → Bytes} {sk dgv rkv : PyVal} {sig : Bytes} (h : s.sign F rand sk dgv rkv = some (.ok sig)) :
    ∃ r sg : Nat, 0 < r ∧ r < q ∧ 0 < sg ∧ sg < q ∧ sig = beBytes s.size r ++ beBytes s.size sg ∧
      sig.length = 2 * s.size := by
  obtain ⟨d, dg, rk, -, -, -, -, -, -, h⟩ := sign_ok h
  unfold signWith at h
  rcases Nat.eq_zero_or_pos F with h0 | h0
  · subst h0
    rw [signOuter_zero_fuel] at h
    cases h
  · rw [signOuter_eq s q hq hq0 hsize F h0] at h
    cases hm : s.mulPoint F (beNat rk : Nat) with
    | none => rw [hm] at h; cases h
    | some c =>
      rw [hm] at h
      dsimp only at h
      split at h
      · cases h
      · next hr =>
        split at h
        · cases h
        · next hs =>
          have r1 := fmod_range q hq0 c.1
          have r2 := fmod_range q hq0 (c.1.fmod s.q * (beNat d : Nat) + (beNat rk : Nat) * s.setE dg)
          rw [← hq] at r1 r2
          generalize c.1.fmod s.q = r at *
          generalize (r * (beNat d : Nat) + (beNat rk : Nat) * s.setE dg).fmod s.q = sg at *
          obtain ⟨r, rfl⟩ : ∃ n : Nat, r = n := ⟨r.toNat, by omega⟩
          obtain ⟨sg, rfl⟩ : ∃ n : Nat, sg = n := ⟨sg.toNat, by omega⟩
          cases h
          exact ⟨r, sg, by omega, by omega, by omega, by omega, pairBytes_nat r sg, by simp [pairBytes]; omega⟩

end Gost.Sig
