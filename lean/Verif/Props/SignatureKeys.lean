import Verif.Props.SignatureBuiltin

/-! Properties C74 and C75: different private keys have different public keys; a signature fits few digests, few
second halves and few keys. -/

namespace Gost.Sig
open Spec (beNat beBytes)
open WeierstrassCurve.Affine

section
variable {s : Sig} {p q : Nat} [Fact p.Prime] {P : (curve s p).Point}

/-! ### C74 -/

/-- C74: two private keys 0 < d < q with the same public key are the same number. -/
theorem C74_injective (hg : Good s p q P) {sk sk' : PyVal} {d d' : Bytes} (h : sk.data? = some d)
    (hl : d.length = s.size) (h' : sk'.data? = some d') (hl' : d'.length = s.size)
    (h0 : 0 < beNat d) (hq : beNat d < q) (h0' : 0 < beNat d') (hq' : beNat d' < q)
    {F F' : Nat} (hF : q ≤ 2 ^ F) (hF' : q ≤ 2 ^ F')
    (heq : s.publicKeyGenerate F sk = s.publicKeyGenerate F' sk') : d = d' := by
  obtain ⟨b, h1, h2⟩ := C43_private_key hg h hl h0 hq
  obtain ⟨b', h1', h2'⟩ := C43_private_key hg h' hl' h0' hq'
  rw [h2 F hF, h2' F' hF'] at heq
  have hb : b = b' := by simpa using heq
  subst hb
  obtain ⟨-, -, -, -, n1, e1⟩ := (rep_of_encodes hg.size h1).1
  obtain ⟨-, -, -, -, n2, e2⟩ := (rep_of_encodes hg.size h1').1
  have he : beNat d • P = beNat d' • P := by rw [e1, e2]
  have := (nsmul_inj_mod (x := P)).1 he
  rw [hg.order, Nat.mod_eq_of_lt hq, Nat.mod_eq_of_lt hq'] at this
  exact beNat_inj _ _ (hl.trans hl'.symm) this

/-- C74: the public key of a private key 0 < d < q is a pair of numbers below p which satisfy the equation of the
curve modulo p; the key q - d has the same x and the opposite y. -/
theorem C74_on_curve (hg : Good s p q P) {sk sk' : PyVal} {d d' : Bytes} (h : sk.data? = some d)
    (hl : d.length = s.size) (h' : sk'.data? = some d') (hl' : d'.length = s.size)
    (h0 : 0 < beNat d) (hq : beNat d < q) (hd' : beNat d' = q - beNat d) :
    ∃ x y : Nat, x < p ∧ 0 < y ∧ y < p ∧ ((y : Int) ^ 2) % p = ((x : Int) ^ 3 + s.a * x + s.b) % p ∧
      (∀ F, q ≤ 2 ^ F → s.publicKeyGenerate F sk = some (.ok (beBytes s.size x ++ beBytes s.size y))) ∧
      ∀ F, q ≤ 2 ^ F → s.publicKeyGenerate F sk' = some (.ok (beBytes s.size x ++ beBytes s.size (p - y))) := by
  obtain ⟨b, h1, h2⟩ := C43_private_key hg h hl h0 hq
  obtain ⟨b', h1', h2'⟩ := C43_private_key hg h' hl' (by omega) (by omega)
  have hord : addOrderOf (beNat d • P) = q := order_nsmul hg.qprime hg.order
    (fun hd => by have := Nat.le_of_dvd h0 hd; omega)
  have hne := y_ne_zero hg.qprime hg.qodd (rep_of_encodes hg.size h1).1 hord
  obtain ⟨x, y, hx, hy, rfl, hn, hQ⟩ := h1
  have hsz := hg.size
  have hpp := (Fact.out : p.Prime).pos
  have hparts := pair_parts s.size x y (by omega) (by omega)
  rw [hparts.2] at hne
  have hy0 : 0 < y := by
    rcases Nat.eq_zero_or_pos y with rfl | h
    · exact absurd rfl hne
    · exact h
  refine ⟨x, y, hx, hy0, hy, ?_, h2, fun F hF => ?_⟩
  · have he := (equation_iff _ _).1 hn.1
    simp only [curve, zero_mul, add_zero] at he
    have hc : ((((y : Int) ^ 2 : Int)) : ZMod p) = ((((x : Int) ^ 3 + s.a * x + s.b : Int)) : ZMod p) := by
      push_cast
      linear_combination he
    exact (ZMod.intCast_eq_intCast_iff' _ _ _).1 hc
  · rw [h2' F hF]
    have hneg : beNat d' • P = -(beNat d • P) := by
      rw [eq_neg_iff_add_eq_zero, ← add_nsmul, hd', Nat.sub_add_cancel hq.le, ← hg.order, addOrderOf_nsmul_eq_zero]
    have henc : EncodesPoint s p (beBytes s.size x ++ beBytes s.size (p - y)) (beNat d' • P) := by
      have hcast : ((p - y : Nat) : ZMod p) = (curve s p).negY (x : ZMod p) (y : ZMod p) := by
        rw [Nat.cast_sub hy.le, WeierstrassCurve.Affine.negY]
        simp [curve]
      refine ⟨x, p - y, hx, by omega, rfl, ?_⟩
      rw [hcast]
      exact ⟨(nonsingular_neg ..).2 hn, by rw [hneg, hQ, Point.neg_some]⟩
    rw [encodes_unique hg.size h1' henc]

/-! ### C75 -/

/-- Multiples by residues modulo q. -/
theorem val_add_nsmul {G : Type*} [AddCommGroup G] {R : G} (hq : q.Prime) (hR : q • R = 0) (a b : ZMod q) :
    (a + b).val • R = a.val • R + b.val • R := by
  have : NeZero q := ⟨hq.ne_zero⟩
  rw [ZMod.val_add, ← add_nsmul]
  conv_rhs => rw [← Nat.mod_add_div (a.val + b.val) q, add_nsmul, mul_nsmul, hR, nsmul_zero, add_zero]

theorem val_neg_nsmul {G : Type*} [AddCommGroup G] {R : G} (hq : q.Prime) (hR : q • R = 0) (a : ZMod q) :
    (-a).val • R = -(a.val • R) := by
  rw [eq_neg_iff_add_eq_zero, ← val_add_nsmul hq hR, neg_add_cancel, ZMod.val_zero, zero_nsmul]

theorem val_mul_nsmul {G : Type*} [AddCommGroup G] {R : G} (hq : q.Prime) (hR : q • R = 0) (a b : ZMod q) :
    (a * b).val • R = a.val • b.val • R := by
  have : NeZero q := ⟨hq.ne_zero⟩
  rw [ZMod.val_mul, ← mul_nsmul']
  conv_rhs => rw [← Nat.mod_add_div (a.val * b.val) q, add_nsmul, mul_nsmul, hR, nsmul_zero, add_zero]

theorem val_inj_nsmul {G : Type*} [AddCommGroup G] {R : G} (hq : q.Prime) (hR : addOrderOf R = q) {a b : ZMod q}
    (h : a.val • R = b.val • R) : a = b := by
  have : NeZero q := ⟨hq.ne_zero⟩
  have := (nsmul_inj_mod (x := R)).1 h
  rw [hR, Nat.mod_eq_of_lt a.val_lt, Nat.mod_eq_of_lt b.val_lt] at this
  exact ZMod.val_injective q this

/-- Different points whose x coordinates, after an injective change, are `r` modulo q: two for each of the at most
⌊p/q⌋ + 1 numbers below p which are `r` modulo q. -/
theorem count_points (hq : 0 < q) (r : Nat) (w : ZMod p → ZMod p) (hw : Function.Injective w) (S : Finset Nat)
    (f : Nat → (curve s p).Point) (hf : ∀ a ∈ S, ∀ b ∈ S, f a = f b → a = b)
    (h : ∀ a ∈ S, ∃ x y hn, f a = .some x y hn ∧ (w x).val % q = r) : S.card ≤ 2 * (p / q + 1) := by
  classical
  have : NeZero p := ⟨(Fact.out : p.Prime).ne_zero⟩
  let g : Nat → Nat := fun a => match f a with
    | .zero => 0
    | .some x _ _ => (w x).val / q
  have hg : ∀ a x y hn, f a = .some x y hn → g a = (w x).val / q := by
    intro a x y hn ha
    simp only [g, ha]
  have h1 : S.card ≤ 2 * (S.image g).card := by
    refine Finset.card_le_mul_card_image S 2 (fun v hv => ?_)
    obtain ⟨a0, ha0, hv0⟩ := Finset.mem_image.1 hv
    have hsub : Set.MapsTo f ((S.filter (fun a => g a = v) : Finset Nat) : Set Nat)
        (({f a0, -f a0} : Finset (curve s p).Point) : Set (curve s p).Point) := by
      intro a ha
      have ha := Finset.mem_coe.1 ha
      rw [Finset.mem_filter] at ha
      obtain ⟨x, y, hn, e1, e2⟩ := h a ha.1
      obtain ⟨x0, y0, hn0, e3, e4⟩ := h a0 ha0
      have hx : x = x0 := by
        apply hw
        apply ZMod.val_injective p
        have k1 := hg a x y hn e1
        have k2 := hg a0 x0 y0 hn0 e3
        rw [← Nat.div_add_mod (w x).val q, ← Nat.div_add_mod (w x0).val q, e2, e4, ← k1, ← k2, ha.2, hv0]
      subst hx
      have heq := (equation_iff _ _).1 hn.1
      have heq0 := (equation_iff _ _).1 hn0.1
      simp only [curve, zero_mul, add_zero] at heq heq0
      have hyy : y = y0 ∨ y = -y0 := sq_eq_sq_iff_eq_or_eq_neg.1 (heq.trans heq0.symm)
      simp only [Finset.coe_insert, Finset.coe_singleton, Set.mem_insert_iff, Set.mem_singleton_iff]
      rcases hyy with rfl | rfl
      · left; rw [e1, e3]
      · right
        rw [e1, e3, Point.neg_some]
        congr 1
        simp [WeierstrassCurve.Affine.negY, curve]
    refine le_trans (Finset.card_le_card_of_injOn f hsub ?_) Finset.card_le_two
    intro a ha b hb hab
    have ha := Finset.mem_coe.1 ha
    have hb := Finset.mem_coe.1 hb
    rw [Finset.mem_filter] at ha hb
    exact hf a ha.1 b hb.1 hab
  have h2 : (S.image g).card ≤ p / q + 1 := by
    have : S.image g ⊆ Finset.range (p / q + 1) := by
      intro v hv
      obtain ⟨a, ha, rfl⟩ := Finset.mem_image.1 hv
      obtain ⟨x, y, hn, e1, -⟩ := h a ha
      rw [Finset.mem_range, hg a x y hn e1]
      have := Nat.div_le_div_right (c := q) (ZMod.val_lt (w x)).le
      omega
    simpa using Finset.card_le_card this
  omega

/-- When `verify` returns True. -/
theorem verify_true (hg : Good s p q P) {pkv dgv sigv : PyVal} {pk dg sig : Bytes}
    (h1 : pkv.data? = some pk) (l1 : pk.length = s.size * 2)
    (h2 : dgv.data? = some dg) (l2 : dg.length = s.size)
    (h3 : sigv.data? = some sig) (l3 : sig.length = s.size * 2)
    {Q : (curve s p).Point} (hk : KeyPoint s p P pk Q) (ho : addOrderOf Q = q) {F : Nat} (hF : q ≤ 2 ^ F) :
    s.verify F pkv dgv sigv = some (.ok true) ↔
      (0 < beNat (sig.take s.size) ∧ beNat (sig.take s.size) < q ∧
        0 < beNat (sig.drop s.size) ∧ beNat (sig.drop s.size) < q) ∧
      ((stdPoint s p q P Q (stdE q dg) (beNat (sig.take s.size)) (beNat (sig.drop s.size)) ≠ 0 ∧
        ∃ x y h, stdPoint s p q P Q (stdE q dg) (beNat (sig.take s.size)) (beNat (sig.drop s.size)) = .some x y h ∧
          x.val % q = beNat (sig.take s.size)) ∨
       (stdPoint s p q P Q (stdE q dg) (beNat (sig.take s.size)) (beNat (sig.drop s.size)) = 0 ∧
        ∃ x y h, ((beNat (sig.drop s.size) : ZMod q) * (stdE q dg : ZMod q)⁻¹).val • P = .some x y h ∧
          (-2 * x).val % q = beNat (sig.take s.size))) := by
  by_cases hr : 0 < beNat (sig.take s.size) ∧ beNat (sig.take s.size) < q ∧
      0 < beNat (sig.drop s.size) ∧ beNat (sig.drop s.size) < q
  · by_cases hO : stdPoint s p q P Q (stdE q dg) (beNat (sig.take s.size)) (beNat (sig.drop s.size)) = 0
    · obtain ⟨x, y, h, e1, e2⟩ := C42_infinity hg h1 l1 h2 l2 h3 l3 hk ho hr hO
      rw [e2 F hF]
      constructor
      · intro he
        refine ⟨hr, .inr ⟨hO, x, y, h, e1, ?_⟩⟩
        simpa using he
      · rintro ⟨-, ⟨h0, -⟩ | ⟨-, x', y', h', e3, e4⟩⟩
        · exact absurd hO h0
        · rw [e1] at e3
          rw [← some_inj e3] at e4
          simpa using e4
    · obtain ⟨v, hv1, hv2⟩ := C42_key_point hg h1 l1 h2 l2 h3 l3 hk ho hO
      rw [hv2 F hF]
      have : (some (Except.ok v) : Option (Res Bool)) = some (.ok true) ↔ v = true := by simp
      rw [this, hv1]
      unfold StdVerify XMod
      constructor
      · rintro ⟨a, b, c, d, e⟩
        exact ⟨⟨a, b, c, d⟩, .inl ⟨hO, e⟩⟩
      · rintro ⟨⟨a, b, c, d⟩, ⟨-, e⟩ | ⟨h0, -⟩⟩
        · exact ⟨a, b, c, d, e⟩
        · exact absurd h0 hO
  · rw [verify_out_of_range hg.hq h1 l1 h2 l2 h3 l3 hr F]
    constructor
    · intro h; simp at h
    · rintro ⟨h, -⟩; exact absurd h hr

theorem q_nsmul {R : (curve s p).Point} (ho : addOrderOf R = q) : q • R = 0 := by
  rw [← ho, addOrderOf_nsmul_eq_zero]

theorem natCast_ne_zero_of_lt {a : Nat} (h0 : 0 < a) (ha : a < q) : (a : ZMod q) ≠ 0 := by
  rw [Ne, ZMod.natCast_eq_zero_iff]
  intro h
  have := Nat.le_of_dvd h0 h
  omega

theorem natCast_inj_of_lt {a b : Nat} (ha : a < q) (hb : b < q) (h : (a : ZMod q) = (b : ZMod q)) : a = b := by
  rw [ZMod.natCast_eq_natCast_iff', Nat.mod_eq_of_lt ha, Nat.mod_eq_of_lt hb] at h
  exact h

/-- e times z1*P + z2*Q does not depend on the digest. -/
theorem smul_stdPoint (hq : q.Prime) {Q : (curve s p).Point} (hP : addOrderOf P = q) (hQ : addOrderOf Q = q)
    (e r sg : Nat) (h0 : 0 < e) (he : e < q) :
    e • stdPoint s p q P Q e r sg = (sg : ZMod q).val • P + (-(r : ZMod q)).val • Q := by
  have : Fact q.Prime := ⟨hq⟩
  have hne := natCast_ne_zero_of_lt h0 he
  have hev : (e : ZMod q).val = e := by rw [ZMod.val_natCast, Nat.mod_eq_of_lt he]
  unfold stdPoint
  rw [nsmul_add]
  conv_lhs => rw [← hev]
  rw [← val_mul_nsmul hq (q_nsmul hP), ← val_mul_nsmul hq (q_nsmul hQ), ZMod.natCast_zmod_val,
    mul_left_comm, mul_inv_cancel₀ hne, mul_one, mul_left_comm, mul_inv_cancel₀ hne, mul_one]

/-- A point killed by the prime q is zero or has order q. -/
theorem order_of_nsmul {R : (curve s p).Point} (hq : q.Prime) (h : q • R = 0) (h0 : R ≠ 0) : addOrderOf R = q :=
  have : Fact q.Prime := ⟨hq⟩
  addOrderOf_eq_prime_iff.2 ⟨h, h0⟩

theorem q_stdPoint {Q : (curve s p).Point} (hP : addOrderOf P = q) (hQ : addOrderOf Q = q) (e r sg : Nat) :
    q • stdPoint s p q P Q e r sg = 0 := by
  unfold stdPoint
  rw [nsmul_add, ← mul_nsmul', ← mul_nsmul', mul_comm q, mul_comm q, mul_nsmul', mul_nsmul', q_nsmul hP, q_nsmul hQ,
    nsmul_zero, nsmul_zero, add_zero]

theorem neg_two_inj (hp : 2 < p) : Function.Injective (fun x : ZMod p => -2 * x) := by
  intro a b h
  have h2 : (-2 : ZMod p) ≠ 0 := by
    have := natCast_ne_zero_of_lt (q := p) (a := 2) (by omega) hp
    intro h
    apply this
    push_cast
    linear_combination -h
  exact mul_left_cancel₀ h2 h

/-- C75: one signature, with one public key, is accepted for at most 2*(⌊p/q⌋ + 1) digests modulo q. -/
theorem C75_digests (hg : Good s p q P) {pkv sigv : PyVal} {pk sig : Bytes}
    (h1 : pkv.data? = some pk) (l1 : pk.length = s.size * 2)
    (h3 : sigv.data? = some sig) (l3 : sig.length = s.size * 2)
    {Q : (curve s p).Point} (hk : KeyPoint s p P pk Q) (ho : addOrderOf Q = q) {F : Nat} (hF : q ≤ 2 ^ F)
    (S : Finset Nat) (hS : ∀ e ∈ S, ∃ (dgv : PyVal) (dg : Bytes), dgv.data? = some dg ∧ dg.length = s.size ∧
      stdE q dg = e ∧ s.verify F pkv dgv sigv = some (.ok true)) : S.card ≤ 2 * (p / q + 1) := by
  have hq := hg.qprime
  have : Fact q.Prime := ⟨hq⟩
  have key : ∀ e ∈ S, (0 < e ∧ e < q) ∧ (0 < beNat (sig.drop s.size) ∧ beNat (sig.drop s.size) < q) ∧
      ((stdPoint s p q P Q e (beNat (sig.take s.size)) (beNat (sig.drop s.size)) ≠ 0 ∧
        ∃ x y h, stdPoint s p q P Q e (beNat (sig.take s.size)) (beNat (sig.drop s.size)) = .some x y h ∧
          x.val % q = beNat (sig.take s.size)) ∨
       (stdPoint s p q P Q e (beNat (sig.take s.size)) (beNat (sig.drop s.size)) = 0 ∧
        ∃ x y h, ((beNat (sig.drop s.size) : ZMod q) * (e : ZMod q)⁻¹).val • P = .some x y h ∧
          (-2 * x).val % q = beNat (sig.take s.size))) := by
    intro e he
    obtain ⟨dgv, dg, h2, l2, rfl, hv⟩ := hS e he
    obtain ⟨hr, hv⟩ := (verify_true hg h1 l1 h2 l2 h3 l3 hk ho hF).1 hv
    exact ⟨stdE_range q hq.one_lt dg, ⟨hr.2.2.1, hr.2.2.2⟩, hv⟩
  by_cases hT : (beNat (sig.drop s.size) : ZMod q).val • P + (-(beNat (sig.take s.size) : ZMod q)).val • Q = 0
  · have hz : ∀ e ∈ S, stdPoint s p q P Q e (beNat (sig.take s.size)) (beNat (sig.drop s.size)) = 0 := by
      intro e he
      obtain ⟨⟨a, b⟩, -, -⟩ := key e he
      by_contra hne
      have hord := order_of_nsmul hq (q_stdPoint hg.order ho e _ _) hne
      have := smul_stdPoint hq hg.order ho e (beNat (sig.take s.size)) (beNat (sig.drop s.size)) a b
      rw [hT] at this
      have := addOrderOf_dvd_of_nsmul_eq_zero this
      rw [hord] at this
      have := Nat.le_of_dvd a this
      omega
    refine count_points hq.pos (beNat (sig.take s.size)) _ (neg_two_inj hg.p_gt_two) S
      (fun e => ((beNat (sig.drop s.size) : ZMod q) * (e : ZMod q)⁻¹).val • P) ?_ ?_
    · intro a ha b hb hab
      obtain ⟨⟨a0, aq⟩, ⟨s0, sq⟩, -⟩ := key a ha
      obtain ⟨⟨b0, bq⟩, -, -⟩ := key b hb
      have := val_inj_nsmul hq hg.order hab
      have := mul_left_cancel₀ (natCast_ne_zero_of_lt s0 sq) this
      exact natCast_inj_of_lt aq bq (inv_injective this)
    · intro e he
      obtain ⟨-, -, ⟨h0, -⟩ | ⟨-, h⟩⟩ := key e he
      · exact absurd (hz e he) h0
      · exact h
  · refine count_points hq.pos (beNat (sig.take s.size)) id Function.injective_id S
      (fun e => stdPoint s p q P Q e (beNat (sig.take s.size)) (beNat (sig.drop s.size))) ?_ ?_
    · intro a ha b hb hab
      obtain ⟨⟨a0, aq⟩, -, -⟩ := key a ha
      obtain ⟨⟨b0, bq⟩, -, -⟩ := key b hb
      have ea := smul_stdPoint hq hg.order ho a (beNat (sig.take s.size)) (beNat (sig.drop s.size)) a0 aq
      have eb := smul_stdPoint hq hg.order ho b (beNat (sig.take s.size)) (beNat (sig.drop s.size)) b0 bq
      rw [← hab] at eb
      have hne : stdPoint s p q P Q a (beNat (sig.take s.size)) (beNat (sig.drop s.size)) ≠ 0 := by
        intro h0
        rw [h0, nsmul_zero] at ea
        exact hT ea.symm
      have hord := order_of_nsmul hq (q_stdPoint hg.order ho a _ _) hne
      have := (nsmul_inj_mod).1 (ea.trans eb.symm)
      rwa [hord, Nat.mod_eq_of_lt aq, Nat.mod_eq_of_lt bq] at this
    · intro e he
      obtain ⟨⟨a, b⟩, -, ⟨-, h⟩ | ⟨h0, -⟩⟩ := key e he
      · exact h
      · have := smul_stdPoint hq hg.order ho e (beNat (sig.take s.size)) (beNat (sig.drop s.size)) a b
        rw [h0, nsmul_zero] at this
        exact absurd this.symm hT

/-- The point z1*P + z2*Q for the opposite digest. -/
theorem stdPoint_opposite (hq : q.Prime) {Q : (curve s p).Point} (hP : addOrderOf P = q) (hQ : addOrderOf Q = q)
    (e e' r sg : Nat) (h : (e' : ZMod q) = -(e : ZMod q)) :
    stdPoint s p q P Q e' r sg = -stdPoint s p q P Q e r sg := by
  have : Fact q.Prime := ⟨hq⟩
  unfold stdPoint
  rw [h, inv_neg, mul_neg, mul_neg, val_neg_nsmul hq (q_nsmul hP), val_neg_nsmul hq (q_nsmul hQ), neg_add]

omit [Fact p.Prime] in
theorem some_of_neg {R : (curve s p).Point} {x : ZMod p} (h : ∃ y hn, R = .some x y hn) :
    ∃ y hn, -R = .some x y hn := by
  obtain ⟨y, hn, rfl⟩ := h
  exact ⟨_, _, Point.neg_some hn⟩

/-- C75: `verify` gives the same answer for a digest and for the opposite one: digests with e + e' = q. -/
theorem C75_opposite (hg : Good s p q P) {pkv sigv dgv dgv' : PyVal} {pk sig dg dg' : Bytes}
    (h1 : pkv.data? = some pk) (l1 : pk.length = s.size * 2)
    (h2 : dgv.data? = some dg) (l2 : dg.length = s.size)
    (h2' : dgv'.data? = some dg') (l2' : dg'.length = s.size)
    (h3 : sigv.data? = some sig) (l3 : sig.length = s.size * 2)
    {Q : (curve s p).Point} (hk : KeyPoint s p P pk Q) (ho : addOrderOf Q = q) {F : Nat} (hF : q ≤ 2 ^ F)
    (he : stdE q dg + stdE q dg' = q) : s.verify F pkv dgv sigv = s.verify F pkv dgv' sigv := by
  have hq := hg.qprime
  have : Fact q.Prime := ⟨hq⟩
  have hcast : (stdE q dg' : ZMod q) = -(stdE q dg : ZMod q) := by
    rw [eq_neg_iff_add_eq_zero, ← Nat.cast_add, Nat.add_comm, he, ZMod.natCast_self]
  have hret : ∀ {dv : PyVal} {d : Bytes}, dv.data? = some d → d.length = s.size →
      ∃ v, s.verify F pkv dv sigv = some (.ok v) := by
    intro dv d hd ld
    by_cases hr : 0 < beNat (sig.take s.size) ∧ beNat (sig.take s.size) < q ∧
        0 < beNat (sig.drop s.size) ∧ beNat (sig.drop s.size) < q
    · by_cases hO : stdPoint s p q P Q (stdE q d) (beNat (sig.take s.size)) (beNat (sig.drop s.size)) = 0
      · obtain ⟨x, y, h, e1, e2⟩ := C42_infinity hg h1 l1 hd ld h3 l3 hk ho hr hO
        exact ⟨_, e2 F hF⟩
      · obtain ⟨v, -, hv2⟩ := C42_key_point hg h1 l1 hd ld h3 l3 hk ho hO
        exact ⟨v, hv2 F hF⟩
    · exact ⟨_, verify_out_of_range hg.hq h1 l1 hd ld h3 l3 hr F⟩
  obtain ⟨v, hv⟩ := hret h2 l2
  obtain ⟨v', hv'⟩ := hret h2' l2'
  have e1 := verify_true hg h1 l1 h2 l2 h3 l3 hk ho hF
  have e2 := verify_true hg h1 l1 h2' l2' h3 l3 hk ho hF
  rw [stdPoint_opposite hq hg.order ho _ _ _ _ hcast, hcast, inv_neg, mul_neg, val_neg_nsmul hq (q_nsmul hg.order),
    neg_ne_zero, neg_eq_zero] at e2
  have : s.verify F pkv dgv sigv = some (.ok true) ↔ s.verify F pkv dgv' sigv = some (.ok true) := by
    rw [e1, e2]
    have flip : ∀ (R : (curve s p).Point) (pr : ZMod p → Prop), (∃ x y h, R = .some x y h ∧ pr x) ↔
        ∃ x y h, -R = .some x y h ∧ pr x := by
      intro R pr
      constructor
      · rintro ⟨x, y, h, e, hp⟩
        obtain ⟨y', h', e'⟩ := some_of_neg ⟨y, h, e⟩
        exact ⟨x, y', h', e', hp⟩
      · rintro ⟨x, y, h, e, hp⟩
        obtain ⟨y', h', e'⟩ := some_of_neg ⟨y, h, e⟩
        rw [neg_neg] at e'
        exact ⟨x, y', h', e', hp⟩
    rw [flip _ (fun x => x.val % q = _), flip (ZMod.val _ • P) (fun x => (-2 * x).val % q = _)]
  rw [hv, hv'] at this ⊢
  have h3 : v = true ↔ v' = true := by simpa using this
  rw [Bool.eq_iff_iff.2 h3]

/-- C75: with one public key, one digest and one first half r, at most 2*(⌊p/q⌋ + 1) + 1 second halves are accepted. -/
theorem C75_second_half (hg : Good s p q P) {pkv dgv : PyVal} {pk dg r : Bytes}
    (h1 : pkv.data? = some pk) (l1 : pk.length = s.size * 2)
    (h2 : dgv.data? = some dg) (l2 : dg.length = s.size) (lr : r.length = s.size)
    {Q : (curve s p).Point} (hk : KeyPoint s p P pk Q) (ho : addOrderOf Q = q) {F : Nat} (hF : q ≤ 2 ^ F)
    (S : Finset Nat) (hS : ∀ t ∈ S, t < 256 ^ s.size ∧ s.verify F pkv dgv (.bytes (r ++ beBytes s.size t)) =
      some (.ok true)) : S.card ≤ 2 * (p / q + 1) + 1 := by
  classical
  have hq := hg.qprime
  have : Fact q.Prime := ⟨hq⟩
  have hE := stdE_range q hq.one_lt dg
  have key : ∀ t ∈ S, (0 < t ∧ t < q) ∧
      ((stdPoint s p q P Q (stdE q dg) (beNat r) t ≠ 0 ∧
        ∃ x y h, stdPoint s p q P Q (stdE q dg) (beNat r) t = .some x y h ∧ x.val % q = beNat r) ∨
       stdPoint s p q P Q (stdE q dg) (beNat r) t = 0) := by
    intro t ht
    obtain ⟨hlt, hv⟩ := hS t ht
    have hp1 : (r ++ beBytes s.size t).take s.size = r := by rw [List.take_left' lr]
    have hp2 : beNat ((r ++ beBytes s.size t).drop s.size) = t := by
      rw [List.drop_left' lr, beNat_beBytes, Nat.mod_eq_of_lt hlt]
    obtain ⟨hr, hv⟩ := (verify_true hg h1 l1 h2 l2 (sigv := .bytes (r ++ beBytes s.size t)) rfl
      (by rw [List.length_append, lr, beBytes_length]; omega) hk ho hF).1 hv
    rw [hp1, hp2] at hr hv
    refine ⟨⟨hr.2.2.1, hr.2.2.2⟩, ?_⟩
    rcases hv with h | h
    · exact .inl h
    · exact .inr h.1
  have hinj : ∀ a ∈ S, ∀ b ∈ S, stdPoint s p q P Q (stdE q dg) (beNat r) a =
      stdPoint s p q P Q (stdE q dg) (beNat r) b → a = b := by
    intro a ha b hb hab
    unfold stdPoint at hab
    have := val_inj_nsmul hq hg.order (add_right_cancel hab)
    have := mul_right_cancel₀ (inv_ne_zero (natCast_ne_zero_of_lt hE.1 hE.2)) this
    exact natCast_inj_of_lt (key a ha).1.2 (key b hb).1.2 this
  have c1 : (S.filter fun t => stdPoint s p q P Q (stdE q dg) (beNat r) t ≠ 0).card ≤ 2 * (p / q + 1) := by
    refine count_points hq.pos (beNat r) id Function.injective_id _
      (fun t => stdPoint s p q P Q (stdE q dg) (beNat r) t) ?_ ?_
    · intro a ha b hb hab
      rw [Finset.mem_filter] at ha hb
      exact hinj a ha.1 b hb.1 hab
    · intro t ht
      rw [Finset.mem_filter] at ht
      rcases (key t ht.1).2 with h | h
      · exact h.2
      · exact absurd h ht.2
  have c2 : (S.filter fun t => ¬ stdPoint s p q P Q (stdE q dg) (beNat r) t ≠ 0).card ≤ 1 := by
    rw [Finset.card_le_one]
    intro a ha b hb
    rw [Finset.mem_filter, not_not] at ha hb
    exact hinj a ha.1 b hb.1 (ha.2.trans hb.2.symm)
  have := Finset.card_filter_add_card_filter_not (s := S) (fun t => stdPoint s p q P Q (stdE q dg) (beNat r) t ≠ 0)
  omega

/-- C75: one digest and one signature are accepted with the public keys of at most 2*(⌊p/q⌋ + 1) + 1 private keys,
apart from keys with x coordinate 0. -/
theorem C75_keys (hg : Good s p q P) {dgv sigv : PyVal} {dg sig : Bytes}
    (h2 : dgv.data? = some dg) (l2 : dg.length = s.size)
    (h3 : sigv.data? = some sig) (l3 : sig.length = s.size * 2) {F : Nat} (hF : q ≤ 2 ^ F)
    (S : Finset Nat) (hS : ∀ d ∈ S, 0 < d ∧ d < q ∧ ∃ pk : Bytes, beNat (pk.take s.size) ≠ 0 ∧
      s.publicKeyGenerate F (.bytes (beBytes s.size d)) = some (.ok pk) ∧
      s.verify F (.bytes pk) dgv sigv = some (.ok true)) : S.card ≤ 2 * (p / q + 1) + 1 := by
  classical
  have hq := hg.qprime
  have : Fact q.Prime := ⟨hq⟩
  have hE := stdE_range q hq.one_lt dg
  have key : ∀ d ∈ S, (0 < beNat (sig.take s.size) ∧ beNat (sig.take s.size) < q) ∧
      ((stdPoint s p q P (d • P) (stdE q dg) (beNat (sig.take s.size)) (beNat (sig.drop s.size)) ≠ 0 ∧
        ∃ x y h, stdPoint s p q P (d • P) (stdE q dg) (beNat (sig.take s.size)) (beNat (sig.drop s.size)) =
          .some x y h ∧ x.val % q = beNat (sig.take s.size)) ∨
       stdPoint s p q P (d • P) (stdE q dg) (beNat (sig.take s.size)) (beNat (sig.drop s.size)) = 0) := by
    intro d hd
    obtain ⟨h0, hdq, pk, hx, hpk, hv⟩ := hS d hd
    have hbd : beNat (beBytes s.size d) = d := by
      rw [beNat_beBytes, Nat.mod_eq_of_lt (lt_of_lt_of_le hdq hg.qsize)]
    obtain ⟨b, e1, e2⟩ := C43_private_key hg (sk := .bytes (beBytes s.size d)) rfl (by rw [beBytes_length])
      (by rw [hbd]; exact h0) (by rw [hbd]; exact hdq)
    rw [hbd] at e1
    rw [e2 F hF] at hpk
    have hb : b = pk := by simpa using hpk
    subst hb
    have hord : addOrderOf (d • P) = q := order_nsmul hq hg.order
      (fun h => by have := Nat.le_of_dvd h0 h; omega)
    obtain ⟨hr, hv⟩ := (verify_true hg (pkv := .bytes b) rfl (rep_of_encodes hg.size e1).2 h2 l2 h3 l3
      (.inl ⟨hx, e1⟩) hord hF).1 hv
    refine ⟨⟨hr.1, hr.2.1⟩, ?_⟩
    rcases hv with h | h
    · exact .inl h
    · exact .inr h.1
  have hinj : ∀ a ∈ S, ∀ b ∈ S,
      stdPoint s p q P (a • P) (stdE q dg) (beNat (sig.take s.size)) (beNat (sig.drop s.size)) =
      stdPoint s p q P (b • P) (stdE q dg) (beNat (sig.take s.size)) (beNat (sig.drop s.size)) → a = b := by
    intro a ha b hb hab
    unfold stdPoint at hab
    have hab := add_left_cancel hab
    have hr := (key a ha).1
    have hz : -(beNat (sig.take s.size) : ZMod q) * (stdE q dg : ZMod q)⁻¹ ≠ 0 :=
      mul_ne_zero (neg_ne_zero.2 (natCast_ne_zero_of_lt hr.1 hr.2)) (inv_ne_zero (natCast_ne_zero_of_lt hE.1 hE.2))
    have hva : ∀ c, c < q → (c : ZMod q).val = c := fun c hc => by rw [ZMod.val_natCast, Nat.mod_eq_of_lt hc]
    rw [← hva a (hS a ha).2.1, ← hva b (hS b hb).2.1, ← val_mul_nsmul hq (q_nsmul hg.order),
      ← val_mul_nsmul hq (q_nsmul hg.order)] at hab
    have := mul_left_cancel₀ hz (val_inj_nsmul hq hg.order hab)
    exact natCast_inj_of_lt (hS a ha).2.1 (hS b hb).2.1 this
  have c1 : (S.filter fun d => stdPoint s p q P (d • P) (stdE q dg) (beNat (sig.take s.size))
      (beNat (sig.drop s.size)) ≠ 0).card ≤ 2 * (p / q + 1) := by
    refine count_points hq.pos (beNat (sig.take s.size)) id Function.injective_id _
      (fun d => stdPoint s p q P (d • P) (stdE q dg) (beNat (sig.take s.size)) (beNat (sig.drop s.size))) ?_ ?_
    · intro a ha b hb hab
      rw [Finset.mem_filter] at ha hb
      exact hinj a ha.1 b hb.1 hab
    · intro t ht
      rw [Finset.mem_filter] at ht
      rcases (key t ht.1).2 with h | h
      · exact h.2
      · exact absurd h ht.2
  have c2 : (S.filter fun d => ¬ stdPoint s p q P (d • P) (stdE q dg) (beNat (sig.take s.size))
      (beNat (sig.drop s.size)) ≠ 0).card ≤ 1 := by
    rw [Finset.card_le_one]
    intro a ha b hb
    rw [Finset.mem_filter, not_not] at ha hb
    exact hinj a ha.1 b hb.1 (ha.2.trans hb.2.symm)
  have := Finset.card_filter_add_card_filter_not (s := S) (fun d => stdPoint s p q P (d • P) (stdE q dg)
    (beNat (sig.take s.size)) (beNat (sig.drop s.size)) ≠ 0)
  omega

end

/-! ### The built-in curves -/

/-- The curve objects of the dictionary satisfy the hypothesis of the theorems above. -/
theorem good_builtin : ∀ nc ∈ Curves.builtin, ∃ (mode : Int) (s : Sig) (p q : Nat) (_ : Fact p.Prime)
    (P : (curve s p).Point), (mode = 1 ∨ mode = 2) ∧ new mode nc.2 = .ok s ∧ Good s p q P ∧ p / q ≤ 4 := by
  intro nc hnc
  simp only [Curves.builtin, List.mem_cons, List.not_mem_nil, or_false] at hnc
  rcases hnc with rfl | rfl | rfl | rfl | rfl | rfl | rfl
  · obtain ⟨P, hg⟩ := good_c256B
    exact ⟨1, _, _, _, _, P, .inl rfl, new_builtin 1 "id-tc26-gost-3410-2012-256-paramSetB" _ (.inl rfl)
      (by simp [Curves.builtin]) (by decide +kernel), hg, by decide +kernel⟩
  · obtain ⟨P, hg⟩ := good_c256C
    exact ⟨1, _, _, _, _, P, .inl rfl, new_builtin 1 "id-tc26-gost-3410-2012-256-paramSetC" _ (.inl rfl)
      (by simp [Curves.builtin]) (by decide +kernel), hg, by decide +kernel⟩
  · obtain ⟨P, hg⟩ := good_c256D
    exact ⟨1, _, _, _, _, P, .inl rfl, new_builtin 1 "id-tc26-gost-3410-2012-256-paramSetD" _ (.inl rfl)
      (by simp [Curves.builtin]) (by decide +kernel), hg, by decide +kernel⟩
  · obtain ⟨P, hg⟩ := good_c512A
    exact ⟨2, _, _, _, _, P, .inr rfl, new_builtin 2 "id-tc26-gost-3410-12-512-paramSetA" _ (.inr rfl)
      (by simp [Curves.builtin]) (by decide +kernel), hg, by decide +kernel⟩
  · obtain ⟨P, hg⟩ := good_c512B
    exact ⟨2, _, _, _, _, P, .inr rfl, new_builtin 2 "id-tc26-gost-3410-12-512-paramSetB" _ (.inr rfl)
      (by simp [Curves.builtin]) (by decide +kernel), hg, by decide +kernel⟩
  · obtain ⟨P, hg⟩ := good_c256A
    exact ⟨1, _, _, _, _, P, .inl rfl, new_builtin 1 "id-tc26-gost-3410-2012-256-paramSetA" _ (.inl rfl)
      (by simp [Curves.builtin]) (by decide +kernel), hg, by decide +kernel⟩
  · obtain ⟨P, hg⟩ := good_c512C
    exact ⟨2, _, _, _, _, P, .inr rfl, new_builtin 2 "id-tc26-gost-3410-2012-512-paramSetC" _ (.inr rfl)
      (by simp [Curves.builtin]) (by decide +kernel), hg, by decide +kernel⟩

/-- C74 for the built-in curves. -/
theorem C74_builtin : ∀ nc ∈ Curves.builtin, ∃ (mode : Int) (s : Sig), (mode = 1 ∨ mode = 2) ∧ new mode nc.2 = .ok s ∧
    ∀ (sk sk' : PyVal) (d d' : Bytes), sk.data? = some d → sk'.data? = some d' → d.length = s.size →
      d'.length = s.size → 0 < beNat d → (beNat d : Int) < s.q → 0 < beNat d' → (beNat d' : Int) < s.q → d ≠ d' →
      ∃ pk pk' : Bytes, pk ≠ pk' ∧ ∀ F, s.q ≤ 2 ^ F → s.publicKeyGenerate F sk = some (.ok pk) ∧
        s.publicKeyGenerate F sk' = some (.ok pk') := by
  intro nc hnc
  obtain ⟨mode, s, p, q, hf, P, hm, hn, hg, -⟩ := good_builtin nc hnc
  refine ⟨mode, s, hm, hn, fun sk sk' d d' h h' l l' h0 hq h0' hq' hne => ?_⟩
  have hsq := hg.hq
  rw [hsq] at hq hq' ⊢
  obtain ⟨b, -, h2⟩ := C43_private_key hg h l h0 (by omega)
  obtain ⟨b', -, h2'⟩ := C43_private_key hg h' l' h0' (by omega)
  have hF : ∀ F : Nat, (q : Int) ≤ 2 ^ F → q ≤ 2 ^ F := fun F h => by exact_mod_cast h
  refine ⟨b, b', fun he => hne ?_, fun F h => ⟨h2 F (hF F h), h2' F (hF F h)⟩⟩
  have hF : q ≤ 2 ^ q := Nat.lt_two_pow_self.le
  exact C74_injective hg h l h' l' h0 (by omega) h0' (by omega) hF hF (by rw [h2 q hF, h2' q hF, he])

/-- C75 for the built-in curves: with the public key of any private key 0 < d < q, a signature is accepted for at most
ten digests modulo q, and digests which add up to a multiple of q get the same answer. -/
theorem C75_builtin : ∀ nc ∈ Curves.builtin, ∃ (mode : Int) (s : Sig) (q : Nat), (mode = 1 ∨ mode = 2) ∧
    new mode nc.2 = .ok s ∧ s.q = q ∧
    ∀ (sk pkv sigv : PyVal) (d pk sig : Bytes) (F : Nat), sk.data? = some d → d.length = s.size → 0 < beNat d →
      beNat d < q → q ≤ 2 ^ F → s.publicKeyGenerate F sk = some (.ok pk) → pkv.data? = some pk →
      sigv.data? = some sig → sig.length = s.size * 2 →
      (∀ S : Finset Nat, (∀ e ∈ S, e < q ∧ ∃ (dgv : PyVal) (dg : Bytes), dgv.data? = some dg ∧ dg.length = s.size ∧
        e ≠ 0 ∧ beNat dg % q = e ∧ s.verify F pkv dgv sigv = some (.ok true)) → S.card ≤ 10) ∧
      ∀ (dgv dgv' : PyVal) (dg dg' : Bytes), dgv.data? = some dg → dg.length = s.size → dgv'.data? = some dg' →
        dg'.length = s.size → beNat dg % q ≠ 0 → (beNat dg + beNat dg') % q = 0 →
        s.verify F pkv dgv sigv = s.verify F pkv dgv' sigv := by
  intro nc hnc
  obtain ⟨mode, s, p, q, hf, P, hm, hn, hg, hpq⟩ := good_builtin nc hnc
  refine ⟨mode, s, q, hm, hn, hg.hq, fun sk pkv sigv d pk sig F hd ld h0 hdq hF hpk hpkv hsig lsig => ?_⟩
  obtain ⟨b, e1, e2⟩ := C43_private_key hg hd ld h0 hdq
  rw [e2 F hF] at hpk
  have hb : b = pk := by simpa using hpk
  subst hb
  have lb := (rep_of_encodes hg.size e1).2
  have hq0 := hg.qprime.pos
  obtain ⟨Q, hk, ho⟩ : ∃ Q, KeyPoint s p P b Q ∧ addOrderOf Q = q := by
    by_cases hx : beNat (b.take s.size) = 0
    · exact ⟨P, .inr ⟨hx, rfl⟩, hg.order⟩
    · exact ⟨_, .inl ⟨hx, e1⟩, order_nsmul hg.qprime hg.order (fun h => by have := Nat.le_of_dvd h0 h; omega)⟩
  constructor
  · intro S hS
    have := C75_digests hg hpkv lb hsig lsig hk ho hF S (fun e he => by
      obtain ⟨-, dgv, dg, k1, k2, k3, k4, k5⟩ := hS e he
      exact ⟨dgv, dg, k1, k2, by rw [stdE, if_neg (by omega), k4], k5⟩)
    omega
  · intro dgv dgv' dg dg' k1 k2 k3 k4 k5 k6
    have hsum : beNat dg % q + beNat dg' % q = q := by
      have a1 := Nat.mod_lt (beNat dg) hq0
      have a2 := Nat.mod_lt (beNat dg') hq0
      rw [Nat.add_mod] at k6
      have hdvd := Nat.dvd_of_mod_eq_zero k6
      obtain ⟨c, hc⟩ := hdvd
      have c1 : c = 1 := by
        rcases c with _ | _ | c
        · omega
        · rfl
        · have : q * (c + 1 + 1) = q * c + q + q := by ring
          omega
      subst c1
      omega
    refine C75_opposite hg hpkv lb k1 k2 k3 k4 hsig lsig hk ho hF ?_
    rw [stdE, stdE, if_neg k5, if_neg (fun h => by have := Nat.mod_lt (beNat dg) hq0; omega)]
    exact hsum

/-- A case for C75: the digests 3 and q - 3 of 256-paramSetB, key 1. -/
example : 0 < beNat (beBytes 32 1) ∧ beNat (beBytes 32 1) < B42.q ∧ beNat (beBytes 32 3) % B42.q ≠ 0 ∧
    (beNat (beBytes 32 3) + beNat (beBytes 32 (B42.q - 3))) % B42.q = 0 ∧
    beBytes 32 3 ≠ beBytes 32 (B42.q - 3) := by decide +kernel

end Gost.Sig
