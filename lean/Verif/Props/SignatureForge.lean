import Verif.Props.SignatureKeys
import Verif.Props.SignatureExamples

/-! Property C90: the digests and signatures which a public key accepts, described without the private key. -/

namespace Gost.Sig
open Spec (beNat beBytes)
open WeierstrassCurve.Affine

section
variable {s : Sig} {p q : Nat} [Fact p.Prime] {P : (curve s p).Point}

/-- The digest number and the signature which belong to the combination a*P + b*Q: r is the x coordinate modulo q, e
is -r/b and s is a*e, all modulo q. The private key does not occur. -/
def FromPoint (s : Sig) (p q : Nat) [Fact p.Prime] (P Q : (curve s p).Point) (a b e r sg : Nat) : Prop :=
  0 < a ∧ a < q ∧ 0 < b ∧ b < q ∧ XMod q (a • P + b • Q) r ∧ 0 < r ∧
    e < q ∧ (b * e + r) % q = 0 ∧ sg = a * e % q

theorem cast_ne_zero {n : Nat} (h0 : 0 < n) (hq : n < q) : (n : ZMod q) ≠ 0 := by
  rw [Ne, ZMod.natCast_eq_zero_iff]
  intro hd
  have := Nat.le_of_dvd h0 hd
  omega

/-- The numbers e, r and s of a combination are all between 1 and q - 1. -/
theorem FromPoint.range {Q : (curve s p).Point} {a b e r sg : Nat} (hq : q.Prime)
    (h : FromPoint s p q P Q a b e r sg) : 0 < e ∧ r < q ∧ 0 < sg ∧ sg < q := by
  obtain ⟨ha, haq, hb, hbq, ⟨x, y, hn, -, hx⟩, hr, heq, hbe, hsg⟩ := h
  have hrq : r < q := by rw [← hx]; exact Nat.mod_lt _ hq.pos
  have he : 0 < e := by
    rcases Nat.eq_zero_or_pos e with rfl | h
    · rw [Nat.mul_zero, Nat.zero_add, Nat.mod_eq_of_lt hrq] at hbe
      omega
    · exact h
  refine ⟨he, hrq, ?_, by rw [hsg]; exact Nat.mod_lt _ hq.pos⟩
  rw [hsg]
  rcases Nat.eq_zero_or_pos (a * e % q) with h | h
  · rcases (Nat.Prime.dvd_mul hq).1 (Nat.dvd_of_mod_eq_zero h) with h | h
    · have := Nat.le_of_dvd ha h; omega
    · have := Nat.le_of_dvd he h; omega
  · exact h

/-- The coefficients z1 and z2 of the verification are a and b. -/
theorem FromPoint.coeffs {Q : (curve s p).Point} {a b e r sg : Nat} (hq : q.Prime)
    (h : FromPoint s p q P Q a b e r sg) :
    ((sg : ZMod q) * (e : ZMod q)⁻¹).val = a ∧ (-(r : ZMod q) * (e : ZMod q)⁻¹).val = b := by
  have : Fact q.Prime := ⟨hq⟩
  obtain ⟨he, hrq, -, -⟩ := h.range hq
  obtain ⟨ha, haq, hb, hbq, -, hr, heq, hbe, hsg⟩ := h
  have he0 := cast_ne_zero he heq
  have h1 : (sg : ZMod q) = a * e := by
    rw [hsg, ZMod.natCast_mod, Nat.cast_mul]
  have h2 : (b : ZMod q) * e + r = 0 := by
    have := (ZMod.natCast_eq_zero_iff (b * e + r) q).2 (Nat.dvd_of_mod_eq_zero hbe)
    push_cast at this
    exact this
  constructor
  · rw [h1, mul_assoc, mul_inv_cancel₀ he0, mul_one, ZMod.val_natCast, Nat.mod_eq_of_lt haq]
  · rw [show -(r : ZMod q) = b * e by linear_combination -h2, mul_assoc, mul_inv_cancel₀ he0, mul_one,
      ZMod.val_natCast, Nat.mod_eq_of_lt hbq]

theorem FromPoint.verify {Q : (curve s p).Point} {a b e r sg : Nat} (hq : q.Prime)
    (h : FromPoint s p q P Q a b e r sg) :
    stdPoint s p q P Q e r sg = a • P + b • Q ∧ StdVerify s p q P Q e r sg := by
  have hc := h.coeffs hq
  have hrange := h.range hq
  have e1 : stdPoint s p q P Q e r sg = a • P + b • Q := by
    unfold stdPoint
    rw [hc.1, hc.2]
  refine ⟨e1, h.2.2.2.2.2.1, hrange.2.1, hrange.2.2.1, hrange.2.2.2, ?_⟩
  rw [e1]
  exact h.2.2.2.2.1

/-- C90: whoever has the public key can choose a and b, and `verify` accepts the digest and the signature of the
combination a*P + b*Q. -/
theorem C90_forge (hg : Good s p q P) {pkv : PyVal} {pk : Bytes}
    (h1 : pkv.data? = some pk) (l1 : pk.length = s.size * 2)
    {Q : (curve s p).Point} (hk : KeyPoint s p P pk Q) (ho : addOrderOf Q = q)
    {a b e r sg : Nat} (h : FromPoint s p q P Q a b e r sg) {F : Nat} (hF : q ≤ 2 ^ F) :
    s.verify F pkv (.bytes (beBytes s.size e)) (.bytes (beBytes s.size r ++ beBytes s.size sg)) =
      some (.ok true) := by
  have hqs := hg.qsize
  obtain ⟨he, hrq, hs0, hsq⟩ := h.range hg.qprime
  have heq : e < q := h.2.2.2.2.2.2.1
  obtain ⟨t1, t2⟩ := pair_parts s.size r sg (by omega) (by omega)
  have hE : stdE q (beBytes s.size e) = e := by
    unfold stdE
    rw [beNat_beBytes, Nat.mod_eq_of_lt (show e < 256 ^ s.size by omega), Nat.mod_eq_of_lt heq, if_neg (by omega)]
  obtain ⟨v1, v2⟩ := h.verify hg.qprime
  have hne : stdPoint s p q P Q e r sg ≠ 0 := by
    obtain ⟨x, y, hn, hx, -⟩ := v2.2.2.2.2
    rw [hx]
    exact Point.some_ne_zero _
  obtain ⟨v, hv, hall⟩ := C42_key_point hg (dgv := .bytes (beBytes s.size e))
    (sigv := .bytes (beBytes s.size r ++ beBytes s.size sg)) h1 l1 rfl (by simp) rfl (by simp; omega) hk ho
    (by rw [t1, t2, hE]; exact hne)
  rw [hall F hF, hv.2 (by rw [t1, t2, hE]; exact v2)]

/-- C90: there are no others. An accepted digest and signature, for which z1*P + z2*Q is not the point at infinity,
belong to exactly one pair a, b. -/
theorem C90_all (hg : Good s p q P) {pkv dgv sigv : PyVal} {pk dg sig : Bytes}
    (h1 : pkv.data? = some pk) (l1 : pk.length = s.size * 2)
    (h2 : dgv.data? = some dg) (l2 : dg.length = s.size)
    (h3 : sigv.data? = some sig) (l3 : sig.length = s.size * 2)
    {Q : (curve s p).Point} (hk : KeyPoint s p P pk Q) (ho : addOrderOf Q = q)
    (hO : stdPoint s p q P Q (stdE q dg) (beNat (sig.take s.size)) (beNat (sig.drop s.size)) ≠ 0)
    {F : Nat} (hF : q ≤ 2 ^ F) :
    s.verify F pkv dgv sigv = some (.ok true) ↔
      ∃! ab : Nat × Nat, FromPoint s p q P Q ab.1 ab.2 (stdE q dg) (beNat (sig.take s.size))
        (beNat (sig.drop s.size)) := by
  have hq := hg.qprime
  have : Fact q.Prime := ⟨hq⟩
  obtain ⟨v, hv, hall⟩ := C42_key_point hg h1 l1 h2 l2 h3 l3 hk ho hO
  rw [hall F hF]
  have e0 : some (Except.ok v : Res Bool) = some (.ok true) ↔ v = true := by
    constructor
    · intro h; simpa using h
    · rintro rfl; rfl
  rw [e0, hv]
  obtain ⟨he, heq⟩ := stdE_range q hq.one_lt dg
  generalize stdE q dg = e at *
  generalize beNat (sig.take s.size) = r at *
  generalize beNat (sig.drop s.size) = sg at *
  have he0 := cast_ne_zero he heq
  constructor
  · rintro ⟨r0, rq, s0, sq, hx⟩
    have hr0 := cast_ne_zero r0 rq
    have hs0 := cast_ne_zero s0 sq
    refine ⟨(((sg : ZMod q) * (e : ZMod q)⁻¹).val, (-(r : ZMod q) * (e : ZMod q)⁻¹).val), ?_, ?_⟩
    · refine ⟨?_, ZMod.val_lt _, ?_, ZMod.val_lt _, hx, r0, heq, ?_, ?_⟩
      · rw [Nat.pos_iff_ne_zero, Ne, ZMod.val_eq_zero]
        exact mul_ne_zero hs0 (inv_ne_zero he0)
      · rw [Nat.pos_iff_ne_zero, Ne, ZMod.val_eq_zero]
        exact mul_ne_zero (neg_ne_zero.2 hr0) (inv_ne_zero he0)
      · apply Nat.mod_eq_zero_of_dvd
        rw [← ZMod.natCast_eq_zero_iff]
        push_cast
        rw [ZMod.natCast_val, ZMod.cast_id, mul_assoc, inv_mul_cancel₀ he0]
        ring
      · have : ((((sg : ZMod q) * (e : ZMod q)⁻¹).val * e : Nat) : ZMod q) = (sg : ZMod q) := by
          push_cast
          rw [ZMod.natCast_val, ZMod.cast_id, mul_assoc, inv_mul_cancel₀ he0, mul_one]
        have := (ZMod.natCast_eq_natCast_iff' _ _ _).1 this
        rw [this, Nat.mod_eq_of_lt sq]
    · rintro ⟨a, b⟩ hab
      have := hab.coeffs hq
      dsimp only at this ⊢
      rw [← this.1, ← this.2]
  · rintro ⟨⟨a, b⟩, hab, -⟩
    exact (hab.verify hq).2

/-- C90: every pair a, b whose combination has an x coordinate which is not zero modulo q gives exactly one digest
number and signature. -/
theorem C90_exists (hq : q.Prime) {Q : (curve s p).Point} {a b r : Nat} (ha : 0 < a) (haq : a < q) (hb : 0 < b)
    (hbq : b < q) (hx : XMod q (a • P + b • Q) r) (hr : 0 < r) :
    ∃! es : Nat × Nat, FromPoint s p q P Q a b es.1 r es.2 := by
  have : Fact q.Prime := ⟨hq⟩
  have hb0 := cast_ne_zero hb hbq
  refine ⟨((-(r : ZMod q) * (b : ZMod q)⁻¹).val, a * (-(r : ZMod q) * (b : ZMod q)⁻¹).val % q), ?_, ?_⟩
  · refine ⟨ha, haq, hb, hbq, hx, hr, ZMod.val_lt _, ?_, rfl⟩
    apply Nat.mod_eq_zero_of_dvd
    rw [← ZMod.natCast_eq_zero_iff]
    push_cast
    rw [ZMod.natCast_val, ZMod.cast_id, mul_comm (b : ZMod q), mul_assoc, inv_mul_cancel₀ hb0]
    ring
  · rintro ⟨e, sg⟩ ⟨-, -, -, -, -, -, heq, hbe, hsg⟩
    dsimp only at heq hbe hsg
    have h2 : (b : ZMod q) * e + r = 0 := by
      have := (ZMod.natCast_eq_zero_iff (b * e + r) q).2 (Nat.dvd_of_mod_eq_zero hbe)
      push_cast at this
      exact this
    have he : (-(r : ZMod q) * (b : ZMod q)⁻¹).val = e := by
      rw [show -(r : ZMod q) = e * b by linear_combination -h2, mul_assoc, mul_inv_cancel₀ hb0, mul_one,
        ZMod.val_natCast, Nat.mod_eq_of_lt heq]
    rw [he, hsg]

end

/-- On the built-in curve 256-paramSetB, with the base point as the public key and a = b = 1: the combination is 2*P, and
`verify` accepts the digest and the signature made from it. -/
theorem C90_example (F : Nat) (hF : B42.q ≤ 2 ^ F) :
    (given 1 Curves.c256B).verify F
      (.bytes (beBytes 32 1 ++ beBytes 32 0x8d91e471e0989cda27df505a453f2b7635294f2ddf23e3b122acc99c9e9f1e14))
      (.bytes (beBytes 32 B42.e)) (.bytes (beBytes 32 B42.r ++ beBytes 32 B42.e)) = some (.ok true) := by
  obtain ⟨P, hg⟩ : ∃ P, Good (given 1 Curves.c256B) B42.p B42.q P := good_c256B
  have hbase : Rep (given 1 Curves.c256B) B42.p (((0x1 : Nat) : Int), ((0x8d91e471e0989cda27df505a453f2b7635294f2ddf23e3b122acc99c9e9f1e14 : Nat) : Int)) P := hg.base
  have h2 : Rep (given 1 Curves.c256B) B42.p
      (((0xfffffffffffffffffffffffffffffffffffffffffffffffffffffffffffffd95 : Nat) : Int),
        ((0x726e1b8e1f676325d820afa5bac0d489cad6b0d220dc1c4edd5336636160df83 : Nat) : Int)) (P + P) :=
    addS_sound (a := 0xfffffffffffffffffffffffffffffffffffffffffffffffffffffffffffffd94)
      (c := (0x1, 0x8d91e471e0989cda27df505a453f2b7635294f2ddf23e3b122acc99c9e9f1e14))
      (d := (0x1, 0x8d91e471e0989cda27df505a453f2b7635294f2ddf23e3b122acc99c9e9f1e14))
      (e := (0xfffffffffffffffffffffffffffffffffffffffffffffffffffffffffffffd95,
        0x726e1b8e1f676325d820afa5bac0d489cad6b0d220dc1c4edd5336636160df83)) (l := 0) hg.hp rfl hg.size
      (by decide +kernel) hbase hbase (by decide +kernel)
  have hpk : KeyPoint (given 1 Curves.c256B) B42.p P
      (beBytes 32 1 ++ beBytes 32 0x8d91e471e0989cda27df505a453f2b7635294f2ddf23e3b122acc99c9e9f1e14) P := by
    refine .inl ⟨by decide +kernel, 1, 0x8d91e471e0989cda27df505a453f2b7635294f2ddf23e3b122acc99c9e9f1e14,
      by decide, by decide, rfl, ?_⟩
    obtain ⟨-, -, -, -, hn, hP⟩ := hbase
    simp only [Int.cast_natCast] at hn hP
    exact ⟨hn, hP⟩
  refine C90_forge hg (a := 1) (b := 1) rfl (by decide +kernel) hpk hg.order ?_ hF
  refine ⟨by decide, by decide, by decide, by decide, ?_, by decide, by decide, by decide, by decide⟩
  rw [one_nsmul, xmod_iff hg.hq h2]
  decide +kernel

end Gost.Sig
