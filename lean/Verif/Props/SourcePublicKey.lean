import Verif.Props.SourceBasePoint

/-! C135: `verify` does not ask that the coordinates of a public key are reduced modulo p. -/

namespace Gost.Src
open Spec ModesSrc SigSrc
open Sig (new given curve Good EncodesPoint stdE)

/-- C135: on a good curve let `pk` be the encoding of a point of order q, and `pk'` any string of the same length whose
halves are congruent to those of `pk` modulo p. `verify`, as it is written, gives the same answers for both, for all digests
and all signatures but those with r + e = q, for which the point is multiplied by 1 (e is the digest modulo q, or 1 if that is
0). No half is 0: for such keys the code uses the base point (C105). -/
theorem C135_verify {s : Sig} {p q : Nat} [Fact p.Prime] {P Q : (curve s p).Point} (g : Good s p q P) (hs : s.size ≤ 64)
    (pk pk' dg sig : Bytes) (hQ : EncodesPoint s p pk Q) (ho : addOrderOf Q = q) (kl : pk'.length = 2 * s.size)
    (kx : 0 < beNat (pk.take s.size)) (ky : 0 < beNat (pk.drop s.size))
    (kx' : 0 < beNat (pk'.take s.size)) (ky' : 0 < beNat (pk'.drop s.size))
    (h1 : beNat (pk'.take s.size) % p = beNat (pk.take s.size) % p)
    (h2 : beNat (pk'.drop s.size) % p = beNat (pk.drop s.size) % p)
    (hz : beNat (sig.take s.size) + stdE q dg ≠ q) (b : Bool) : Verifies s pk' dg sig b ↔ Verifies s pk dg sig b := by
  obtain ⟨b0, b1, b2, b3, b4⟩ := good_bounds g hs
  rw [verifies_iff _ b0 b1 b2 b3, verifies_iff _ b0 b1 b2 b3]
  obtain ⟨x, y, hx, hy, e, hns, eQ⟩ := hQ
  have hx' : x < 256 ^ s.size := hx.trans_le g.size
  have hy' : y < 256 ^ s.size := hy.trans_le g.size
  have et : beNat (pk.take s.size) = x := by
    rw [e, List.take_left' (beBytes_length _ _), beNat_beBytes, Nat.mod_eq_of_lt hx']
  have ed : beNat (pk.drop s.size) = y := by
    rw [e, List.drop_left' (beBytes_length _ _), beNat_beBytes, Nat.mod_eq_of_lt hy']
  have pl : pk.length = s.size * 2 := by rw [e, List.length_append, beBytes_length, beBytes_length]; omega
  have dv : ∀ a c : Nat, a % p = c % p → s.p ∣ (a : Int) - c := by
    intro a c h
    rw [g.hp]
    exact (Nat.modEq_iff_dvd.1 (show c ≡ a [MOD p] from h.symm))
  have bt : beNat (pk'.take s.size) < 256 ^ s.size := by
    have := beNat_lt (pk'.take s.size)
    rwa [List.length_take, Nat.min_eq_left (by omega)] at this
  have bd : beNat (pk'.drop s.size) < 256 ^ s.size := by
    have := beNat_lt (pk'.drop s.size)
    rwa [List.length_drop, show pk'.length - s.size = s.size by omega] at this
  have v : ∀ F, s.verifyBytes F pk' dg sig = s.verifyBytes F pk dg sig := fun F => by
    refine Sig.verifyBytes_key (Q := Q) g pk pk' dg sig ?_ ho ?_ ?_ ?_ ?_ ?_ ?_ ?_ ?_ ?_ F <;> simp only [pyUpto_nat, pyFrom_nat]
    · rw [et, ed]
      refine ⟨Int.natCast_nonneg x, Int.ofNat_lt.2 hx, Int.natCast_nonneg y, Int.ofNat_lt.2 hy, ?_⟩
      simp only [Int.cast_natCast]
      exact ⟨hns, eQ⟩
    · exact kx
    · exact ky
    · exact kx'
    · exact ky'
    · exact bt
    · exact bd
    · exact dv _ _ h1
    · exact dv _ _ h2
    · exact hz
  have ck : checkValue (.bytes pk') (s.size * 2) = checkValue (.bytes pk) (s.size * 2) := by
    unfold checkValue
    simp only [PyVal.data?, kl, pl, Nat.mul_comm]
  unfold Sig.verify
  simp only [PyVal.data?, Option.getD_some, v, ck]

namespace Ex135

/-- The public key of q - 1 on 256-paramSetB with x = 1 + p in place of 1. -/
def pk' : Bytes := beBytes 32 (1 + Sig.B42.p) ++ beBytes 32 0x726e1b8e1f676325d820afa5bac0d489cad6b0d220dc1c4edd5336636160df83

/-- A digest and a signature which is accepted: 3*P + 2*(-P) = P. -/
def dg : Bytes := beBytes 32 ((Sig.B42.q - 1) / 2)
def sig : Bytes := beBytes 32 1 ++ beBytes 32 ((Sig.B42.q - 3) / 2)

end Ex135

/-- C135, a case: on a built-in curve `verify` accepts a signature with two different public keys, of which one is the encoding
of a point and the other is not reduced. The hypotheses of `C135_verify` are met. -/
theorem C135_two_keys : ∃ P, Good Ex134.t Sig.B42.p Sig.B42.q P ∧
    EncodesPoint Ex134.t Sig.B42.p Sig.B42.pk ((Sig.B42.q - 1) • P) ∧ addOrderOf ((Sig.B42.q - 1) • P) = Sig.B42.q ∧
    Ex135.pk' ≠ Sig.B42.pk ∧ Sig.B42.p ≤ beNat (Ex135.pk'.take 32) ∧
    beNat (Ex135.sig.take 32) + stdE Sig.B42.q Ex135.dg ≠ Sig.B42.q ∧
    Verifies Ex134.t Sig.B42.pk Ex135.dg Ex135.sig true ∧ Verifies Ex134.t Ex135.pk' Ex135.dg Ex135.sig true := by
  obtain ⟨-, P, hg, he, -⟩ := Sig.C42_statement_false
  have ho : addOrderOf ((Sig.B42.q - 1) • P) = Sig.B42.q := by
    have c : (addOrderOf P).Coprime (Sig.B42.q - 1) := by
      rw [hg.order]
      exact (Nat.coprime_self_sub_right (by decide +kernel)).2 (Nat.coprime_one_right _)
    rw [c.addOrderOf_nsmul, hg.order]
  have v : Verifies Ex134.t Sig.B42.pk Ex135.dg Ex135.sig true :=
    (verifies_iff Ex134.t (by decide +kernel) (by decide +kernel) (by decide +kernel) (by decide +kernel) _ _ _ _).2
      ⟨3, by decide +kernel⟩
  refine ⟨P, hg, he, ho, by decide +kernel, by decide +kernel, by decide +kernel, v, ?_⟩
  exact (C135_verify hg (by decide +kernel) Sig.B42.pk Ex135.pk' Ex135.dg Ex135.sig he ho (by decide +kernel)
    (by decide +kernel) (by decide +kernel) (by decide +kernel) (by decide +kernel) (by decide +kernel) (by decide +kernel)
    (by decide +kernel) true).2 v

end Gost.Src
