import Verif.Props.Signature
import Verif.Props.CurveCheck
import Verif.Proofs.GoodBuiltin

/-! Instances of the signature theorems on built-in curves, and the witnesses against the full statements of C41, C42,
C43 and C44. -/

namespace Gost.Sig
open Spec (beNat beBytes)
open WeierstrassCurve.Affine

/-- The object of a built-in curve. -/
theorem new_builtin (mode : Int) (n : String) (c : CurveParams) (hm : mode = 1 ∨ mode = 2)
    (hc : (n, c) ∈ Curves.builtin) (hs : (given mode c).size = 32 ↔ (given mode c).q ≤ 2 ^ 256) :
    new mode c = .ok (given mode c) := by
  obtain ⟨mode', hm', h1, h2, -⟩ := C45_builtin (n, c) hc
  have : mode = mode' := by
    have h3 := h2.2.2.2
    unfold OrderRange at h3
    have e1 : (given mode c).q = (given mode' c).q := rfl
    have p1 : (2 : Int) ^ 256 < 2 ^ 508 := by decide +kernel
    dsimp only at h3
    rcases hm with rfl | rfl <;> rcases hm' with rfl | rfl
    · rfl
    · exfalso
      have : (given 2 c).size = 64 := rfl
      have h4 := hs.1 rfl
      rw [e1] at h4
      omega
    · exfalso
      have : (given 1 c).size = 32 := rfl
      have h4 : (given 2 c).size = 64 := rfl
      rw [e1, h4] at hs
      have := hs.2 (by omega)
      omega
    · rfl
  rw [this]
  exact h1

section
variable {s : Sig} {p q : Nat} [Fact p.Prime] {P : (curve s p).Point}

theorem rep_neg {x y : Nat} (h : Rep s p (x, y) P) (hy : y ≠ 0) : Rep s p (x, (p - y : Nat)) (-P) := by
  obtain ⟨h1, h2, h3, h4, h5, rfl⟩ := h
  dsimp only at h3 h4
  have hle : y ≤ p := by omega
  have hn : (curve s p).negY ((x : Int) : ZMod p) ((y : Int) : ZMod p) = (((p - y : Nat) : Int) : ZMod p) := by
    rw [WeierstrassCurve.Affine.negY]
    simp [curve, natCast_sub y hle]
  have h6 := (nonsingular_neg ((x : Int) : ZMod p) ((y : Int) : ZMod p)).2 h5
  refine ⟨h1, h2, by omega, by simp only []; omega, by rw [← hn]; exact h6, ?_⟩
  rw [Point.neg_some]
  congr 1

theorem Good.pred_q (hg : Good s p q P) : (q - 1) • P = -P := by
  rw [eq_neg_iff_add_eq_zero, ← succ_nsmul, Nat.sub_add_cancel hg.qprime.pos, ← hg.order, addOrderOf_nsmul_eq_zero]

theorem some_inj {p : Nat} {W : WeierstrassCurve.Affine (ZMod p)} {x y x' y' : ZMod p} {h : W.Nonsingular x y}
    {h' : W.Nonsingular x' y'} (e : Point.some x y h = Point.some x' y' h') : x = x' := by
  injection e

/-- The quotient of two numbers modulo a prime, from a product. -/
theorem div_val (hq : q.Prime) {a e n : Nat} (he : 0 < e) (heq : e < q) (hn : n < q) (h : a % q = n * e % q) :
    ((a : ZMod q) * (e : ZMod q)⁻¹).val = n := by
  have : Fact q.Prime := ⟨hq⟩
  have he0 : (e : ZMod q) ≠ 0 := by
    rw [Ne, ZMod.natCast_eq_zero_iff]
    intro hd
    have := Nat.le_of_dvd he hd
    omega
  have h1 := (ZMod.natCast_eq_natCast_iff' a (n * e) q).2 h
  rw [h1]
  push_cast
  rw [mul_assoc, mul_inv_cancel₀ he0, mul_one, ZMod.val_natCast, Nat.mod_eq_of_lt hn]

end

/-! ### C41: the witness -/

namespace D41
def p : Nat := 0x9b9f605f5a858107ab1ec85e6b41c8aacf846e86789051d37998f7b9022d759b
instance : Fact p.Prime := fact_c256D
def q : Nat := 0x9b9f605f5a858107ab1ec85e6b41c8aa582ca3511eddfb74f02f3a6598980bb9
def r : Nat := 0x74ab1ac14e9ed5cda1af70308c897ebf3d91d913a7bf377833c436bf0f8aa40e
def e : Nat := 0x26f4459e0be6ab3a096f582ddeb849eb1a9aca3d771ec3fcbc6b03a6890d67ab
def sg : Nat := 0x74dcd0da23b401ae1c4e08899c28ddc14fd05eb8655c4bf635410af39b283701
def sk : Bytes := beBytes 32 (q - 1)
def dg : Bytes := beBytes 32 e
def rk : Bytes := beBytes 32 2
def pk : Bytes := beBytes 32 0 ++ beBytes 32 0x59b27b081714667b6e5f90da9e3907bc8236aa45a42c3744432aa2ab0479ba34
def sig : Bytes := beBytes 32 r ++ beBytes 32 sg
end D41

/-- The full statement of C41 is false: on the built-in curve 256-paramSetD, with the private key q-1 and k = 2, there is a
digest for which `sign` returns a signature and `verify` with the public key returns False. (The public key has the
x coordinate 0 and is replaced by the base point.) -/
theorem C41_statement_false :
    new 1 Curves.c256D = .ok (given 1 Curves.c256D) ∧ (∃ P, Good (given 1 Curves.c256D) D41.p D41.q P) ∧
    ∀ F, D41.q ≤ 2 ^ F →
      (given 1 Curves.c256D).publicKeyGenerate F (.bytearray D41.sk) = some (.ok D41.pk) ∧
      (given 1 Curves.c256D).sign F (fun _ => []) (.bytearray D41.sk) (.bytearray D41.dg) (.bytearray D41.rk) =
        some (.ok D41.sig) ∧
      (given 1 Curves.c256D).verify F (.bytearray D41.pk) (.bytearray D41.dg) (.bytearray D41.sig) =
        some (.ok false) := by
  refine ⟨new_builtin 1 "id-tc26-gost-3410-2012-256-paramSetD" _ (.inl rfl) (by simp [Curves.builtin])
    (by decide +kernel), good_c256D, fun F hF => ?_⟩
  obtain ⟨P, hg⟩ : ∃ P, Good (given 1 Curves.c256D) D41.p D41.q P := good_c256D
  have hbase : Rep (given 1 Curves.c256D) D41.p (((0x0 : Nat) : Int), ((0x41ece55743711a8c3cbf3783cd08c0ee4d4dc440d4641a8f366e550dfdb3bb67 : Nat) : Int)) P := hg.base
  have h2 : Rep (given 1 Curves.c256D) D41.p (((0x74ab1ac14e9ed5cda1af70308c897ebf3d91d913a7bf377833c436bf0f8aa40e : Nat) : Int),
      ((0x7d223beab738ba52a65ffbfe585d2807bfaed5ea9cd651a63a775b4182f562e3 : Nat) : Int)) (P + P) :=
    addS_sound (a := 0x9b9f605f5a858107ab1ec85e6b41c8aacf846e86789051d37998f7b9022d7598) (c := (0x0, 0x41ece55743711a8c3cbf3783cd08c0ee4d4dc440d4641a8f366e550dfdb3bb67)) (d := (0x0, 0x41ece55743711a8c3cbf3783cd08c0ee4d4dc440d4641a8f366e550dfdb3bb67))
      (e := (0x74ab1ac14e9ed5cda1af70308c897ebf3d91d913a7bf377833c436bf0f8aa40e, 0x7d223beab738ba52a65ffbfe585d2807bfaed5ea9cd651a63a775b4182f562e3)) (l := 0x76811373927b66569184a2e9fdfea64e54456c183aa621af6738ba032929c1f5) hg.hp rfl hg.size
      (by decide +kernel) hbase hbase (by decide +kernel)
  have h4 : Rep (given 1 Curves.c256D) D41.p (((0x4fe44356aded59b4b661e9da15fe79dbcb1d7346770919c5c99090e5ae4db8a6 : Nat) : Int),
      ((0x24f0222027a3d2577cca5aefb5411c88f92f5f4b8febddebc71c12180640ebfd : Nat) : Int)) (P + P + (P + P)) :=
    addS_sound (a := 0x9b9f605f5a858107ab1ec85e6b41c8aacf846e86789051d37998f7b9022d7598) (c := (0x74ab1ac14e9ed5cda1af70308c897ebf3d91d913a7bf377833c436bf0f8aa40e, 0x7d223beab738ba52a65ffbfe585d2807bfaed5ea9cd651a63a775b4182f562e3)) (d := (0x74ab1ac14e9ed5cda1af70308c897ebf3d91d913a7bf377833c436bf0f8aa40e, 0x7d223beab738ba52a65ffbfe585d2807bfaed5ea9cd651a63a775b4182f562e3))
      (e := (0x4fe44356aded59b4b661e9da15fe79dbcb1d7346770919c5c99090e5ae4db8a6, 0x24f0222027a3d2577cca5aefb5411c88f92f5f4b8febddebc71c12180640ebfd)) (l := 0x925c56ac32544da045a314502a45bcb780d97dd4bbbf1fc62462facb89a9efba) hg.hp rfl hg.size
      (by decide +kernel) h2 h2 (by decide +kernel)
  have hd : beNat D41.sk = D41.q - 1 := by decide +kernel
  have hk : beNat D41.rk = 2 := by decide +kernel
  have he : stdE D41.q D41.dg = D41.e := by decide +kernel
  have hpk : (given 1 Curves.c256D).publicKeyGenerate F (.bytearray D41.sk) = some (.ok D41.pk) := by
    obtain ⟨b, hb1, hb2⟩ := C43_private_key hg (sk := .bytearray D41.sk) rfl (by decide +kernel)
      (by rw [hd]; decide +kernel) (by rw [hd]; decide +kernel)
    rw [hb2 F hF]
    rw [hd, hg.pred_q] at hb1
    have hb3 := encodes_of_rep hg.size (rep_neg hbase (by decide))
    rw [encodes_unique hg.size hb1 hb3, pairBytes_nat]
    decide +kernel
  have hstd : StdSign (given 1 Curves.c256D) D41.p D41.q P (beNat D41.sk) (stdE D41.q D41.dg) (beNat D41.rk) D41.r D41.sg := by
    rw [hd, he, hk]
    refine ⟨by decide, by decide, ?_, by decide, by decide +kernel, by decide⟩
    rw [two_nsmul, xmod_iff hg.hq h2]
    decide +kernel
  refine ⟨hpk, C41_sign_returns hg rfl (by decide +kernel) rfl (by decide +kernel) rfl (by decide) _ hstd F hF, ?_⟩
  have t1 : beNat (D41.sig.take (given 1 Curves.c256D).size) = D41.r := by decide +kernel
  have t2 : beNat (D41.sig.drop (given 1 Curves.c256D).size) = D41.sg := by decide +kernel
  have hpt : stdPoint (given 1 Curves.c256D) D41.p D41.q P P (stdE D41.q D41.dg) D41.r D41.sg = P + P + (P + P) := by
    have hneg : (-(D41.r : ZMod D41.q)) = ((D41.q - D41.r : Nat) : ZMod D41.q) := by
      rw [natCast_sub_q (by decide)]
    unfold stdPoint
    rw [he, hneg, div_val hg.qprime (n := 3) (by decide) (by decide) (by decide) (by decide +kernel),
      div_val hg.qprime (n := 1) (by decide) (by decide) (by decide) (by decide +kernel), ← add_nsmul,
      ← two_nsmul P, ← add_nsmul]
  have hne : P + P + (P + P) ≠ 0 := rep_ne_zero h4
  obtain ⟨v, hv1, hv2⟩ := C42_zero_x hg (pkv := .bytearray D41.pk) (dgv := .bytearray D41.dg)
    (sigv := .bytearray D41.sig) rfl (by decide +kernel) rfl (by decide +kernel) rfl (by decide +kernel)
    (by decide +kernel) (by rw [t1, t2, hpt]; exact hne)
  have hvf : v ≠ true := by
    intro hv
    have hx := (hv1.1 hv).2.2.2.2
    rw [t1, t2, hpt, xmod_iff hg.hq h4] at hx
    exact absurd hx (by decide +kernel)
  rw [hv2 F hF, Bool.eq_false_iff.2 hvf]

/-! ### C42: the witness -/

namespace B42
def p : Nat := 0xfffffffffffffffffffffffffffffffffffffffffffffffffffffffffffffd97
instance : Fact p.Prime := fact_c256A
def q : Nat := 0xffffffffffffffffffffffffffffffff6c611070995ad10045841b09b761b893
def r : Nat := 0x939eef8f66a52effba7be4f6489e4502
def e : Nat := 0xfffffffffffffffffffffffffffffffed8c220e132b5a2008b0836136ec37391
def pk : Bytes := beBytes 32 0x1 ++ beBytes 32 0x726e1b8e1f676325d820afa5bac0d489cad6b0d220dc1c4edd5336636160df83
def dg : Bytes := beBytes 32 e
def sig : Bytes := beBytes 32 r ++ beBytes 32 e
end B42

/-- The full statement of C42 is false: on the built-in curve 256-paramSetB, for the public key -P (private key q-1) `verify`
returns True for a digest and a signature which the standard rejects, because z1*P + z2*Q is the point at infinity. -/
theorem C42_statement_false :
    new 1 Curves.c256B = .ok (given 1 Curves.c256B) ∧
    ∃ P, Good (given 1 Curves.c256B) B42.p B42.q P ∧
      EncodesPoint (given 1 Curves.c256B) B42.p B42.pk ((B42.q - 1) • P) ∧
      ¬ StdVerify (given 1 Curves.c256B) B42.p B42.q P ((B42.q - 1) • P) (stdE B42.q B42.dg) B42.r B42.e ∧
      ∀ F, B42.q ≤ 2 ^ F →
        (given 1 Curves.c256B).verify F (.bytearray B42.pk) (.bytearray B42.dg) (.bytearray B42.sig) =
          some (.ok true) := by
  refine ⟨new_builtin 1 "id-tc26-gost-3410-2012-256-paramSetB" _ (.inl rfl) (by simp [Curves.builtin])
    (by decide +kernel), ?_⟩
  obtain ⟨P, hg⟩ : ∃ P, Good (given 1 Curves.c256B) B42.p B42.q P := good_c256B
  have hbase : Rep (given 1 Curves.c256B) B42.p (((0x1 : Nat) : Int), ((0x8d91e471e0989cda27df505a453f2b7635294f2ddf23e3b122acc99c9e9f1e14 : Nat) : Int)) P := hg.base
  have hneg := rep_neg hbase (by decide)
  have he : stdE B42.q B42.dg = B42.e := by decide +kernel
  have hnr : (-(B42.r : ZMod B42.q)) = ((B42.q - B42.r : Nat) : ZMod B42.q) := by
    rw [natCast_sub_q (by decide)]
  have d1 : ((B42.e : ZMod B42.q) * (B42.e : ZMod B42.q)⁻¹).val = 1 :=
    div_val hg.qprime (n := 1) (by decide) (by decide) (by decide) (by decide +kernel)
  have hpt : stdPoint (given 1 Curves.c256B) B42.p B42.q P (-P) (stdE B42.q B42.dg) B42.r B42.e = 0 := by
    unfold stdPoint
    rw [he, hnr, d1,
      div_val hg.qprime (n := 1) (by decide) (by decide) (by decide) (by decide +kernel)]
    simp
  have henc : EncodesPoint (given 1 Curves.c256B) B42.p B42.pk (-P) := by
    have := encodes_of_rep hg.size hneg
    rw [pairBytes_nat] at this
    exact this
  refine ⟨P, hg, ?_, ?_, fun F hF => ?_⟩
  · rw [hg.pred_q]
    exact henc
  · rw [hg.pred_q]
    rintro ⟨-, -, -, -, x, y, h1, h2, -⟩
    rw [hpt] at h2
    exact absurd h2.symm (Point.some_ne_zero _)
  · have t1 : beNat (B42.sig.take (given 1 Curves.c256B).size) = B42.r := by decide +kernel
    have t2 : beNat (B42.sig.drop (given 1 Curves.c256B).size) = B42.e := by decide +kernel
    obtain ⟨x, y, hns, hx, hv⟩ := C42_infinity hg (pkv := .bytearray B42.pk) (dgv := .bytearray B42.dg)
      (sigv := .bytearray B42.sig) rfl (by decide +kernel) rfl (by decide +kernel) rfl (by decide +kernel)
      (.inl ⟨by decide +kernel, henc⟩) (by rw [← hg.order]; exact addOrderOf_neg P)
      (by rw [t1, t2]; decide) (by rw [t1, t2]; exact hpt)
    rw [hv F hF, t1]
    rw [t2, he, d1, one_nsmul] at hx
    obtain ⟨-, -, -, -, h5, h6⟩ := hbase
    rw [h6] at hx
    have hx1 := some_inj hx
    have hcast : (-2 * (((0x1 : Nat) : Int) : ZMod B42.p)) = ((B42.p - 2 * 0x1 : Nat) : ZMod B42.p) := by
      rw [natCast_sub (p := B42.p) _ (by decide)]
      push_cast
      ring
    have hval : (-2 * x).val % B42.q = B42.r := by
      rw [← hx1, hcast, ZMod.val_natCast]
      decide +kernel
    rw [decide_eq_true hval]

/-! ### A signature and its verification on a built-in curve -/

namespace B42
def one : Bytes := beBytes 32 1
def two : Bytes := beBytes 32 2
def pk2 : Bytes := beBytes 32 0xfffffffffffffffffffffffffffffffffffffffffffffffffffffffffffffd95 ++ beBytes 32 0x726e1b8e1f676325d820afa5bac0d489cad6b0d220dc1c4edd5336636160df83
def r2 : Nat := 0x939eef8f66a52effba7be4f6489e4502
def s2 : Nat := 0x1273ddf1ecd4a5dff74f7c9ec913c8a06
end B42

theorem double_c256B {P : (curve (given 1 Curves.c256B) B42.p).Point} (hg : Good (given 1 Curves.c256B) B42.p B42.q P) :
    Rep (given 1 Curves.c256B) B42.p (((0xfffffffffffffffffffffffffffffffffffffffffffffffffffffffffffffd95 : Nat) : Int),
      ((0x726e1b8e1f676325d820afa5bac0d489cad6b0d220dc1c4edd5336636160df83 : Nat) : Int)) (P + P) := by
  have hbase : Rep (given 1 Curves.c256B) B42.p (((0x1 : Nat) : Int), ((0x8d91e471e0989cda27df505a453f2b7635294f2ddf23e3b122acc99c9e9f1e14 : Nat) : Int)) P := hg.base
  exact addS_sound (a := 0xfffffffffffffffffffffffffffffffffffffffffffffffffffffffffffffd94) (c := (0x1, 0x8d91e471e0989cda27df505a453f2b7635294f2ddf23e3b122acc99c9e9f1e14)) (d := (0x1, 0x8d91e471e0989cda27df505a453f2b7635294f2ddf23e3b122acc99c9e9f1e14))
      (e := (0xfffffffffffffffffffffffffffffffffffffffffffffffffffffffffffffd95, 0x726e1b8e1f676325d820afa5bac0d489cad6b0d220dc1c4edd5336636160df83)) (l := 0x0) hg.hp rfl hg.size
      (by decide +kernel) hbase hbase (by decide +kernel)

/-- The hypotheses of `C43_private_key`, `C41_sign_returns`, `C41_sign_verify_partial` and `C42_verify_partial` are met on the
built-in curve 256-paramSetB by the private key 2, the digest 1 and k = 2. -/
theorem C41_example :
    new 1 Curves.c256B = .ok (given 1 Curves.c256B) ∧
    ∃ P, Good (given 1 Curves.c256B) B42.p B42.q P ∧
      EncodesPoint (given 1 Curves.c256B) B42.p B42.pk2 (2 • P) ∧
      StdSign (given 1 Curves.c256B) B42.p B42.q P 2 1 2 B42.r2 B42.s2 ∧
      StdVerify (given 1 Curves.c256B) B42.p B42.q P (2 • P) 1 B42.r2 B42.s2 ∧
      stdPoint (given 1 Curves.c256B) B42.p B42.q P (2 • P) 1 B42.r2 B42.s2 ≠ 0 ∧
      ∀ F, B42.q ≤ 2 ^ F →
        (given 1 Curves.c256B).publicKeyGenerate F (.bytes B42.two) = some (.ok B42.pk2) ∧
        (given 1 Curves.c256B).sign F (fun _ => []) (.bytes B42.two) (.bytes B42.one) (.bytes B42.two) =
          some (.ok (beBytes 32 B42.r2 ++ beBytes 32 B42.s2)) ∧
        (given 1 Curves.c256B).verify F (.bytes B42.pk2) (.bytes B42.one)
          (.bytes (beBytes 32 B42.r2 ++ beBytes 32 B42.s2)) = some (.ok true) := by
  refine ⟨C42_statement_false.1, ?_⟩
  obtain ⟨P, hg⟩ : ∃ P, Good (given 1 Curves.c256B) B42.p B42.q P := good_c256B
  have h2 := double_c256B hg
  have henc : EncodesPoint (given 1 Curves.c256B) B42.p B42.pk2 (2 • P) := by
    have := encodes_of_rep hg.size h2
    rw [pairBytes_nat, ← two_nsmul] at this
    exact this
  have hstd : StdSign (given 1 Curves.c256B) B42.p B42.q P 2 1 2 B42.r2 B42.s2 := by
    refine ⟨by decide, by decide, ?_, by decide, by decide +kernel, by decide⟩
    rw [two_nsmul, xmod_iff hg.hq h2]
    decide +kernel
  have hver := std_correct hg.qprime hg.order (by decide) (by decide) (rep_ne_zero hg.base) hstd
  have h2n : beNat B42.two = 2 := by decide +kernel
  have h1n : stdE B42.q B42.one = 1 := by decide +kernel
  have key : ∀ F, B42.q ≤ 2 ^ F →
      (given 1 Curves.c256B).publicKeyGenerate F (.bytes B42.two) = some (.ok B42.pk2) ∧
      (given 1 Curves.c256B).sign F (fun _ => []) (.bytes B42.two) (.bytes B42.one) (.bytes B42.two) =
        some (.ok (beBytes 32 B42.r2 ++ beBytes 32 B42.s2)) := by
    intro F hF
    constructor
    · obtain ⟨b, hb1, hb2⟩ := C43_private_key hg (sk := .bytes B42.two) rfl (by decide +kernel)
        (by rw [h2n]; decide) (by rw [h2n]; decide)
      rw [h2n] at hb1
      rw [hb2 F hF, encodes_unique hg.size hb1 henc]
    · exact C41_sign_returns hg rfl (by decide +kernel) rfl (by decide +kernel) rfl (by decide +kernel) _
        (by rw [h2n, h1n]; exact hstd) F hF
  refine ⟨P, hg, henc, hstd, hver.2, ?_, fun F hF => ⟨(key F hF).1, (key F hF).2, ?_⟩⟩
  · rw [hver.1]
    exact rep_ne_zero (by rw [two_nsmul]; exact h2)
  · refine C41_sign_verify_partial hg (d := B42.two) rfl ?_ (key F hF).1 (key F hF).2 (.inl (by decide +kernel)) rfl rfl F hF
    rw [h2n]
    exact noWrap_of_lt (by decide) (by decide)

/-! ### C43 and C44: the witnesses -/

/-- The last part of C43 is false: on the built-in curve 256-paramSetB the private key q is accepted and the call returns a
byte string, although q*P is the point at infinity. -/
theorem C43_statement_false :
    ∃ P, Good (given 1 Curves.c256B) B42.p B42.q P ∧
      (∃ b, ∀ F, B42.q ≤ 2 ^ F →
        (given 1 Curves.c256B).publicKeyGenerate F (.bytes (beBytes 32 B42.q)) = some (.ok b)) ∧
      B42.q • P = 0 ∧ ¬ ∃ b, EncodesPoint (given 1 Curves.c256B) B42.p b (B42.q • P) := by
  obtain ⟨P, hg⟩ : ∃ P, Good (given 1 Curves.c256B) B42.p B42.q P := good_c256B
  have hq : beNat (beBytes 32 B42.q) = B42.q := by decide +kernel
  have := C43_multiple_of_q hg (sk := .bytes (beBytes 32 B42.q)) rfl (by decide +kernel) (by rw [hq]; decide)
    (by rw [hq])
  rw [hq] at this
  exact ⟨P, hg, this⟩

/-- The full statement of C44 is false: on a built-in curve, `public_key_generate` does not return for the private key 0, and
`sign` does not return for k = 0. -/
theorem C44_statement_false :
    new 1 Curves.c256B = .ok (given 1 Curves.c256B) ∧
    (∀ F, (given 1 Curves.c256B).publicKeyGenerate F (.bytes (List.replicate 32 0)) = none) ∧
    ∀ F rand, (given 1 Curves.c256B).sign F rand (.bytes B42.two) (.bytes B42.one) (.bytes [0]) = none := by
  refine ⟨C42_statement_false.1, fun F => ?_, fun F rand => ?_⟩
  · have h := (C44_public_key (given 1 Curves.c256B) (.bytes (List.replicate 32 0))).not.2
      (fun h => h rfl)
    cases e : (given 1 Curves.c256B).publicKeyGenerate F (.bytes (List.replicate 32 0)) with
    | none => rfl
    | some r => exact absurd ⟨F, r, e⟩ h
  · have h := C44_zero_k (s := given 1 Curves.c256B) (q := B42.q) rfl (by decide) (by decide +kernel) (sk := .bytes B42.two)
      (dgv := .bytes B42.one) (rkv := .bytes [0]) rfl (by decide +kernel) rfl (by decide +kernel) rfl (by decide)
      (by decide) rand
    cases e : (given 1 Curves.c256B).sign F rand (.bytes B42.two) (.bytes B42.one) (.bytes [0]) with
    | none => rfl
    | some r => exact absurd ⟨F, r, e⟩ h

/-! ### C46 on the built-in Edwards curves -/

/-- The parameters with the canonical part removed. -/
def edwardsOnly (c : CurveParams) : CurveParams := { c with a := none, b := none, x := none, y := none }

theorem edwards_eval (s : Sig) (hE : Edwards s) (hp : s.p ≠ 0) (w4 w6 wv wu a b x y : Int) (h4 : invert 4 s.p = w4)
    (h6 : invert 6 s.p = w6) (hv : invert (1 - s.v) s.p = wv) (hu : invert ((1 - s.v) * s.u) s.p = wu)
    (ha : (((s.e - s.d) * w4).fmod s.p ^ 2 - 3 * ((s.e + s.d) * w6).fmod s.p ^ 2).fmod s.p = a)
    (hb : (2 * ((s.e + s.d) * w6).fmod s.p ^ 3 - ((s.e + s.d) * w6).fmod s.p * ((s.e - s.d) * w4).fmod s.p ^ 2).fmod s.p = b)
    (hx : ((((s.e - s.d) * w4).fmod s.p * (1 + s.v)) * wv + ((s.e + s.d) * w6).fmod s.p).fmod s.p = x)
    (hy : ((((s.e - s.d) * w4).fmod s.p * (1 + s.v)) * wu).fmod s.p = y) :
    s.edvardsToCanonical = .ok { s with a := a, b := b, x := x, y := y } := by
  unfold edvardsToCanonical
  rw [Edwards] at hE
  rw [if_pos hE, if_neg hp]
  dsimp only
  rw [h4, h6, hv, hu, ha, hb, hx, hy]

/-- c256A: the conversion of the Edwards parameters yields the listed canonical ones. -/
theorem C46_example_c256A : (given 1 (edwardsOnly Curves.c256A)).edvardsToCanonical = .ok (given 1 Curves.c256A) := by
  refine (edwards_eval _ ⟨rfl, rfl, rfl, rfl⟩ (by decide +kernel)
    0x3fffffffffffffffffffffffffffffffffffffffffffffffffffffffffffff66
    0x2aaaaaaaaaaaaaaaaaaaaaaaaaaaaaaaaaaaaaaaaaaaaaaaaaaaaaaaaaaaaa44
    0x65dc7af5ec02435c91f5fd8bf2a320b98a26563d8223b8bd87546f102a2d3512
    0xf424a6ff398a052e8161b10ac3e529e6e33e06a2451670ac1e1a2fed8d17293e
    0xc2173f1513981673af4892c23035a27ce25e2013bf95aa33b22c656f277e7335
    0x295f9bae7428ed9ccc20e7c359a9d41a22fccd9108e17bf7ba9337a6f8ae9513
    0x91e38443a5e82c0d880923425712b2bb658b9196932e02c78b2582fe742daa28
    0x32879423ab1a0375895786c4bb46e9565fde0b5344766740af268adb32322e5c
    (invertF_sound 2000 _ _ _ (by decide +kernel)) (invertF_sound 2000 _ _ _ (by decide +kernel))
    (invertF_sound 2000 _ _ _ (by decide +kernel)) (invertF_sound 2000 _ _ _ (by decide +kernel))
    (by decide +kernel) (by decide +kernel) (by decide +kernel) (by decide +kernel)).trans rfl

/-- c256A: the listed (u, v) is on the Edwards curve, v != 1 and u != 0, so `C46_on_curve` applies. -/
theorem C46_hypotheses_c256A :
    (given 1 Curves.c256A).p ∣ (given 1 Curves.c256A).e * (given 1 Curves.c256A).u ^ 2 + (given 1 Curves.c256A).v ^ 2 -
      (1 + (given 1 Curves.c256A).d * (given 1 Curves.c256A).u ^ 2 * (given 1 Curves.c256A).v ^ 2) ∧
    ¬ (given 1 Curves.c256A).p ∣ (given 1 Curves.c256A).v - 1 ∧ ¬ (given 1 Curves.c256A).p ∣ (given 1 Curves.c256A).u := by
  decide +kernel

/-- c512C: the conversion of the Edwards parameters yields the listed canonical ones. -/
theorem C46_example_c512C : (given 2 (edwardsOnly Curves.c512C)).edvardsToCanonical = .ok (given 2 Curves.c512C) := by
  refine (edwards_eval _ ⟨rfl, rfl, rfl, rfl⟩ (by decide +kernel)
    0x3fffffffffffffffffffffffffffffffffffffffffffffffffffffffffffffffffffffffffffffffffffffffffffffffffffffffffffffffffffffffffffff72
    0x2aaaaaaaaaaaaaaaaaaaaaaaaaaaaaaaaaaaaaaaaaaaaaaaaaaaaaaaaaaaaaaaaaaaaaaaaaaaaaaaaaaaaaaaaaaaaaaaaaaaaaaaaaaaaaaaaaaaaaaaaaaaaa4c
    0xad2e3556f2dc8a60c19e6f797be038a3749777e2f815f92a3a18ba3492aec1e1bc5d9fe0db04f560c04351baeb02ed3b99f018bd0515f8374ce291bc8872339e
    0x97d7e684d49a7977273377f886e1ca41f8414dc57f8f7165e6c87c1f5d7b7c8c8a76faa8efb92a1398e74ba6d42ad44a6c1b8f98b92be31f844579dfceb101a2
    0xdc9203e514a721875485a529d2c722fb187bc8980eb866644de41c68e143064546e861c0e2c9edd92ade71f46fcf50ff2ad97f951fda9f2a2eb6546f39689bd3
    0xb4c4ee28cebc6c2c8ac12952cf37f16ac7efb6a9f69f4b57ffda2e4f0de5ade038cbc2fff719d2c18de0284b8bfef3b52b8cc7a5f5bf0a3c8d2319a5312557e1
    0xe2e31edfc23de7bdebe241ce593ef5de2295b7a9cbaef021d385f7074cea043aa27272a7ae602bf2a7b9033db9ed3610c6fb85487eae97aac5bc7928c1950148
    0xf5ce40d95b5eb899abbccff5911cb8577939804d6527378b8c108c3d2090ff9be18e2d33e3021ed2ef32d85822423b6304f726aa854bae07d0396e9a9addc40f
    (invertF_sound 2000 _ _ _ (by decide +kernel)) (invertF_sound 2000 _ _ _ (by decide +kernel))
    (invertF_sound 2000 _ _ _ (by decide +kernel)) (invertF_sound 2000 _ _ _ (by decide +kernel))
    (by decide +kernel) (by decide +kernel) (by decide +kernel) (by decide +kernel)).trans rfl

/-- c512C: the listed (u, v) is on the Edwards curve, v != 1 and u != 0, so `C46_on_curve` applies. -/
theorem C46_hypotheses_c512C :
    (given 2 Curves.c512C).p ∣ (given 2 Curves.c512C).e * (given 2 Curves.c512C).u ^ 2 + (given 2 Curves.c512C).v ^ 2 -
      (1 + (given 2 Curves.c512C).d * (given 2 Curves.c512C).u ^ 2 * (given 2 Curves.c512C).v ^ 2) ∧
    ¬ (given 2 Curves.c512C).p ∣ (given 2 Curves.c512C).v - 1 ∧ ¬ (given 2 Curves.c512C).p ∣ (given 2 Curves.c512C).u := by
  decide +kernel

end Gost.Sig
