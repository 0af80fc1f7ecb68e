import Verif.Props.SourceSignatureStd
import Verif.Props.SignatureNonce

/-! C106, signatures: the cases in which the signature class does something else than the standard says, as runs of the
text itself with the curves of the package. -/

namespace Gost.Src

open Spec (beNat beBytes)
open SigSrc Sig

/-- `new(mode, CURVES_R_1323565_1_024_2019[name]).m(*args)`. -/
def onCurve (C : Ctx) (mode : Int) (name m : String) (args : List Val) (h : Heap) : Out Val :=
  andThen (evalTable C Signature.curves h) fun T h =>
    match findAttr name T with
    | none => fail .stuck h
    | some d => andThen (C.call "Signature.new" [.int mode, d] h) fun o h => callMeth C o m args h

/-- The object which the program makes. -/
theorem onCurve_new {name : String} {c : CurveParams} (hnc : (name, c) ∈ Curves.builtin) {mode : Int} {s : Sig}
    (hnew : new mode c = .ok s) (hpp : c.p.getD 1 = s.p) (h0 : 0 < s.p) (hp : s.p ≤ 2 ^ 512) (L n : Nat) (hn : 739 ≤ n)
    (h : Heap) : ∃ h' me o, SigCell s me o h' ∧ Ext h h' ∧
      ∀ m f args, package.method "GOST34102012" m = some (f, false) →
        onCurve (ctx L (n + 4)) mode name m args h = call package L (n + 4) f (.ref me :: args) h' := by
  obtain ⟨T, l, f1, -, f2⟩ := C104_table L (n + 3) h
  obtain ⟨D, f3, cd⟩ := f2 _ hnc
  have f4 := C104_new L n hn (h ++ l) mode cd (by rw [hpp]; exact h0) (by rw [hpp]; exact hp)
  rw [hnew] at f4
  obtain ⟨h1, me, o, f4, x1, l1, -, a1, -⟩ := f4
  refine ⟨h1, me, o, a1, ((Ext.refl h).add l).trans x1, fun m f args hm => ?_⟩
  unfold onCurve
  rw [show evalTable (ctx L (n + 4)) Signature.curves h = ok T (h ++ l) from f1, andThen_ok]
  simp only [f3]
  rw [show (ctx L (n + 4)).call "Signature.new" [.int mode, .dict D] (h ++ l) = ok (.ref me) h1 from f4, andThen_ok,
    callMeth_sig a1 hm]

theorem le_pow_of_le {q e F : Nat} (h : q ≤ 2 ^ e) (hF : e ≤ F) : q ≤ 2 ^ F :=
  h.trans (Nat.pow_le_pow_right (Nat.succ_pos 1) hF)

theorem bounds_c256B : 0 < (given 1 Curves.c256B).p ∧ (given 1 Curves.c256B).p ≤ 2 ^ 512 ∧
    0 < (given 1 Curves.c256B).q ∧ (given 1 Curves.c256B).q ≤ 2 ^ 512 ∧ B42.q ≤ 2 ^ 512 := by
  obtain ⟨P, hg⟩ : ∃ P, Good (given 1 Curves.c256B) B42.p B42.q P := good_c256B
  exact good_bounds hg (show (32 : Nat) ≤ 64 by omega)

theorem bounds_c256D : 0 < (given 1 Curves.c256D).p ∧ (given 1 Curves.c256D).p ≤ 2 ^ 512 ∧
    0 < (given 1 Curves.c256D).q ∧ (given 1 Curves.c256D).q ≤ 2 ^ 512 ∧ D41.q ≤ 2 ^ 512 := by
  obtain ⟨P, hg⟩ : ∃ P, Good (given 1 Curves.c256D) D41.p D41.q P := good_c256D
  exact good_bounds hg (show (32 : Nat) ≤ 64 by omega)

/-- C106, `verify` (C42): a signature which the standard refuses, because z1*P + z2*Q is the point at infinity, is
accepted. -/
theorem C106_verify_infinity (F n : Nat) (hF : 512 ≤ F) (hn : 739 ≤ n) (h : Heap) :
    (∃ P, Good (given 1 Curves.c256B) B42.p B42.q P ∧
      EncodesPoint (given 1 Curves.c256B) B42.p B42.pk ((B42.q - 1) • P) ∧
      ¬ StdVerify (given 1 Curves.c256B) B42.p B42.q P ((B42.q - 1) • P) (stdE B42.q B42.dg) B42.r B42.e) ∧
    ∃ h', onCurve (ctx (F + 1) (n + 4)) 1 "id-tc26-gost-3410-2012-256-paramSetB" "verify"
      [.bytes B42.pk, .bytes B42.dg, .bytes B42.sig] h = ok (.bool true) h' := by
  obtain ⟨hnew, P, hg, h1, h2, w⟩ := C42_statement_false
  refine ⟨⟨P, hg, h1, h2⟩, ?_⟩
  obtain ⟨b0, b1, b2, b3, b4⟩ := bounds_c256B
  obtain ⟨h', me, o, a, -, r⟩ := onCurve_new (name := "id-tc26-gost-3410-2012-256-paramSetB") (c := Curves.c256B)
    (by simp [Curves.builtin]) hnew rfl b0 b1 (F + 1) n hn h
  rw [r _ _ _ Meth.GOST34102012.verify]
  have f := C104_verify a b0 b1 F n hn b2 b3 (.bytes B42.pk) (.bytes B42.dg) (.bytes B42.sig)
  have e : (given 1 Curves.c256B).verify F (pyVal (.bytes B42.pk) h') (pyVal (.bytes B42.dg) h')
      (pyVal (.bytes B42.sig) h') = some (.ok true) := by
    rw [← w F (le_pow_of_le b4 hF)]
    rfl
  rw [e] at f
  obtain ⟨l, f⟩ := f
  exact ⟨_, f⟩

/-- C106, `public_key_generate` (C43): the private key q is accepted and a byte array is returned, although q*P is the
point at infinity, which has no coordinates. -/
theorem C106_private_key_q (F n : Nat) (hF : 512 ≤ F) (hn : 739 ≤ n) (h : Heap) :
    (∃ P, Good (given 1 Curves.c256B) B42.p B42.q P ∧ B42.q • P = 0 ∧
      ¬ ∃ b, EncodesPoint (given 1 Curves.c256B) B42.p b (B42.q • P)) ∧
    ∃ h' v b, onCurve (ctx (F + 1) (n + 4)) 1 "id-tc26-gost-3410-2012-256-paramSetB" "public_key_generate"
      [.bytes (beBytes 32 B42.q)] h = ok (.ref v) h' ∧ bytesOf (.ref v) h' = some b := by
  obtain ⟨P, hg, ⟨b, w⟩, h1, h2⟩ := C43_statement_false
  refine ⟨⟨P, hg, h1, h2⟩, ?_⟩
  obtain ⟨b0, b1, b2, b3, b4⟩ := bounds_c256B
  obtain ⟨h', me, o, a, -, r⟩ := onCurve_new (name := "id-tc26-gost-3410-2012-256-paramSetB") (c := Curves.c256B)
    (by simp [Curves.builtin]) C42_statement_false.1 rfl b0 b1 (F + 1) n hn h
  rw [r _ _ _ Meth.GOST34102012.public_key_generate]
  have f := C104_public_key a b0 b1 F n hn (.bytes (beBytes 32 B42.q))
  rw [show pyVal (.bytes (beBytes 32 B42.q)) h' = .bytes (beBytes 32 B42.q) from rfl,
    w F (le_pow_of_le b4 hF)] at f
  obtain ⟨h'', v, f, -, -, e⟩ := f
  exact ⟨h'', v, b, f, e⟩

/-- C106, loops which do not end (C44): whatever number of turns each loop may make, `public_key_generate` has not ended
for the private key 0, nor `sign` for the random number 0. -/
theorem C106_endless (F n : Nat) (hn : 739 ≤ n) (h : Heap) :
    (∃ h', onCurve (ctx (F + 1) (n + 4)) 1 "id-tc26-gost-3410-2012-256-paramSetB" "public_key_generate"
      [.bytes (List.replicate 32 0)] h = fail .fuel h') ∧
    ∃ h', onCurve (ctx (F + 1) (n + 4)) 1 "id-tc26-gost-3410-2012-256-paramSetB" "sign"
      [.bytes B42.two, .bytes B42.one, .bytes [0]] h = fail .fuel h' := by
  obtain ⟨hnew, w1, w2⟩ := C44_statement_false
  obtain ⟨b0, b1, b2, b3, b4⟩ := bounds_c256B
  obtain ⟨h', me, o, a, -, r⟩ := onCurve_new (name := "id-tc26-gost-3410-2012-256-paramSetB") (c := Curves.c256B)
    (by simp [Curves.builtin]) hnew rfl b0 b1 (F + 1) n hn h
  constructor
  · rw [r _ _ _ Meth.GOST34102012.public_key_generate]
    have f := C104_public_key a b0 b1 F n hn (.bytes (List.replicate 32 0))
    rw [show pyVal (.bytes (List.replicate 32 0)) h' = .bytes (List.replicate 32 0) from rfl, w1 F] at f
    obtain ⟨h'', f, -⟩ := f
    exact ⟨h'', f⟩
  · rw [r _ _ _ Meth.GOST34102012.sign]
    have f := C104_sign a b0 b1 F n hn b2 (.bytes B42.two) (.bytes B42.one) (.bytes [0]) (by intro w hw; cases hw)
      (fun _ => []) (fun hc => by cases hc)
    rw [show ∀ b, pyVal (.bytes b) h' = .bytes b from fun _ => rfl, show ∀ b, pyVal (.bytes b) h' = .bytes b from fun _ => rfl,
      show ∀ b, pyVal (.bytes b) h' = .bytes b from fun _ => rfl, w2 F] at f
    obtain ⟨h'', f, -⟩ := f
    exact ⟨h'', f⟩

/-- C106, private keys outside of the range (C63): `sign` accepts 0 and q, and returns the same signature for both. -/
theorem C106_sign_range (F n : Nat) (hF : 512 ≤ F) (hn : 739 ≤ n) (h : Heap) (key : Bytes)
    (hk : key = D63.zero ∨ key = D63.big) :
    ∃ h' v, onCurve (ctx (F + 1) (n + 4)) 1 "id-tc26-gost-3410-2012-256-paramSetD" "sign"
      [.bytes key, .bytes D41.dg, .bytes D41.rk] h = ok (.ref v) h' ∧ bytesOf (.ref v) h' = some D63.sig := by
  obtain ⟨b0, b1, b2, b3, b4⟩ := bounds_c256D
  obtain ⟨s, hnew, -, -, -, w1, w2⟩ := C63_statement_false F (le_pow_of_le b4 hF)
  rw [C41_statement_false.1] at hnew
  cases hnew
  obtain ⟨h', me, o, a, -, r⟩ := onCurve_new (name := "id-tc26-gost-3410-2012-256-paramSetD") (c := Curves.c256D)
    (by simp [Curves.builtin]) C41_statement_false.1 rfl b0 b1 (F + 1) n hn h
  rw [r _ _ _ Meth.GOST34102012.sign]
  have f := C104_sign a b0 b1 F n hn b2 (.bytes key) (.bytes D41.dg) (.bytes D41.rk) (by intro w hw; cases hw)
    (fun _ => []) (fun hc => by cases hc)
  have e : (given 1 Curves.c256D).sign F (fun _ => []) (pyVal (.bytes key) h') (pyVal (.bytes D41.dg) h')
      (pyVal (.bytes D41.rk) h') = some (.ok D63.sig) := by
    rcases hk with rfl | rfl
    · rw [← w1]; rfl
    · rw [← w2]; rfl
  rw [e] at f
  obtain ⟨h'', v, f, -, -, e⟩ := f
  exact ⟨h'', v, f, e⟩

/-- C106, public keys which are not on the curve (C64): `verify` returns True for the pair (1, 1), which is not a point
of the curve. -/
theorem C106_key_off_curve (F n : Nat) (hn : 739 ≤ n) (h : Heap) :
    (∀ P : (curve (given 1 Curves.c256D) D41.p).Point, ¬ EncodesPoint (given 1 Curves.c256D) D41.p D64.pk P) ∧
    ∃ h', onCurve (ctx (F + 1) (n + 4)) 1 "id-tc26-gost-3410-2012-256-paramSetD" "verify"
      [.bytes D64.pk, .bytes D64.dg, .bytes D64.sig] h = ok (.bool true) h' := by
  obtain ⟨b0, b1, b2, b3, b4⟩ := bounds_c256D
  obtain ⟨s, hnew, -, w1, w2⟩ := C64_statement_false
  rw [C41_statement_false.1] at hnew
  cases hnew
  refine ⟨w1, ?_⟩
  obtain ⟨h', me, o, a, -, r⟩ := onCurve_new (name := "id-tc26-gost-3410-2012-256-paramSetD") (c := Curves.c256D)
    (by simp [Curves.builtin]) C41_statement_false.1 rfl b0 b1 (F + 1) n hn h
  rw [r _ _ _ Meth.GOST34102012.verify]
  have f := C104_verify a b0 b1 F n hn b2 b3 (.bytes D64.pk) (.bytes D64.dg) (.bytes D64.sig)
  have e : (given 1 Curves.c256D).verify F (pyVal (.bytes D64.pk) h') (pyVal (.bytes D64.dg) h')
      (pyVal (.bytes D64.sig) h') = some (.ok true) := by
    rw [← w2 F]
    rfl
  rw [e] at f
  obtain ⟨l, f⟩ := f
  exact ⟨_, f⟩

/-- C106, parameters of a curve (C45): `new` accepts the composite modulus 2^255 + 1 and the even order 2^255, with
p = 1 modulo q. -/
theorem C106_weak_curve (L n : Nat) (hn : 739 ≤ n) (h : Heap) :
    ∃ h' v, call package L (n + 4) "Signature.new" [.int 1, .dict [("p", .int (2 ^ 255 + 1)), ("a", .int 1), ("b", .int 0),
      ("m", .int 0), ("q", .int (2 ^ 255)), ("x", .int 0), ("y", .int 0)]] h = ok (.ref v) h' := by
  have cd : CurveDict [("p", .int (2 ^ 255 + 1)), ("a", .int 1), ("b", .int 0), ("m", .int 0), ("q", .int (2 ^ 255)),
      ("x", .int 0), ("y", .int 0)] { p := some (2 ^ 255 + 1), a := some 1, b := some 0, m := some 0, q := some (2 ^ 255),
                                      x := some 0, y := some 0 } :=
    ⟨rfl, rfl, rfl, rfl, rfl, rfl, rfl, rfl, rfl, rfl, rfl⟩
  have f := C104_new L n hn h 1 cd (by rw [Option.getD_some]; positivity) (by
    rw [Option.getD_some, show (512 : Nat) = 255 + 257 from rfl, pow_add]
    generalize hx : (2 : Int) ^ 255 = x
    have : 1 ≤ x := by rw [← hx]; exact one_le_pow₀ (by norm_num)
    have : (2 : Int) ≤ 2 ^ 257 := by
      rw [pow_succ]
      have : (1 : Int) ≤ 2 ^ 256 := one_le_pow₀ (by norm_num)
      linarith
    generalize (2 : Int) ^ 257 = y at this
    nlinarith)
  rw [C45_statement_false.1] at f
  obtain ⟨h', me, o, f, -⟩ := f
  exact ⟨h', me, f⟩

end Gost.Src
