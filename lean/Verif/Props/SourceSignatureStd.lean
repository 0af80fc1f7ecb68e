import Verif.Props.SourceSignature

/-! C105: the text of `gost_34_10_2012.py` computes the signature of GOST R 34.10-2012, and with the curves of the package
it accepts what it has signed. -/

namespace Gost.Src

open Spec (beNat beBytes)
open SigSrc Sig

/-! ### The methods -/

section
variable {s : Sig} {p q : Nat} [Fact p.Prime] {P : (curve s p).Point} {me o : Nat} {h : Heap}

theorem good_bounds (hg : Good s p q P) (hs : s.size ≤ 64) :
    0 < s.p ∧ s.p ≤ 2 ^ 512 ∧ 0 < s.q ∧ s.q ≤ 2 ^ 512 ∧ q ≤ 2 ^ 512 := by
  have e : 256 ^ s.size ≤ 2 ^ 512 := by
    rw [show (2 : Nat) ^ 512 = 256 ^ 64 from by rw [show 256 = 2 ^ 8 from rfl, ← pow_mul]]
    exact Nat.pow_le_pow_right (by norm_num) hs
  have h1 := (Fact.out : p.Prime).pos
  have h2 := hg.qprime.pos
  have h3 := hg.size
  have h4 := hg.qsize
  rw [hg.hp, hg.hq]
  generalize hN : (2 : Nat) ^ 512 = N at *
  have hN' : (2 : Int) ^ 512 = N := by rw [← hN]; push_cast; rfl
  rw [hN']
  omega

variable (a : SigCell s me o h) (hg : Good s p q P) (hs : s.size ≤ 64) {F n : Nat} (hF : 512 ≤ F) (hn : 739 ≤ n)
include a hg hs hF hn

/-- C105, `public_key_generate` as it is written, for a private key 0 < d < q: a new byte array with the coordinates of
d*P. Nothing else is changed. -/
theorem C105_public_key {kv : Val} {d : Bytes} (ek : bytesOf kv h = some d) (ld : d.length = s.size)
    (h0 : 0 < beNat d) (hq : beNat d < q) :
    ∃ h' v b, call package (F + 1) (n + 4) "GOST34102012.public_key_generate" [.ref me, kv] h = ok (.ref v) h' ∧
      Keeps [] h h' ∧ h.length ≤ v ∧ bytesOf (.ref v) h' = some b ∧ EncodesPoint s p b (beNat d • P) := by
  obtain ⟨b0, b1, b2, b3, b4⟩ := good_bounds hg hs
  have f := C104_public_key a b0 b1 F n hn kv
  obtain ⟨b, e1, e2⟩ := C43_private_key (sk := pyVal kv h) hg (by rw [pyVal_data, ek]) ld h0 hq
  rw [e2 F (b4.trans (Nat.pow_le_pow_right (Nat.succ_pos 1) hF))] at f
  obtain ⟨h', v, g1, g2, g3, g4⟩ := f
  exact ⟨h', v, b, g1, g2, g3, g4, e1⟩

/-- C105, `sign` as it is written with an explicit random number: if the standard has a signature (r, s) for it, the result
is a new byte array with r and s. Nothing else is changed. -/
theorem C105_sign {kv dv rv : Val} {d dg rk : Bytes} (ek : bytesOf kv h = some d) (ld : d.length = s.size)
    (ed : bytesOf dv h = some dg) (ldg : dg.length = s.size) (er : bytesOf rv h = some rk) (hne : rk ≠ []) {r sg : Nat}
    (st : StdSign s p q P (beNat d) (stdE q dg) (beNat rk) r sg) :
    ∃ h' v, call package (F + 1) (n + 4) "GOST34102012.sign" [.ref me, kv, dv, rv] h = ok (.ref v) h' ∧
      Keeps [] h h' ∧ h.length ≤ v ∧ bytesOf (.ref v) h' = some (beBytes s.size r ++ beBytes s.size sg) := by
  obtain ⟨b0, b1, b2, b3, b4⟩ := good_bounds hg hs
  have nr : (pyVal rv h).isEmpty = false := by
    rw [← pyVal_empty, er]
    cases rk with
    | nil => exact absurd rfl hne
    | cons x l => rfl
  have f := C104_sign a b0 b1 F n hn b2 kv dv rv (fun w hw => by
    subst hw
    exact get_lt (Streebog.get_of_bytes er)) (fun _ => []) (fun hc => by rw [nr] at hc; cases hc)
  rw [C41_sign_returns hg (by rw [pyVal_data, ek]) ld (by rw [pyVal_data, ed]) ldg (by rw [pyVal_data, er]) hne _ st F
    (b4.trans (Nat.pow_le_pow_right (Nat.succ_pos 1) hF)), nr] at f
  exact f

/-- C105, `verify` as it is written: the answer of the standard, for the point which the code uses for the key (the base
point if the x coordinate of the key is 0), if z1*P + z2*Q is not the point at infinity. Nothing is changed. -/
theorem C105_verify {kv dv gv : Val} {pk dg sig : Bytes} (ek : bytesOf kv h = some pk) (lk : pk.length = s.size * 2)
    (ed : bytesOf dv h = some dg) (ld : dg.length = s.size) (eg : bytesOf gv h = some sig) (lg : sig.length = s.size * 2)
    {Q : (curve s p).Point} (hk : KeyPoint s p P pk Q) (ho : addOrderOf Q = q)
    (hO : stdPoint s p q P Q (stdE q dg) (beNat (sig.take s.size)) (beNat (sig.drop s.size)) ≠ 0) :
    ∃ l v, call package (F + 1) (n + 4) "GOST34102012.verify" [.ref me, kv, dv, gv] h = ok (.bool v) (h ++ l) ∧
      (v = true ↔ StdVerify s p q P Q (stdE q dg) (beNat (sig.take s.size)) (beNat (sig.drop s.size))) := by
  obtain ⟨b0, b1, b2, b3, b4⟩ := good_bounds hg hs
  have f := C104_verify a b0 b1 F n hn b2 b3 kv dv gv
  obtain ⟨v, e1, e2⟩ := C42_key_point (pkv := pyVal kv h) (dgv := pyVal dv h) (sigv := pyVal gv h) hg
    (by rw [pyVal_data, ek]) lk (by rw [pyVal_data, ed]) ld (by rw [pyVal_data, eg]) lg hk ho hO
  rw [e2 F (b4.trans (Nat.pow_le_pow_right (Nat.succ_pos 1) hF))] at f
  obtain ⟨l, g⟩ := f
  exact ⟨l, v, g, e1⟩

end

/-! ### The curves of the package -/

/-- The program
`o = new(mode, CURVES_R_1323565_1_024_2019[name])`, `pk = o.public_key_generate(key)`,
`sig = o.sign(key, digest, rand_k)`, `o.verify(pk, digest, sig)`. -/
def signVerify (C : Ctx) (mode : Int) (name : String) (key dg rk : Val) (h : Heap) : Out Val :=
  andThen (evalTable C Signature.curves h) fun T h =>
    match findAttr name T with
    | none => fail .stuck h
    | some d =>
      andThen (C.call "Signature.new" [.int mode, d] h) fun o h =>
        andThen (callMeth C o "public_key_generate" [key] h) fun pk h =>
          andThen (callMeth C o "sign" [key, dg, rk] h) fun sg h => callMeth C o "verify" [pk, dg, sg] h

theorem callMeth_sig {L n : Nat} {s : Sig} {me o : Nat} {h : Heap} (a : SigCell s me o h) {m f : String}
    (hm : package.method "GOST34102012" m = some (f, false)) (args : List Val) :
    callMeth (ctx L n) (.ref me) m args h = call package L n f (.ref me :: args) h := by
  unfold SigCell at a
  simp only [callMeth, a, ctx, hm, Bool.false_eq_true, if_false]

theorem keeps_pyVal {W : List Nat} {h h' : Heap} (k : Keeps W h h') {v : Val} {b : Bytes} (e : bytesOf v h = some b) :
    pyVal v h' = pyVal v h := by
  cases v with
  | ref r => simp only [pyVal, e, k.bytes e]
  | _ => rfl

/-- What is known about each curve of the package. -/
theorem builtin_all : ∀ nc ∈ Curves.builtin, ∃ (mode : Int) (s : Sig) (p q : Nat) (_ : Fact p.Prime)
    (P : (curve s p).Point), (mode = 1 ∨ mode = 2) ∧ new mode nc.2 = .ok s ∧ s.size = (if mode = 1 then 32 else 64) ∧
      nc.2.p.getD 1 = s.p ∧ Good s p q P ∧
      RoundTrips mode nc.2 q (fun d => nc.1 = "id-tc26-gost-3410-2012-256-paramSetD" ∧ d = q - 1) := by
  intro nc hnc
  simp only [Curves.builtin, List.mem_cons, List.not_mem_nil, or_false] at hnc
  rcases hnc with rfl | rfl | rfl | rfl | rfl | rfl | rfl
  · obtain ⟨P, hg⟩ := good_c256B
    exact ⟨1, given 1 Curves.c256B, _, _, _, P, .inl rfl, new_builtin 1 "id-tc26-gost-3410-2012-256-paramSetB" _ (.inl rfl)
      (by simp [Curves.builtin]) (by decide +kernel), rfl, rfl, hg, C59_paramSetB.mono fun _ h => h.elim⟩
  · obtain ⟨P, hg⟩ := good_c256C
    exact ⟨1, given 1 Curves.c256C, _, _, _, P, .inl rfl, new_builtin 1 "id-tc26-gost-3410-2012-256-paramSetC" _ (.inl rfl)
      (by simp [Curves.builtin]) (by decide +kernel), rfl, rfl, hg, C59_paramSetC.mono fun _ h => h.elim⟩
  · obtain ⟨P, hg⟩ := good_c256D
    exact ⟨1, given 1 Curves.c256D, _, _, _, P, .inl rfl, new_builtin 1 "id-tc26-gost-3410-2012-256-paramSetD" _ (.inl rfl)
      (by simp [Curves.builtin]) (by decide +kernel), rfl, rfl, hg, C59_paramSetD.mono fun _ h => ⟨rfl, h⟩⟩
  · obtain ⟨P, hg⟩ := good_c512A
    exact ⟨2, given 2 Curves.c512A, _, _, _, P, .inr rfl, new_builtin 2 "id-tc26-gost-3410-12-512-paramSetA" _ (.inr rfl)
      (by simp [Curves.builtin]) (by decide +kernel), rfl, rfl, hg, C59_paramSet512A.mono fun _ h => h.elim⟩
  · obtain ⟨P, hg⟩ := good_c512B
    exact ⟨2, given 2 Curves.c512B, _, _, _, P, .inr rfl, new_builtin 2 "id-tc26-gost-3410-12-512-paramSetB" _ (.inr rfl)
      (by simp [Curves.builtin]) (by decide +kernel), rfl, rfl, hg, C59_paramSet512B.mono fun _ h => h.elim⟩
  · obtain ⟨P, hg⟩ := good_c256A
    exact ⟨1, given 1 Curves.c256A, _, _, _, P, .inl rfl, new_builtin 1 "id-tc26-gost-3410-2012-256-paramSetA" _ (.inl rfl)
      (by simp [Curves.builtin]) (by decide +kernel), rfl, rfl, hg, C59_paramSetA.mono fun _ h => h.elim⟩
  · obtain ⟨P, hg⟩ := good_c512C
    exact ⟨2, given 2 Curves.c512C, _, _, _, P, .inr rfl, new_builtin 2 "id-tc26-gost-3410-2012-512-paramSetC" _ (.inr rfl)
      (by simp [Curves.builtin]) (by decide +kernel), rfl, rfl, hg, C59_paramSet512C.mono fun _ h => h.elim⟩

/-- The result of the program with the methods of the model. -/
theorem signVerify_ok {nc : String × CurveParams} (hnc : nc ∈ Curves.builtin) {mode : Int} {s : Sig}
    (hnew : new mode nc.2 = .ok s) (hpp : nc.2.p.getD 1 = s.p) (h0 : 0 < s.p) (hp : s.p ≤ 2 ^ 512) (q0 : 0 < s.q)
    (hq : s.q ≤ 2 ^ 512) (F n : Nat) (hn : 739 ≤ n) (h : Heap) (key dg rk : Val) {d dgb rkb : Bytes}
    (ek : bytesOf key h = some d) (ed : bytesOf dg h = some dgb) (er : bytesOf rk h = some rkb) (rand : Nat → Bytes)
    (src : rkb = [] → Source rand (F + 2) s.size h) {pk : Bytes}
    (epk : s.publicKeyGenerate F (pyVal key h) = some (.ok pk))
    {ans : Bool} (good : ∀ sig, s.sign F rand (pyVal key h) (pyVal dg h) (pyVal rk h) = some (.ok sig) →
      s.verify F (.bytearray pk) (pyVal dg h) (.bytearray sig) = some (.ok ans)) :
    match s.sign F rand (pyVal key h) (pyVal dg h) (pyVal rk h) with
    | some (.ok _) => ∃ h', signVerify (ctx (F + 1) (n + 4)) mode nc.1 key dg rk h = ok (.bool ans) h' ∧
        Keeps (if rkb = [] then [0] else []) h h'
    | some (.error e) => ∃ h', signVerify (ctx (F + 1) (n + 4)) mode nc.1 key dg rk h = fail (exc e) h'
    | none => ∃ h', signVerify (ctx (F + 1) (n + 4)) mode nc.1 key dg rk h = fail .fuel h' := by
  obtain ⟨T, l, f1, -, f2⟩ := C104_table (F + 1) (n + 3) h
  obtain ⟨D, f3, cd⟩ := f2 nc hnc
  have f4 := C104_new (F + 1) n hn (h ++ l) mode cd (by rw [hpp]; exact h0) (by rw [hpp]; exact hp)
  rw [hnew] at f4
  obtain ⟨h1, me, o, f4, x1, l1, -, a1, -⟩ := f4
  have k1 : Keeps [] h h1 := (((Ext.refl h).add l).trans x1).keeps []
  have f5 := C104_public_key a1 h0 hp F n hn key
  rw [keeps_pyVal k1 ek, epk] at f5
  obtain ⟨h2, v, f5, k2, l2, b2⟩ := f5
  have a2 : SigCell s me o h2 := k2.get a1 (by simp)
  have k12 := k1.trans k2
  have er2 := k12.bytes er
  have emp : ((pyVal rk h).isEmpty = true) = (rkb = []) := by
    rw [← pyVal_empty, er]
    simp
  have f6 := C104_sign a2 h0 hp F n hn q0 key dg rk (fun w hw => by
    subst hw
    exact get_lt (Streebog.get_of_bytes er2)) rand (fun hc => by
      rw [keeps_pyVal k12 er, emp] at hc
      obtain ⟨l', e⟩ := k12.ext
      rw [e]
      exact (src hc).mono l')
  rw [keeps_pyVal k12 ek, keeps_pyVal k12 ed, keeps_pyVal k12 er] at f6
  simp only [emp] at f6
  have run : signVerify (ctx (F + 1) (n + 4)) mode nc.1 key dg rk h =
      andThen (call package (F + 1) (n + 4) "GOST34102012.sign" [.ref me, key, dg, rk] h2) fun sg h =>
        callMeth (ctx (F + 1) (n + 4)) (.ref me) "verify" [.ref v, dg, sg] h := by
    unfold signVerify
    rw [show evalTable (ctx (F + 1) (n + 4)) Signature.curves h = ok T (h ++ l) from f1, andThen_ok]
    simp only [f3]
    rw [show (ctx (F + 1) (n + 4)).call "Signature.new" [.int mode, .dict D] (h ++ l) = ok (.ref me) h1 from f4, andThen_ok,
      callMeth_sig a1 Meth.GOST34102012.public_key_generate, f5, andThen_ok,
      callMeth_sig a2 Meth.GOST34102012.sign]
  rw [run]
  clear run f1 f2 f3 f4 f5
  generalize s.sign F rand (pyVal key h) (pyVal dg h) (pyVal rk h) = res at f6 good
  match res, f6, good with
  | none, ⟨h3, f6, k3⟩, _ => exact ⟨h3, by rw [f6]; rfl⟩
  | some (.error e), ⟨h3, f6, k3⟩, _ => exact ⟨h3, by rw [f6]; rfl⟩
  | some (.ok sig), ⟨h3, w, f6, k3, l3, b3⟩, good =>
    have a3 : SigCell s me o h3 := k3.get a2 (by
      split
      · rename_i hc
        obtain ⟨⟨l', e⟩, -⟩ := src hc
        have := get_lt e
        simp only [List.length_append] at l1
        simp only [List.mem_singleton]
        omega
      · simp)
    have f7 := C104_verify a3 h0 hp F n hn q0 hq (.ref v) dg (.ref w)
    have e1 : pyVal (.ref v) h3 = .bytearray pk := by simp only [pyVal, k3.bytes b2]
    have e2 : pyVal (.ref w) h3 = .bytearray sig := by simp only [pyVal, b3]
    rw [e1, e2, keeps_pyVal (k12.mono (W' := if rkb = [] then [0] else []) (by simp) |>.trans k3) ed, good sig rfl] at f7
    obtain ⟨l7, f7⟩ := f7
    refine ⟨_, by rw [f6, andThen_ok, callMeth_sig a3 Meth.GOST34102012.verify, f7], ?_⟩
    exact ((k12.mono (W' := if rkb = [] then [0] else []) (by simp)).trans k3).add l7

/-- C105, the curves of the package: for each curve of the table as it is written the program which makes the object, the
public key and a signature and verifies it returns nothing else than True, for all private keys 0 < d < q, all digests and
all random numbers, also those from the source, except for the key q - 1 of paramSetD. With an explicit random number for
which the standard has a signature it returns True. -/
theorem C105_run : ∀ nc ∈ Curves.builtin, ∃ (mode : Int) (s : Sig) (p q : Nat) (_ : Fact p.Prime) (P : (curve s p).Point),
    (mode = 1 ∨ mode = 2) ∧ new mode nc.2 = .ok s ∧ s.size = (if mode = 1 then 32 else 64) ∧ Good s p q P ∧
    ∀ (F n : Nat), 512 ≤ F → 739 ≤ n → ∀ (h : Heap) (key dg rk : Val) (d dgb rkb : Bytes), bytesOf key h = some d →
      d.length = s.size → 0 < beNat d → beNat d < q →
      ¬ (nc.1 = "id-tc26-gost-3410-2012-256-paramSetD" ∧ beNat d = q - 1) → bytesOf dg h = some dgb →
      bytesOf rk h = some rkb →
      (∀ rand, (rkb = [] → Source rand (F + 2) s.size h) → ∀ v h',
        signVerify (ctx (F + 1) (n + 4)) mode nc.1 key dg rk h = ok v h' → v = .bool true) ∧
      (∀ r sg, dgb.length = s.size → rkb ≠ [] → StdSign s p q P (beNat d) (stdE q dgb) (beNat rkb) r sg →
        ∃ h', signVerify (ctx (F + 1) (n + 4)) mode nc.1 key dg rk h = ok (.bool true) h' ∧ Keeps [] h h') := by
  intro nc hnc
  obtain ⟨mode, s, p, q, ip, P, hm, hnew, hsz, hpp, hg, rt⟩ := builtin_all nc hnc
  refine ⟨mode, s, p, q, ip, P, hm, hnew, hsz, hg, ?_⟩
  intro F n hF hn h key dg rk d dgb rkb ek ld d0 dq nex ed er
  obtain ⟨s', hnew', -, rt⟩ := rt
  rw [hnew] at hnew'
  cases hnew'
  have hs : s.size ≤ 64 := by rw [hsz]; split <;> omega
  obtain ⟨b0, b1, b2, b3, b4⟩ := good_bounds hg hs
  have hqF : q ≤ 2 ^ F := b4.trans (Nat.pow_le_pow_right (Nat.succ_pos 1) hF)
  obtain ⟨pk, lpk, epk, rt⟩ := rt (pyVal key h) d (by rw [pyVal_data, ek]) ld d0 dq nex
  have core := fun rand src => signVerify_ok hnc hnew hpp b0 b1 b2 b3 F n hn h key dg rk ek ed er rand src (epk F hqF)
    (fun sig hsig => rt _ _ _ _ _ hsig (.bytearray pk) (.bytearray sig) rfl rfl F hqF)
  constructor
  · intro rand src v h' e
    have c := core rand src
    generalize s.sign F rand (pyVal key h) (pyVal dg h) (pyVal rk h) = res at c
    match res, c with
    | none, ⟨_, c⟩ => rw [c] at e; cases e
    | some (.error _), ⟨_, c⟩ => rw [c] at e; cases e
    | some (.ok _), ⟨_, c, _⟩ =>
      rw [c] at e
      cases e
      rfl
  · intro r sg ldg hne st
    have c := core (fun _ => []) (fun hc => absurd hc hne)
    rw [C41_sign_returns hg (by rw [pyVal_data, ek]) ld (by rw [pyVal_data, ed]) ldg (by rw [pyVal_data, er]) hne _ st F hqF,
      if_neg hne] at c
    exact c

/-- C105, the exception is needed: for the key q - 1 of paramSetD, a digest and k = 2, whatever else is in the memory, the
program returns False. -/
theorem C105_excluded (F n : Nat) (hF : 512 ≤ F) (hn : 739 ≤ n) (h : Heap) :
    ∃ h', signVerify (ctx (F + 1) (n + 4)) 1 "id-tc26-gost-3410-2012-256-paramSetD" (.bytes D41.sk) (.bytes D41.dg)
      (.bytes D41.rk) h = ok (.bool false) h' := by
  obtain ⟨hnew, ⟨P, hg⟩, w⟩ := C41_statement_false
  obtain ⟨b0, b1, b2, b3, b4⟩ := good_bounds hg (show (32 : Nat) ≤ 64 by omega)
  obtain ⟨w1, w2, w3⟩ := w F (b4.trans (Nat.pow_le_pow_right (Nat.succ_pos 1) hF))
  have hne : D41.rk ≠ [] := by decide
  have c := signVerify_ok (nc := ("id-tc26-gost-3410-2012-256-paramSetD", Curves.c256D)) (by simp [Curves.builtin]) hnew rfl
    b0 b1 b2 b3 F n hn h (.bytes D41.sk) (.bytes D41.dg) (.bytes D41.rk) rfl rfl rfl (fun _ => [])
    (fun hc => absurd hc hne) (pk := D41.pk) (by rw [← w1]; rfl) (ans := false) (by
      intro sig hsig
      have e : (given 1 Curves.c256D).sign F (fun _ => []) (.bytes D41.sk) (.bytes D41.dg) (.bytes D41.rk) =
        some (.ok sig) := hsig
      have e' : (given 1 Curves.c256D).sign F (fun _ => []) (.bytes D41.sk) (.bytes D41.dg) (.bytes D41.rk) =
        some (.ok D41.sig) := by rw [← w2]; rfl
      rw [e'] at e
      cases e
      rw [← w3]
      rfl)
  have e' : (given 1 Curves.c256D).sign F (fun _ => []) (pyVal (.bytes D41.sk) h) (pyVal (.bytes D41.dg) h)
      (pyVal (.bytes D41.rk) h) = some (.ok D41.sig) := by rw [← w2]; rfl
  rw [e'] at c
  obtain ⟨h', c, -⟩ := c
  exact ⟨h', c⟩

/-- The hypotheses of `C105_sign` in a case: on paramSetB with d = 1, a digest of zeros and k = 1 the signature is (1, 2),
because the base point has the x coordinate 1. -/
example (F n : Nat) (hF : 512 ≤ F) (hn : 739 ≤ n) (o : Nat) :
    let h : Heap := [.inst "GOST34102012" (sigAttrs (given 1 Curves.c256B) o), .bytearray (beBytes 32 1),
      .bytearray (beBytes 32 0)]
    ∃ h' v, call package (F + 1) (n + 4) "GOST34102012.sign" [.ref 0, .ref 1, .ref 2, .ref 1] h = ok (.ref v) h' ∧
      Keeps [] h h' ∧ bytesOf (.ref v) h' = some (beBytes 32 1 ++ beBytes 32 2) := by
  intro h
  obtain ⟨P, hg⟩ : ∃ P, Good (given 1 Curves.c256B) B42.p B42.q P := good_c256B
  have e1 : beNat (beBytes 32 1) = 1 := by decide +kernel
  have e0 : stdE B42.q (beBytes 32 0) = 1 := by decide +kernel
  obtain ⟨h', v, c1, c2, -, c3⟩ := C105_sign (me := 0) (o := o) (h := h) rfl hg (show (32 : Nat) ≤ 64 by omega) hF hn
    (kv := .ref 1) (dv := .ref 2) (rv := .ref 1) (d := beBytes 32 1) (dg := beBytes 32 0) (rk := beBytes 32 1) rfl rfl rfl
    rfl rfl (by decide) (r := 1) (sg := 2) (by
      rw [e1, e0]
      refine ⟨by omega, by decide, ?_, by omega, by decide +kernel, by omega⟩
      obtain ⟨-, -, -, -, hns, hP⟩ := hg.base
      refine ⟨_, _, hns, by rw [one_nsmul]; exact hP, ?_⟩
      rw [show (given 1 Curves.c256B).x = ((1 : Nat) : Int) from rfl]
      decide +kernel)
  exact ⟨h', v, c1, c2, c3⟩

end Gost.Src
