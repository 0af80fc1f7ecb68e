import Verif.Props.SourceDefectsSig
import Verif.Props.SourceTogether
import Verif.Props.Together

/-! C107, documents: the hash module and the signature module used one after the other, as they are written. -/

namespace Gost.Src

open Spec (beNat beBytes hashOf)
open SigSrc Sig

/-- The program
`o = gostsignature.new(mode, CURVES_R_1323565_1_024_2019[name])`, `pk = o.public_key_generate(key)`,
`dg = gosthash.new(hash, data=doc).digest()`, `sig = o.sign(key, dg, rk)`,
`dg2 = gosthash.new(hash, data=doc2).digest()`, `o.verify(pk, dg2, sig)`. -/
def signDocument (C : Ctx) (mode : Int) (name hash : String) (key doc rk doc2 : Val) (h : Heap) : Out Val :=
  andThen (evalTable C Signature.curves h) fun T h =>
    match findAttr name T with
    | none => fail .stuck h
    | some d =>
      andThen (C.call "Signature.new" [.int mode, d] h) fun o h =>
        andThen (callMeth C o "public_key_generate" [key] h) fun pk h =>
          andThen (hashOnce C hash doc h) fun dg h =>
            andThen (callMeth C o "sign" [key, dg, rk] h) fun sg h =>
              andThen (hashOnce C hash doc2 h) fun dg2 h => callMeth C o "verify" [pk, dg2, sg] h

theorem signDocument_ok {nc : String × CurveParams} (hnc : nc ∈ Curves.builtin) {mode : Int} {s : Sig}
    (hnew : new mode nc.2 = .ok s) (hpp : nc.2.p.getD 1 = s.p) (h0 : 0 < s.p) (hp : s.p ≤ 2 ^ 512) (q0 : 0 < s.q)
    (hq : s.q ≤ 2 ^ 512) (F n : Nat) (hn : 739 ≤ n) (h : Heap) (hash : String)
    (hh : hash = "streebog512" ∨ hash = "streebog256") (key doc rk doc2 : Val) {d m rkb m2 : Bytes}
    (ek : bytesOf key h = some d) (ed : bytesOf doc h = some m) (er : bytesOf rk h = some rkb)
    (ed2 : bytesOf doc2 h = some m2) (rand : Nat → Bytes)
    (src : rkb = [] → Source rand (F + 2) s.size h) {pk : Bytes}
    (epk : s.publicKeyGenerate F (pyVal key h) = some (.ok pk))
    {ans : Bool} (good : ∀ sig, s.sign F rand (pyVal key h) (.bytearray (hashOf hash m)) (pyVal rk h) = some (.ok sig) →
      s.verify F (.bytearray pk) (.bytearray (hashOf hash m2)) (.bytearray sig) = some (.ok ans)) :
    match s.sign F rand (pyVal key h) (.bytearray (hashOf hash m)) (pyVal rk h) with
    | some (.ok _) => ∃ h', signDocument (ctx (F + 1) (n + 4)) mode nc.1 hash key doc rk doc2 h = ok (.bool ans) h' ∧
        Keeps (if rkb = [] then [0] else []) h h'
    | some (.error e) => ∃ h', signDocument (ctx (F + 1) (n + 4)) mode nc.1 hash key doc rk doc2 h = fail (exc e) h'
    | none => ∃ h', signDocument (ctx (F + 1) (n + 4)) mode nc.1 hash key doc rk doc2 h = fail .fuel h' := by
  obtain ⟨n, rfl⟩ : ∃ k, n = k + 3 := ⟨n - 3, by omega⟩
  obtain ⟨T, l, f1, -, f2⟩ := C104_table (F + 1) (n + 6) h
  obtain ⟨D, f3, cd⟩ := f2 nc hnc
  have f4 := C104_new (F + 1) (n + 3) hn (h ++ l) mode cd (by rw [hpp]; exact h0) (by rw [hpp]; exact hp)
  rw [hnew] at f4
  obtain ⟨h1, me, o, f4, x1, l1, -, a1, -⟩ := f4
  have k1 : Keeps [] h h1 := (((Ext.refl h).add l).trans x1).keeps []
  have f5 := C104_public_key a1 h0 hp F (n + 3) hn key
  rw [keeps_pyVal k1 ek, epk] at f5
  obtain ⟨h2, v, f5, k2, l2, b2⟩ := f5
  have a2 : SigCell s me o h2 := k2.get a1 (by simp)
  have k12 := k1.trans k2
  obtain ⟨r, w, f6, hr, b6⟩ := (C97_standard (F + 1) n h2 hash hh doc m (k12.bytes ed)).elim
  have a6 : SigCell s me o (h2 ++ w) := a2.mono w
  have k6 : Keeps [] h (h2 ++ w) := k12.add w
  have b2' : bytesOf (.ref v) (h2 ++ w) = some pk := (((Ext.refl h2).add w).keeps []).bytes b2
  have er2 := k6.bytes er
  have emp : ((pyVal rk h).isEmpty = true) = (rkb = []) := by
    rw [← pyVal_empty, er]
    simp
  have f7 := C104_sign a6 h0 hp F (n + 3) hn q0 key (.ref r) rk (fun w hw => by
    subst hw
    exact get_lt (Streebog.get_of_bytes er2)) rand (fun hc => by
      rw [keeps_pyVal k6 er, emp] at hc
      obtain ⟨l', e⟩ := k6.ext
      rw [e]
      exact (src hc).mono l')
  have e6 : pyVal (.ref r) (h2 ++ w) = .bytearray (hashOf hash m) := by simp only [pyVal, b6]
  rw [keeps_pyVal k6 ek, e6, keeps_pyVal k6 er] at f7
  simp only [emp] at f7
  have run : signDocument (ctx (F + 1) (n + 3 + 4)) mode nc.1 hash key doc rk doc2 h =
      andThen (call package (F + 1) (n + 3 + 4) "GOST34102012.sign" [.ref me, key, .ref r, rk] (h2 ++ w)) fun sg h =>
        andThen (hashOnce (ctx (F + 1) (n + 7)) hash doc2 h) fun dg2 h =>
          callMeth (ctx (F + 1) (n + 3 + 4)) (.ref me) "verify" [.ref v, dg2, sg] h := by
    unfold signDocument
    rw [show evalTable (ctx (F + 1) (n + 3 + 4)) Signature.curves h = ok T (h ++ l) from f1, andThen_ok]
    simp only [f3]
    rw [show (ctx (F + 1) (n + 3 + 4)).call "Signature.new" [.int mode, .dict D] (h ++ l) = ok (.ref me) h1 from f4,
      andThen_ok, callMeth_sig a1 Meth.GOST34102012.public_key_generate, f5, andThen_ok,
      show hashOnce (ctx (F + 1) (n + 3 + 4)) hash doc h2 = ok (.ref r) (h2 ++ w) from f6, andThen_ok,
      callMeth_sig a6 Meth.GOST34102012.sign]
  rw [run]
  clear run f1 f2 f3 f4 f5 f6
  generalize s.sign F rand (pyVal key h) (.bytearray (hashOf hash m)) (pyVal rk h) = res at f7 good
  match res, f7, good with
  | none, ⟨h3, f7, k3⟩, _ => exact ⟨h3, by rw [f7]; rfl⟩
  | some (.error e), ⟨h3, f7, k3⟩, _ => exact ⟨h3, by rw [f7]; rfl⟩
  | some (.ok sig), ⟨h3, w', f7, k3, l3, b3⟩, good =>
    have a3 : SigCell s me o h3 := k3.get a6 (by
      split
      · rename_i hc
        obtain ⟨⟨l', e⟩, -⟩ := src hc
        have := get_lt e
        simp only [List.length_append] at l1
        simp only [List.mem_singleton]
        omega
      · simp)
    have k63 := (k6.mono (W' := if rkb = [] then [0] else []) (by simp)).trans k3
    obtain ⟨r8, w8, f8, hr8, b8⟩ := (C97_standard (F + 1) n h3 hash hh doc2 m2 (k63.bytes ed2)).elim
    have x8 := ((Ext.refl h3).add w8).keeps []
    have f9 := C104_verify (a3.mono w8) h0 hp F (n + 3) hn q0 hq (.ref v) (.ref r8) (.ref w')
    have e1 : pyVal (.ref v) (h3 ++ w8) = .bytearray pk := by simp only [pyVal, x8.bytes (k3.bytes b2')]
    have e2 : pyVal (.ref w') (h3 ++ w8) = .bytearray sig := by simp only [pyVal, x8.bytes b3]
    have e3 : pyVal (.ref r8) (h3 ++ w8) = .bytearray (hashOf hash m2) := by simp only [pyVal, b8]
    rw [e1, e2, e3, good sig rfl] at f9
    obtain ⟨l9, f9⟩ := f9
    refine ⟨_, by rw [f7, andThen_ok, f8, andThen_ok, callMeth_sig (a3.mono w8) Meth.GOST34102012.verify, f9], ?_⟩
    exact (k63.add w8).add l9

/-- C107, documents: for every curve of the table, with the hash function of its size, every private key 0 < d < q (but
q - 1 for 256-paramSetD), every document and every random number, given or from the source: the program returns nothing
else than True. If the standard has a signature for the random number, it returns True. -/
theorem C107_document : ∀ nc ∈ Curves.builtin, ∃ (mode : Int) (s : Sig) (p q : Nat) (_ : Fact p.Prime)
    (P : (curve s p).Point), (mode = 1 ∨ mode = 2) ∧ new mode nc.2 = .ok s ∧ Good s p q P ∧
    ∀ (F n : Nat), 512 ≤ F → 739 ≤ n → ∀ (h : Heap) (key doc rk doc2 : Val) (d m rkb : Bytes), bytesOf key h = some d →
      d.length = s.size → 0 < beNat d → beNat d < q →
      ¬ (nc.1 = "id-tc26-gost-3410-2012-256-paramSetD" ∧ beNat d = q - 1) → bytesOf doc h = some m →
      bytesOf doc2 h = some m → bytesOf rk h = some rkb →
      (∀ rand, (rkb = [] → Source rand (F + 2) s.size h) → ∀ v h',
        signDocument (ctx (F + 1) (n + 4)) mode nc.1 (hashFor mode) key doc rk doc2 h = ok v h' → v = .bool true) ∧
      (∀ r sg, rkb ≠ [] → StdSign s p q P (beNat d) (stdE q (hashOf (hashFor mode) m)) (beNat rkb) r sg →
        ∃ h', signDocument (ctx (F + 1) (n + 4)) mode nc.1 (hashFor mode) key doc rk doc2 h = ok (.bool true) h' ∧
          Keeps [] h h') := by
  intro nc hnc
  obtain ⟨mode, s, p, q, ip, P, hm, hnew, hsz, hpp, hg, rt⟩ := builtin_all nc hnc
  refine ⟨mode, s, p, q, ip, P, hm, hnew, hg, ?_⟩
  intro F n hF hn h key doc rk doc2 d m rkb ek ld d0 dq nex ed ed2 er
  obtain ⟨s', hnew', -, rt⟩ := rt
  rw [hnew] at hnew'
  cases hnew'
  have hs : s.size ≤ 64 := by rw [hsz]; split <;> omega
  obtain ⟨b0, b1, b2, b3, b4⟩ := good_bounds hg hs
  have hqF : q ≤ 2 ^ F := le_pow_of_le b4 hF
  obtain ⟨pk, lpk, epk, rt⟩ := rt (pyVal key h) d (by rw [pyVal_data, ek]) ld d0 dq nex
  have hh : hashFor mode = "streebog512" ∨ hashFor mode = "streebog256" := hashFor_name mode
  have core := fun rand src => signDocument_ok hnc hnew hpp b0 b1 b2 b3 F n hn h (hashFor mode) hh key doc rk doc2 ek ed er
    ed2 rand src (epk F hqF)
    (fun sig hsig => rt _ _ _ _ _ hsig (.bytearray pk) (.bytearray sig) rfl rfl F hqF)
  constructor
  · intro rand src v h' e
    have c := core rand src
    generalize s.sign F rand (pyVal key h) (.bytearray (hashOf (hashFor mode) m)) (pyVal rk h) = res at c
    match res, c with
    | none, ⟨_, c⟩ => rw [c] at e; cases e
    | some (.error _), ⟨_, c⟩ => rw [c] at e; cases e
    | some (.ok _), ⟨_, c, _⟩ =>
      rw [c] at e
      cases e
      rfl
  · intro r sg hne st
    have c := core (fun _ => []) (fun hc => absurd hc hne)
    have hsize : (hashOf (hashFor mode) m).length = s.size := by
      rw [C26_digest_size _ (hashFor_name mode), hsz]
      rcases hm with rfl | rfl <;> rfl
    rw [C41_sign_returns hg (by rw [pyVal_data, ek]) ld rfl hsize (by rw [pyVal_data, er]) hne _ st F hqF,
      if_neg hne] at c
    exact c

/-! The hypotheses of the second part: 256-paramSetB, the private key 1, the first message of the hash standard, k = 1. -/

example : ∃ P, Good (given 1 Curves.c256B) B42.p B42.q P ∧ ∃ sg, StdSign (given 1 Curves.c256B) B42.p B42.q P
    (beNat (beBytes 32 1)) (stdE B42.q (hashOf (hashFor 1) ex1)) (beNat (beBytes 32 1)) 1 sg := by
  obtain ⟨P, hg⟩ : ∃ P, Good (given 1 Curves.c256B) B42.p B42.q P := good_c256B
  refine ⟨P, hg, _, by decide, by decide, ?_, by omega, rfl, ?_⟩
  · have e1 : beNat (beBytes 32 1) = 1 := by decide +kernel
    obtain ⟨-, -, -, -, hns, hP⟩ := hg.base
    refine ⟨_, _, hns, by rw [e1, one_nsmul]; exact hP, ?_⟩
    rw [show (given 1 Curves.c256B).x = ((1 : Nat) : Int) from rfl]
    decide +kernel
  · rw [show hashFor 1 = "streebog256" from rfl, hashOf_ex1]
    decide +kernel

end Gost.Src
