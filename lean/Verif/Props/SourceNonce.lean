import Verif.Props.SourceSigned
import Verif.Props.SignatureNonce

/-! C132: what signatures made by `sign` as it is written say about the private key, if something is known about the
random numbers. -/

namespace Gost.Src
open Spec ModesSrc SigSrc
open Sig (Good StdSign stdE new curve given)

/-- `sign(key, digest, rand_k)` as it is written, called in some memory for an object with the attributes `s`, with the
private key `d`, the digest `dg` and the random number `rk`, returns the byte array `sig`. -/
def Signs (s : Sig) (d dg rk sig : Bytes) : Prop :=
  ∃ (me o : Nat) (h h' : Heap) (F n : Nat) (kv dv rv : Val) (v : Nat), SigCell s me o h ∧ 739 ≤ n ∧
    bytesOf kv h = some d ∧ bytesOf dv h = some dg ∧ bytesOf rv h = some rk ∧ rk ≠ [] ∧
    call package (F + 1) (n + 4) "GOST34102012.sign" [.ref me, kv, dv, rv] h = ok (.ref v) h' ∧
    bytesOf (.ref v) h' = some sig

/-! ### On the equations of the standard -/

theorem std_cast {s : Sig} {p q : Nat} [Fact p.Prime] {P : (curve s p).Point} {d e k r sg : Nat}
    (st : StdSign s p q P d e k r sg) : (sg : ZMod q) = r * d + k * e := by
  obtain ⟨-, -, -, -, a5, -⟩ := st
  rw [a5, ZMod.natCast_mod]
  push_cast
  rfl

theorem std_r {s : Sig} {p q : Nat} [Fact p.Prime] {P : (curve s p).Point} {d d' e e' k r r' sg sg' : Nat}
    (st : StdSign s p q P d e k r sg) (st' : StdSign s p q P d' e' k r' sg') : r = r' := by
  obtain ⟨-, -, ⟨x, y, hn, a2, a3⟩, -⟩ := st
  obtain ⟨-, -, ⟨x', y', hn', b2, b3⟩, -⟩ := st'
  rw [a2] at b2
  rw [← a3, ← b3, Sig.some_inj b2]

theorem std_range {s : Sig} {p q : Nat} [Fact p.Prime] {P : (curve s p).Point} (hq : q.Prime) {d e k r sg : Nat}
    (st : StdSign s p q P d e k r sg) : r < q ∧ sg < q ∧ (r : ZMod q) ≠ 0 := by
  obtain ⟨-, -, ⟨x, y, hn, a2, a3⟩, a4, a5, -⟩ := st
  have hr : r < q := by rw [← a3]; exact Nat.mod_lt _ hq.pos
  refine ⟨hr, by rw [a5]; exact Nat.mod_lt _ hq.pos, ?_⟩
  rw [Ne, ZMod.natCast_eq_zero_iff]
  intro hdv
  have := Nat.le_of_dvd (by omega) hdv
  omega

/-- What a returning call says about the model. -/
theorem bytesResult_ok {W : List Nat} {h h' : Heap} {v : Nat} {R : Option (Res Bytes)} {b : Bytes}
    (f : BytesResult W (ok (.ref v) h') h R) (e : bytesOf (.ref v) h' = some b) : R = some (.ok b) := by
  match R, f with
  | some (.ok b), ⟨h2, w, g1, _, _, g4⟩ =>
    simp only [ok, Prod.mk.injEq, Except.ok.injEq, Val.ref.injEq] at g1
    obtain ⟨rfl, rfl⟩ := g1
    rw [e] at g4
    rw [Option.some.inj g4]
  | some (.error e), ⟨h2, g1, _⟩ => simp [ok, fail] at g1
  | none, ⟨h2, g1, _⟩ => simp [ok, fail] at g1

section
variable {s : Sig} {p q : Nat} [Fact p.Prime] {P : (curve s p).Point} (hg : Good s p q P) (hs : s.size ≤ 64)
include hg hs

/-- C132, `sign` is sound: whatever it returns for an explicit random number is the signature of the standard for it. -/
theorem C132_standard {d dg rk sig : Bytes} (c : Signs s d dg rk sig) :
    d.length = s.size ∧ dg.length = s.size ∧ ∃ r sg, StdSign s p q P (beNat d) (stdE q dg) (beNat rk) r sg ∧
      sig = beBytes s.size r ++ beBytes s.size sg := by
  obtain ⟨me, o, h, h', F, n, kv, dv, rv, v, a, hn, ek, ed, er, hne, hc, hsig⟩ := c
  obtain ⟨b0, b1, b2, -, -⟩ := good_bounds hg hs
  have nr : (pyVal rv h).isEmpty = false := by rw [← Bool.not_eq_true, isEmpty_data, er]; simpa using hne
  have f := C104_sign a b0 b1 F n hn b2 kv dv rv (fun w hw => by
    subst hw
    exact get_lt (Streebog.get_of_bytes er)) (fun _ => []) (fun hc => by rw [nr] at hc; cases hc)
  rw [hc] at f
  have m := bytesResult_ok f hsig
  obtain ⟨l1, l2, rk', r, sg, e1, st, e2⟩ := Sig.C41_sign_std hg (by rw [pyVal_data, ek]) (by rw [pyVal_data, ed]) m
  have k1 : rk' = rk := by
    rw [pyVal_data, er] at e1
    rcases e1 with ⟨e, -⟩ | ⟨e, -⟩
    · exact (Option.some.inj e).symm
    · exact absurd (Option.some.inj e) hne
  rw [k1] at st
  exact ⟨l1, l2, r, sg, st, e2⟩

/-- C132, `sign` without a random number: if the next draws of the source of the system are `rand 0`, `rand 1`, …, whatever
it returns is the signature of the standard for the first draw below q. -/
theorem C132_default {me o : Nat} {h h' : Heap} (a : SigCell s me o h) {F n : Nat} (hn : 739 ≤ n) {kv dv : Val} {d dg sig : Bytes}
    (ek : bytesOf kv h = some d) (ed : bytesOf dv h = some dg) {rand : Nat → Bytes} (src : Source rand (F + 2) s.size h) {v : Nat}
    (hc : call package (F + 1) (n + 4) "GOST34102012.sign" [.ref me, kv, dv] h = ok (.ref v) h')
    (hsig : bytesOf (.ref v) h' = some sig) :
    ∃ i r sg, (∀ j, j < i → q ≤ beNat (rand j)) ∧ beNat (rand i) < q ∧
      StdSign s p q P (beNat d) (stdE q dg) (beNat (rand i)) r sg ∧ sig = beBytes s.size r ++ beBytes s.size sg := by
  obtain ⟨b0, b1, b2, -, -⟩ := good_bounds hg hs
  have old : ∀ {w : Val} {b : Bytes}, bytesOf w h = some b → ∀ x, w = .ref x → x < h.length := fun e x hx => by
    subst hx
    exact get_lt (Streebog.get_of_bytes e)
  have hsz : q < 256 ^ s.size := by
    refine lt_of_le_of_ne hg.qsize fun e => ?_
    have h0 : s.size ≠ 0 := by
      intro h0
      rw [h0, pow_zero] at e
      have := hg.qprime.one_lt
      omega
    have h2 : 2 ∣ q := by rw [e]; exact dvd_pow (by norm_num) h0
    have := hg.qodd
    have := (Nat.prime_dvd_prime_iff_eq Nat.prime_two hg.qprime).1 h2
    omega
  -- the draws which are not there are refused
  have src' : Source (fun j => if j < F + 2 then rand j else beBytes s.size q) (F + 2) s.size h := by
    obtain ⟨⟨l, e⟩, hl⟩ := src
    refine ⟨⟨l, ?_⟩, fun i hi => by simp only [if_pos hi, hl i hi]⟩
    rw [e]
    congr 3
    exact List.map_congr_left fun i hi => by simp only [if_pos (List.mem_range.1 hi)]
  have f := C104_sign_default a b0 b1 F n hn b2 kv dv (old ek) (old ed) _ src'
  rw [hc] at f
  have m := bytesResult_ok f hsig
  obtain ⟨i, i1, i2, i3⟩ := Sig.C60_drawn s F _ _ _ _ rfl sig m
  have hi : i < F + 2 := by
    by_contra hi
    rw [if_neg hi, beNat_beBytes, Nat.mod_eq_of_lt hsz, hg.hq] at i2
    omega
  rw [if_pos hi, hg.hq] at i2
  have ne : rand i ≠ [] := by
    intro e
    have := src.2 i hi
    rw [e] at this
    have := hg.qprime.one_lt
    rw [← ‹([] : Bytes).length = s.size›] at hsz
    simp at hsz
    omega
  simp only [if_pos hi] at i3
  obtain ⟨-, -, rk, r, sg, e1, st, e2⟩ := Sig.C41_sign_std hg (by rw [pyVal_data, ek]) (by rw [pyVal_data, ed])
    (i3 ne (.bytes (rand i)) rfl)
  have k1 : rk = rand i := by
    rcases e1 with ⟨e, -⟩ | ⟨e, -⟩
    · exact (Option.some.inj e).symm
    · exact absurd (Option.some.inj e) ne
  rw [k1] at st
  refine ⟨i, r, sg, fun j hj => ?_, by omega, st, e2⟩
  have := i1 j hj
  rw [if_pos (by omega), hg.hq] at this
  omega

/-- C132, `sign` without a random number returns, if the standard has a signature for the first draw below q. Only the list
of the draws which are left is changed. -/
theorem C132_default_returns {me o : Nat} {h : Heap} (a : SigCell s me o h) {F n : Nat} (hF : 512 ≤ F) (hn : 739 ≤ n)
    {kv dv : Val} {d dg : Bytes} (ek : bytesOf kv h = some d) (ld : d.length = s.size) (ed : bytesOf dv h = some dg)
    (ldg : dg.length = s.size) {rand : Nat → Bytes} (src : Source rand (F + 2) s.size h) {i : Nat} (hi : i ≤ F)
    (before : ∀ j, j < i → q ≤ beNat (rand j)) {r sg : Nat}
    (st : StdSign s p q P (beNat d) (stdE q dg) (beNat (rand i)) r sg) :
    ∃ h' v, call package (F + 1) (n + 4) "GOST34102012.sign" [.ref me, kv, dv] h = ok (.ref v) h' ∧
      Keeps [0] h h' ∧ h.length ≤ v ∧ bytesOf (.ref v) h' = some (beBytes s.size r ++ beBytes s.size sg) := by
  obtain ⟨b0, b1, b2, -, b4⟩ := good_bounds hg hs
  have old : ∀ {w : Val} {b : Bytes}, bytesOf w h = some b → ∀ x, w = .ref x → x < h.length := fun e x hx => by
    subst hx
    exact get_lt (Streebog.get_of_bytes e)
  have f := C104_sign_default a b0 b1 F n hn b2 kv dv (old ek) (old ed) rand src
  have ne : rand i ≠ [] := by
    intro e
    have := st.1
    rw [e] at this
    exact absurd this (by decide)
  have lt : (beNat (rand i) : Int) < s.q := by
    have := st.2.1
    rw [hg.hq]
    omega
  have m := Sig.C41_sign_returns hg (sk := pyVal kv h) (dgv := pyVal dv h) (rkv := .bytes (rand i)) (by rw [pyVal_data, ek]) ld
    (by rw [pyVal_data, ed]) ldg rfl ne rand st F (b4.trans (Nat.pow_le_pow_right (Nat.succ_pos 1) hF))
  rw [Sig.sign_explicit (by rw [pyVal_data, ek]) ld (by rw [pyVal_data, ed]) ldg rfl ne, if_neg (by omega)] at m
  rw [Sig.sign_random (by rw [pyVal_data, ek]) ld (by rw [pyVal_data, ed]) ldg rfl,
    Sig.getRandK_of_first F i rand hi (fun j hj => by have := before j hj; rw [hg.hq]; omega) lt] at f
  simp only [m] at f
  exact f

/-- C132, a known random number: one signature gives away the private key modulo q. -/
theorem C132_known {d dg rk sig : Bytes} (c : Signs s d dg rk sig) :
    (beNat d : ZMod q) = ((beNat (sig.drop s.size) : ZMod q) - beNat rk * stdE q dg) * (beNat (sig.take s.size) : ZMod q)⁻¹ := by
  have : Fact q.Prime := ⟨hg.qprime⟩
  obtain ⟨-, -, r, sg, st, rfl⟩ := C132_standard hg hs c
  obtain ⟨h1, h2, h3⟩ := std_range hg.qprime st
  obtain ⟨p1, p2⟩ := Sig.pair_parts s.size r sg (by have := hg.qsize; omega) (by have := hg.qsize; omega)
  rw [p1, p2, std_cast st, eq_mul_inv_iff_mul_eq₀ h3]
  ring

/-- C132, related random numbers: if k' = u*k + t modulo q for known u and t, the two signatures give away the private key
modulo q, unless r'*e = u*r*e'. The objects, the memories and the kinds of the byte strings may differ. -/
theorem C132_related {d dg dg' rk rk' sig sig' : Bytes} (c : Signs s d dg rk sig) (c' : Signs s d dg' rk' sig') {u t : ZMod q}
    (rel : (beNat rk' : ZMod q) = u * beNat rk + t)
    (hne : (beNat (sig'.take s.size) : ZMod q) * stdE q dg ≠ u * beNat (sig.take s.size) * stdE q dg') :
    (beNat d : ZMod q) =
      ((beNat (sig'.drop s.size) : ZMod q) * stdE q dg - u * beNat (sig.drop s.size) * stdE q dg' - t * stdE q dg * stdE q dg') *
      ((beNat (sig'.take s.size) : ZMod q) * stdE q dg - u * beNat (sig.take s.size) * stdE q dg')⁻¹ := by
  have : Fact q.Prime := ⟨hg.qprime⟩
  obtain ⟨-, -, r, sg, st, rfl⟩ := C132_standard hg hs c
  obtain ⟨-, -, r', sg', st', rfl⟩ := C132_standard hg hs c'
  obtain ⟨h1, h2, h3⟩ := std_range hg.qprime st
  obtain ⟨h1', h2', h3'⟩ := std_range hg.qprime st'
  have hz := hg.qsize
  obtain ⟨p1, p2⟩ := Sig.pair_parts s.size r sg (by omega) (by omega)
  obtain ⟨p3, p4⟩ := Sig.pair_parts s.size r' sg' (by omega) (by omega)
  rw [p1, p3] at hne
  rw [p1, p2, p3, p4, std_cast st, std_cast st', rel, eq_mul_inv_iff_mul_eq₀ (sub_ne_zero.2 hne)]
  ring

omit hs in
theorem stdE_cast_ne {dg dg' : Bytes} (hdiff : stdE q dg ≠ stdE q dg') : (stdE q dg : ZMod q) ≠ stdE q dg' := by
  have hq := hg.qprime.one_lt
  have hstd : ∀ b : Bytes, stdE q b < q := by
    intro b
    unfold stdE
    have := Nat.mod_lt (beNat b) hg.qprime.pos
    split <;> omega
  intro h1
  rw [ZMod.natCast_eq_natCast_iff', Nat.mod_eq_of_lt (hstd _), Nat.mod_eq_of_lt (hstd _)] at h1
  exact hdiff h1

/-- C132, the same random number for two digests which differ modulo q: the signatures begin with the same r, and give
away the private key modulo q. -/
theorem C132_reuse {d dg dg' rk rk' sig sig' : Bytes} (c : Signs s d dg rk sig) (c' : Signs s d dg' rk' sig')
    (same : beNat rk' = beNat rk) (hdiff : stdE q dg ≠ stdE q dg') :
    sig.take s.size = sig'.take s.size ∧
    (beNat d : ZMod q) = ((beNat (sig'.drop s.size) : ZMod q) * stdE q dg - beNat (sig.drop s.size) * stdE q dg') *
      ((beNat (sig.take s.size) : ZMod q) * (stdE q dg - stdE q dg'))⁻¹ := by
  have : Fact q.Prime := ⟨hg.qprime⟩
  have e : sig.take s.size = sig'.take s.size := by
    obtain ⟨-, -, r, sg, st, rfl⟩ := C132_standard hg hs c
    obtain ⟨-, -, r', sg', st', rfl⟩ := C132_standard hg hs c'
    rw [same] at st'
    rw [List.take_left' (by simp), List.take_left' (by simp), std_r st st']
  have r0 : (beNat (sig.take s.size) : ZMod q) ≠ 0 := by
    obtain ⟨-, -, r, sg, st, rfl⟩ := C132_standard hg hs c
    obtain ⟨h1, h2, h3⟩ := std_range hg.qprime st
    rwa [(Sig.pair_parts s.size r sg (by have := hg.qsize; omega) (by have := hg.qsize; omega)).1]
  refine ⟨e, ?_⟩
  have f := C132_related hg hs c c' (u := 1) (t := 0) (by rw [same]; ring) (by
    rw [← e, one_mul]
    exact fun h => stdE_cast_ne hg hdiff (mul_left_cancel₀ r0 h))
  rw [← e] at f
  simpa only [one_mul, zero_mul, sub_zero, mul_sub] using f

end

/-- C132, generators with the same seed: the program of C131, which takes the random number from a generator, is run
twice, in any two memories, with the same private key and the same seed and two documents with different hash values
modulo q. What the runs show gives away the private key. -/
theorem C132_seed : ∀ nc ∈ Curves.builtin, ∃ (mode : Int) (s : Sig) (p q : Nat) (_ : Fact p.Prime)
    (P : (curve s p).Point), (mode = 1 ∨ mode = 2) ∧ new mode nc.2 = .ok s ∧ Good s p q P ∧
    ∀ (L n : Nat), 513 ≤ L → 732 ≤ n → ∀ (h0 h1 : Heap), Closed h0 → Closed h1 →
      ∀ (key key' seed seed' doc doc' : Val) (d u m m' : Bytes),
      bytesOf key h0 = some d → bytesOf key' h1 = some d → d.length = s.size → 0 < beNat d → beNat d < q →
      ¬ (nc.1 = "id-tc26-gost-3410-2012-256-paramSetD" ∧ beNat d = q - 1) →
      bytesOf seed h0 = some u → bytesOf seed' h1 = some u → u.length = 48 → beNat u ≠ 0 →
      bytesOf doc h0 = some m → bytesOf doc' h1 = some m' →
      ∀ e e', e = stdE q (hashOf (hashFor mode) m) → e' = stdE q (hashOf (hashFor mode) m') → e ≠ e' →
      ∀ k, k = randOut Rand.H (beNat u * 256 ^ 15) 0 s.size → ∀ r sg r' sg',
        StdSign s p q P (beNat d) e (beNat k) r sg → StdSign s p q P (beNat d) e' (beNat k) r' sg' →
        (∃ pk, actText (ctx L (n + 11)) (signedDoc mode nc.2 s.size (hashFor mode) key seed doc) [] [] h0 =
          [.object, .bytes k, .object, .bytes pk, .object, .bytes (hashOf (hashFor mode) m),
           .bytes (beBytes s.size r ++ beBytes s.size sg), .object, .object, .bytes (hashOf (hashFor mode) m),
           .truth true]) ∧
        (∃ pk, actText (ctx L (n + 11)) (signedDoc mode nc.2 s.size (hashFor mode) key' seed' doc') [] [] h1 =
          [.object, .bytes k, .object, .bytes pk, .object, .bytes (hashOf (hashFor mode) m'),
           .bytes (beBytes s.size r' ++ beBytes s.size sg'), .object, .object, .bytes (hashOf (hashFor mode) m'),
           .truth true]) ∧
        r = r' ∧ (beNat d : ZMod q) = ((sg' : ZMod q) * e - sg * e') * ((r : ZMod q) * (e - e'))⁻¹ := by
  intro nc hnc
  obtain ⟨mode, s, p, q, ip, P, hm, hnew, hg, run⟩ := C131_signed nc hnc
  refine ⟨mode, s, p, q, ip, P, hm, hnew, hg, ?_⟩
  intro L n hL hn h0 h1 cl cl' key key' seed seed' doc doc' d u m m' ek ek' ld d0 dq nex es es' lu hz ed ed' e e' he he' hne
    k hk r sg r' sg' st st'
  have : Fact q.Prime := ⟨hg.qprime⟩
  refine ⟨run L n hL hn h0 cl key seed doc d u m ek ld d0 dq nex es lu hz ed k hk r sg (he ▸ st),
    run L n hL hn h1 cl' key' seed' doc' d u m' ek' ld d0 dq nex es' lu hz ed' k hk r' sg' (he' ▸ st'), std_r st st', ?_⟩
  have ne : (e : ZMod q) ≠ e' := by
    rw [he, he']
    exact stdE_cast_ne hg (by rwa [he, he'] at hne)
  have c1 := std_cast st
  have c2 := std_cast st'
  rw [← std_r st st'] at c2
  rw [c1, c2, eq_mul_inv_iff_mul_eq₀ (mul_ne_zero (std_range hg.qprime st).2.2 (sub_ne_zero.2 ne))]
  ring

/-! A case: the key 1 on the curve 256-paramSetB, the random number of the example of C131, and the hash values of the first
message of the hash standard and of the empty one. The object is the only one in the memory. -/

theorem Ex132.stdE_ne : stdE Sig.B42.q (hashOf (hashFor 1) ex1) ≠ stdE Sig.B42.q (hashOf (hashFor 1) []) := by
  rw [show hashFor 1 = "streebog256" from rfl, hashOf_ex1, (C23_variants _).2, Fast.hash_eq _ _ (by simp)]
  decide +kernel

example : ∃ P, Good (given 1 Curves.c256B) Sig.B42.p Sig.B42.q P ∧
    stdE Sig.B42.q (hashOf (hashFor 1) ex1) ≠ stdE Sig.B42.q (hashOf (hashFor 1) []) ∧ ∃ sig sig' sg sg',
      StdSign (given 1 Curves.c256B) Sig.B42.p Sig.B42.q P (beNat (beBytes 32 1)) (stdE Sig.B42.q (hashOf (hashFor 1) ex1))
        (beNat Ex131.k) Ex131.r sg ∧
      StdSign (given 1 Curves.c256B) Sig.B42.p Sig.B42.q P (beNat (beBytes 32 1)) (stdE Sig.B42.q (hashOf (hashFor 1) []))
        (beNat Ex131.k) Ex131.r sg' ∧
      Signs (given 1 Curves.c256B) (beBytes 32 1) (hashOf (hashFor 1) ex1) Ex131.k sig ∧
      Signs (given 1 Curves.c256B) (beBytes 32 1) (hashOf (hashFor 1) []) Ex131.k sig' := by
  obtain ⟨P, hg, -, sg, st⟩ := Ex131.case
  obtain ⟨a1, a2, a3, a4, -, -⟩ := id st
  obtain ⟨sg', st'⟩ : ∃ sg', StdSign (given 1 Curves.c256B) Sig.B42.p Sig.B42.q P (beNat (beBytes 32 1))
      (stdE Sig.B42.q (hashOf (hashFor 1) [])) (beNat Ex131.k) Ex131.r sg' := by
    refine ⟨_, a1, a2, a3, a4, rfl, ?_⟩
    rw [show hashFor 1 = "streebog256" from rfl, (C23_variants _).2, Fast.hash_eq _ _ (by simp)]
    decide +kernel
  have len : ∀ m, (hashOf (hashFor 1) m).length = (given 1 Curves.c256B).size := fun m =>
    C26_digest_size _ (hashFor_name 1) _
  have mk : ∀ m r sg, StdSign (given 1 Curves.c256B) Sig.B42.p Sig.B42.q P (beNat (beBytes 32 1))
      (stdE Sig.B42.q (hashOf (hashFor 1) m)) (beNat Ex131.k) r sg →
      ∃ sig, Signs (given 1 Curves.c256B) (beBytes 32 1) (hashOf (hashFor 1) m) Ex131.k sig := by
    intro m r sg st
    have a : SigCell (given 1 Curves.c256B) 0 0 [.inst "GOST34102012" (sigAttrs (given 1 Curves.c256B) 0)] := rfl
    obtain ⟨h', v, f, -, -, g⟩ := C105_sign (F := 512) (n := 739) a hg (by decide) (Nat.le_refl _) (Nat.le_refl _)
      (kv := .bytes (beBytes 32 1)) (dv := .bytes (hashOf (hashFor 1) m)) (rv := .bytes Ex131.k) rfl (by decide) rfl (len m) rfl
      (by decide) st
    exact ⟨_, 0, 0, _, h', 512, 739, _, _, _, v, a, Nat.le_refl _, rfl, rfl, rfl, by decide, f, g⟩
  obtain ⟨sig, c⟩ := mk _ _ _ st
  obtain ⟨sig', c'⟩ := mk _ _ _ st'
  exact ⟨P, hg, Ex132.stdE_ne, sig, sig', _, _, st, st', c, c'⟩

/-- A case for `sign` without a random number: the first draw, q, is refused; the following ones are those of the example. -/
example : ∃ P, Good (given 1 Curves.c256B) Sig.B42.p Sig.B42.q P ∧ ∃ (rand : Nat → Bytes) (h : Heap) (sg : Nat),
    SigCell (given 1 Curves.c256B) 1 2 h ∧ Source rand (512 + 2) (given 1 Curves.c256B).size h ∧
    (∀ j, j < 1 → Sig.B42.q ≤ beNat (rand j)) ∧
    StdSign (given 1 Curves.c256B) Sig.B42.p Sig.B42.q P (beNat (beBytes 32 1)) (stdE Sig.B42.q (hashOf (hashFor 1) ex1))
      (beNat (rand 1)) Ex131.r sg := by
  obtain ⟨P, hg, -, sg, st⟩ := Ex131.case
  refine ⟨P, hg, fun i => if i = 0 then beBytes 32 Sig.B42.q else Ex131.k,
    [.list ((List.range 514).map (fun i => Val.bytes (if i = 0 then beBytes 32 Sig.B42.q else Ex131.k)) ++ []),
      .inst "GOST34102012" (sigAttrs (given 1 Curves.c256B) 2)], sg, rfl, ⟨⟨[], rfl⟩, fun i _ => ?_⟩, fun j hj => ?_, st⟩
  · dsimp only
    split <;> decide
  · rw [show j = 0 by omega]
    decide +kernel

end Gost.Src
