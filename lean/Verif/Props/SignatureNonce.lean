import Verif.Props.SignatureExamples

/-! Properties C60 to C64: the random value, the digest and the keys of a signature. -/

namespace Gost.Sig
open Spec (beNat beBytes)

/-! ### C60: where the random value comes from -/

/-- C60: a random value passed by the caller is used as it is; the random source of the system has no influence, for
any object and any arguments. -/
theorem C60_explicit (s : Sig) (F : Nat) (rand rand' : Nat → Bytes) (sk dgv rkv : PyVal) (h : rkv.data? ≠ some []) :
    s.sign F rand sk dgv rkv = s.sign F rand' sk dgv rkv := by
  cases hk : checkValue sk s.size with
  | false => rw [sign_badKey hk, sign_badKey hk]
  | true =>
    cases hd : checkValue dgv s.size with
    | false => rw [sign_badDigest hk hd, sign_badDigest hk hd]
    | true =>
      obtain ⟨d, h1, l1⟩ := (checkValue_iff _ _).1 hk
      obtain ⟨dg, h2, l2⟩ := (checkValue_iff _ _).1 hd
      cases hr : rkv.data? with
      | none => rw [sign_badRand h1 l1 h2 l2 hr, sign_badRand h1 l1 h2 l2 hr]
      | some rk =>
        have hne : rk ≠ [] := by rintro rfl; exact h hr
        rw [sign_explicit h1 l1 h2 l2 hr hne, sign_explicit h1 l1 h2 l2 hr hne]

/-- C60: without a random value the call draws `size` bytes until the number is below q; the signature is the one for
the first such draw passed as an argument. -/
theorem C60_drawn (s : Sig) (F : Nat) (rand : Nat → Bytes) (sk dgv rkv : PyVal) (h : rkv.data? = some [])
    (sig : Bytes) (hs : s.sign F rand sk dgv rkv = some (.ok sig)) :
    ∃ i, (∀ j, j < i → s.q ≤ (beNat (rand j) : Int)) ∧ (beNat (rand i) : Int) < s.q ∧
      (rand i ≠ [] → ∀ rkv', rkv'.data? = some (rand i) → s.sign F rand sk dgv rkv' = some (.ok sig)) := by
  obtain ⟨d, dg, rk, h1, l1, h2, l2, h3, h4, h5⟩ := sign_ok hs
  rcases h3 with ⟨h3, hne⟩ | ⟨-, h3⟩
  · rw [h] at h3; cases h3; exact absurd rfl hne
  · obtain ⟨i, rfl, hi⟩ := getRandK_first F rand rk h3
    refine ⟨i, hi, h4, fun hne rkv' hr => ?_⟩
    rw [sign_explicit h1 l1 h2 l2 hr hne, if_neg (by omega), h5]

/-- C60: draws after the one which is used have no influence. -/
theorem C60_draws_used (s : Sig) (F : Nat) (rand rand' : Nat → Bytes) (sk dgv rkv : PyVal) (i : Nat)
    (hi : (beNat (rand i) : Int) < s.q) (hsame : ∀ j, j ≤ i → rand' j = rand j)
    (hF : i ≤ F) : s.sign F rand' sk dgv rkv = s.sign F rand sk dgv rkv := by
  by_cases h : rkv.data? = some []
  swap
  · exact C60_explicit s F rand' rand sk dgv rkv h
  cases hk : checkValue sk s.size with
  | false => rw [sign_badKey hk, sign_badKey hk]
  | true =>
    cases hd : checkValue dgv s.size with
    | false => rw [sign_badDigest hk hd, sign_badDigest hk hd]
    | true =>
      obtain ⟨d, h1, l1⟩ := (checkValue_iff _ _).1 hk
      obtain ⟨dg, h2, l2⟩ := (checkValue_iff _ _).1 hd
      rw [sign_random h1 l1 h2 l2 h, sign_random h1 l1 h2 l2 h]
      -- the first draw below q is at most i
      obtain ⟨m, hm1, hm2, hm3⟩ : ∃ m, m ≤ i ∧ (beNat (rand m) : Int) < s.q ∧
          ∀ j, j < m → s.q ≤ (beNat (rand j) : Int) := by
        clear hsame hF
        induction i using Nat.strong_induction_on with
        | _ i ih =>
          by_cases hall : ∀ j, j < i → s.q ≤ (beNat (rand j) : Int)
          · exact ⟨i, Nat.le_refl _, hi, hall⟩
          · push Not at hall
            obtain ⟨j, hj, hlt⟩ := hall
            obtain ⟨m, e1, e2, e3⟩ := ih j hj hlt
            exact ⟨m, by omega, e2, e3⟩
      rw [getRandK_of_first F m rand (by omega) hm3 hm2,
        getRandK_of_first F m rand' (by omega) (fun j hj => by rw [hsame j (by omega)]; exact hm3 j hj)
          (by rw [hsame m hm1]; exact hm2), hsame m hm1]

/-- A case: the first draw is too large, the second is used. -/
example (s : Sig) : s.q ≤ (beNat [255, 255] : Int) → (beNat [0, 7] : Int) < s.q → s.size = 2 →
    s.getRandK 5 (fun i => if i = 0 then [255, 255] else [0, 7]) = some [0, 7] := fun h1 h2 _ =>
  getRandK_of_first 5 1 (fun i => if i = 0 then [255, 255] else [0, 7]) (by omega)
    (fun j hj => by have : j = 0 := by omega
                    subst this; exact h1) h2

/-! ### C61: the digest -/

/-- C61: `sign` and `verify` depend on the digest only through its value modulo q; 0 counts as 1. -/
theorem C61_digest {s : Sig} {q : Nat} (hq : s.q = q) (hq1 : 1 < q) (hsize : q ≤ 256 ^ s.size) {dgv dgv' : PyVal}
    {dg dg' : Bytes} (h : dgv.data? = some dg) (hl : dg.length = s.size) (h' : dgv'.data? = some dg')
    (hl' : dg'.length = s.size)
    (he : beNat dg % q = beNat dg' % q ∨ (beNat dg % q = 0 ∧ beNat dg' % q = 1)) :
    (∀ F rand sk rkv, s.sign F rand sk dgv rkv = s.sign F rand sk dgv' rkv) ∧
    (∀ F pkv sigv, s.verify F pkv dgv sigv = s.verify F pkv dgv' sigv) := by
  have hE : s.setE dg = s.setE dg' := by
    rw [setE_eq s q hq hq1 hsize, setE_eq s q hq hq1 hsize]
    unfold stdE
    rcases he with he | ⟨h1, h2⟩
    · rw [he]
    · rw [if_pos h1, h2]; rfl
  have c1 := (checkValue_iff dgv s.size).2 ⟨dg, h, hl⟩
  have c2 := (checkValue_iff dgv' s.size).2 ⟨dg', h', hl'⟩
  constructor
  · intro F rand sk rkv
    unfold sign
    rw [c1, c2, h, h']
    simp only [Option.getD_some, hE]
  · intro F pkv sigv
    unfold verify verifyBytes
    rw [c1, c2, h, h']
    simp only [Option.getD_some, hE]

/-- A case: digests 3 and q + 3. -/
example : beNat [0, 3] % 7 = beNat [0, 10] % 7 ∧ beNat [0, 7] % 7 = 0 ∧ beNat [0, 1] % 7 = 1 := by decide

/-! ### C62: the same random value for two digests -/

/-- C62: two signatures which `sign` makes with the same private key and the same random value, for digests which
differ modulo q, have the same r and give away the private key modulo q. -/
theorem C62_reuse {s : Sig} {p q : Nat} [Fact p.Prime] {P : (curve s p).Point} (hg : Good s p q P)
    {sk dgv dgv' rkv : PyVal} {d dg dg' rk : Bytes} (hd : sk.data? = some d) (hdg : dgv.data? = some dg)
    (hdg' : dgv'.data? = some dg') (hrk : rkv.data? = some rk) (hne : rk ≠ [])
    (hdiff : stdE q dg ≠ stdE q dg') {F F' : Nat} {rand rand' : Nat → Bytes} {sig sig' : Bytes}
    (h : s.sign F rand sk dgv rkv = some (.ok sig)) (h' : s.sign F' rand' sk dgv' rkv = some (.ok sig')) :
    sig.take s.size = sig'.take s.size ∧
    (beNat d : ZMod q) =
      ((stdE q dg' : ZMod q) * (beNat (sig.drop s.size) : ZMod q) -
        (stdE q dg : ZMod q) * (beNat (sig'.drop s.size) : ZMod q)) *
      ((beNat (sig.take s.size) : ZMod q) * ((stdE q dg' : ZMod q) - (stdE q dg : ZMod q)))⁻¹ := by
  have : Fact q.Prime := ⟨hg.qprime⟩
  have hq0 := hg.qprime.pos
  have hq1 := hg.qprime.one_lt
  obtain ⟨-, -, rk1, r, sg, e1, st, hsig⟩ := C41_sign_std hg hd hdg h
  obtain ⟨-, -, rk2, r', sg', e2, st', hsig'⟩ := C41_sign_std hg hd hdg' h'
  have k1 : rk1 = rk := by
    rcases e1 with ⟨e, -⟩ | ⟨e, -⟩
    · rw [hrk] at e; cases e; rfl
    · rw [hrk] at e; cases e; exact absurd rfl hne
  have k2 : rk2 = rk := by
    rcases e2 with ⟨e, -⟩ | ⟨e, -⟩
    · rw [hrk] at e; cases e; rfl
    · rw [hrk] at e; cases e; exact absurd rfl hne
  subst k1
  subst k2
  obtain ⟨-, -, ⟨x, y, hn, a2, a3⟩, a4, a5, a6⟩ := st
  obtain ⟨-, -, ⟨x', y', hn', b2, b3⟩, b4, b5, b6⟩ := st'
  have hr : r = r' := by
    rw [a2] at b2
    rw [← a3, ← b3, some_inj b2]
  subst hr
  have hrq : r < q := by rw [← a3]; exact Nat.mod_lt _ hq0
  have hsq : sg < q := by rw [a5]; exact Nat.mod_lt _ hq0
  have hsq' : sg' < q := by rw [b5]; exact Nat.mod_lt _ hq0
  have hsz := hg.qsize
  obtain ⟨p1, p2⟩ := pair_parts s.size r sg (by omega) (by omega)
  obtain ⟨p3, p4⟩ := pair_parts s.size r sg' (by omega) (by omega)
  rw [hsig, hsig', p1, p2, p4]
  constructor
  · rw [List.take_left' (by simp), List.take_left' (by simp)]
  have hr0 : (r : ZMod q) ≠ 0 := by
    rw [Ne, ZMod.natCast_eq_zero_iff]
    intro hdv
    have := Nat.le_of_dvd (by omega) hdv
    omega
  have hstd : ∀ b : Bytes, stdE q b < q := by
    intro b
    unfold stdE
    have := Nat.mod_lt (beNat b) hq0
    split <;> omega
  have hee : (stdE q dg' : ZMod q) - (stdE q dg : ZMod q) ≠ 0 := by
    intro h0
    have h1 := sub_eq_zero.1 h0
    rw [ZMod.natCast_eq_natCast_iff', Nat.mod_eq_of_lt (hstd _), Nat.mod_eq_of_lt (hstd _)] at h1
    exact hdiff h1.symm
  have c1 : (sg : ZMod q) = r * beNat d + beNat rk2 * stdE q dg := by
    rw [a5, ZMod.natCast_mod]; push_cast; rfl
  have c2 : (sg' : ZMod q) = r * beNat d + beNat rk2 * stdE q dg' := by
    rw [b5, ZMod.natCast_mod]; push_cast; rfl
  rw [c1, c2, eq_mul_inv_iff_mul_eq₀ (mul_ne_zero hr0 hee)]
  ring

/-! ### C63: the range of the private key -/

/-- C63, exact behaviour: `sign` depends on the private key only modulo q; any string of `size` bytes is accepted. -/
theorem C63_mod_q {s : Sig} {q : Nat} (hq : s.q = q) (hq0 : 0 < q) (hsize : q ≤ 256 ^ s.size) {sk sk' : PyVal}
    {d d' : Bytes} (h : sk.data? = some d) (hl : d.length = s.size) (h' : sk'.data? = some d')
    (hl' : d'.length = s.size) (hmod : beNat d % q = beNat d' % q) (F : Nat) (rand : Nat → Bytes) (dgv rkv : PyVal) :
    s.sign F rand sk dgv rkv = s.sign F rand sk' dgv rkv := by
  have key : ∀ dg rk, signWith s F d dg rk = signWith s F d' dg rk := by
    intro dg rk
    unfold signWith
    rcases Nat.eq_zero_or_pos F with h0 | h0
    · subst h0
      rw [signOuter_zero_fuel, signOuter_zero_fuel]
    rw [signOuter_eq s q hq hq0 hsize F h0, signOuter_eq s q hq hq0 hsize F h0]
    cases s.mulPoint F (beNat rk : Nat) with
    | none => rfl
    | some c =>
      have : ((c.1.fmod s.q) * (beNat d : Nat) + (beNat rk : Nat) * s.setE dg).fmod s.q =
          ((c.1.fmod s.q) * (beNat d' : Nat) + (beNat rk : Nat) * s.setE dg).fmod s.q := by
        have hm : ((beNat d : Nat) : Int) % q = ((beNat d' : Nat) : Int) % q := by
          rw [← Int.natCast_emod, ← Int.natCast_emod, hmod]
        simp only [hq, Int.fmod_eq_emod_of_nonneg _ (show (0 : Int) ≤ q by omega)]
        rw [Int.add_emod, Int.mul_emod, hm, ← Int.mul_emod, ← Int.add_emod]
      dsimp only
      rw [this]
  cases hd : checkValue dgv s.size with
  | false =>
    rw [sign_badDigest ((checkValue_iff _ _).2 ⟨d, h, hl⟩) hd, sign_badDigest ((checkValue_iff _ _).2 ⟨d', h', hl'⟩) hd]
  | true =>
    obtain ⟨dg, h2, l2⟩ := (checkValue_iff _ _).1 hd
    cases hr : rkv.data? with
    | none => rw [sign_badRand h hl h2 l2 hr, sign_badRand h' hl' h2 l2 hr]
    | some rk =>
      by_cases hne : rk = []
      · subst hne
        rw [sign_random h hl h2 l2 hr, sign_random h' hl' h2 l2 hr]
        cases s.getRandK F rand with
        | none => rfl
        | some rk => exact key dg rk
      · rw [sign_explicit h hl h2 l2 hr hne, sign_explicit h' hl' h2 l2 hr hne, key]

/-- The x coordinate of 2P on 256-paramSetD. -/
theorem D41.xmod_two {P : (curve (given 1 Curves.c256D) D41.p).Point}
    (hg : Good (given 1 Curves.c256D) D41.p D41.q P) : XMod D41.q (2 • P) D41.r := by
  have hbase : Rep (given 1 Curves.c256D) D41.p (((0x0 : Nat) : Int), ((0x41ece55743711a8c3cbf3783cd08c0ee4d4dc440d4641a8f366e550dfdb3bb67 : Nat) : Int)) P := hg.base
  have h2 : Rep (given 1 Curves.c256D) D41.p (((0x74ab1ac14e9ed5cda1af70308c897ebf3d91d913a7bf377833c436bf0f8aa40e : Nat) : Int),
      ((0x7d223beab738ba52a65ffbfe585d2807bfaed5ea9cd651a63a775b4182f562e3 : Nat) : Int)) (P + P) :=
    addS_sound (a := 0x9b9f605f5a858107ab1ec85e6b41c8aacf846e86789051d37998f7b9022d7598) (c := (0x0, 0x41ece55743711a8c3cbf3783cd08c0ee4d4dc440d4641a8f366e550dfdb3bb67)) (d := (0x0, 0x41ece55743711a8c3cbf3783cd08c0ee4d4dc440d4641a8f366e550dfdb3bb67))
      (e := (0x74ab1ac14e9ed5cda1af70308c897ebf3d91d913a7bf377833c436bf0f8aa40e, 0x7d223beab738ba52a65ffbfe585d2807bfaed5ea9cd651a63a775b4182f562e3)) (l := 0x76811373927b66569184a2e9fdfea64e54456c183aa621af6738ba032929c1f5) hg.hp rfl hg.size
      (by decide +kernel) hbase hbase (by decide +kernel)
  rw [two_nsmul, xmod_iff hg.hq h2]
  decide +kernel

/-- C63, the part which holds: the error for the private key is raised exactly for values which are not byte strings
of `size` bytes. (Missing: the numbers 0 and q to 256^size - 1 are not refused.) -/
theorem C63_length_partial (s : Sig) (F : Nat) (rand : Nat → Bytes) (sk dgv rkv : PyVal) :
    s.sign F rand sk dgv rkv = some (.error (.signatureError "GOSTSignatureError: invalid private key value")) ↔
      ¬ IsBytes sk s.size := by
  rw [C47_sign]
  simp

namespace D63
/-- s = k*e mod q for the key 0. -/
def sg : Nat := 2 * D41.e % D41.q
def zero : Bytes := List.replicate 32 0
def big : Bytes := beBytes 32 D41.q
def sig : Bytes := beBytes 32 D41.r ++ beBytes 32 sg
end D63

/-- C63 is false: on the built-in curve 256-paramSetD `sign` returns a signature for the private keys 0 and q, neither
of which is a private key. -/
theorem C63_statement_false (F : Nat) (hF : D41.q ≤ 2 ^ F) :
    ∃ s, new 1 Curves.c256D = .ok s ∧ s.q = D41.q ∧ beNat D63.zero = 0 ∧ beNat D63.big = D41.q ∧
      s.sign F (fun _ => []) (.bytearray D63.zero) (.bytearray D41.dg) (.bytearray D41.rk) = some (.ok D63.sig) ∧
      s.sign F (fun _ => []) (.bytearray D63.big) (.bytearray D41.dg) (.bytearray D41.rk) = some (.ok D63.sig) := by
  refine ⟨given 1 Curves.c256D, new_builtin 1 "id-tc26-gost-3410-2012-256-paramSetD" _ (.inl rfl)
    (by simp [Curves.builtin]) (by decide +kernel), ?_⟩
  obtain ⟨P, hg⟩ : ∃ P, Good (given 1 Curves.c256D) D41.p D41.q P := good_c256D
  have z0 : beNat D63.zero = 0 := by decide +kernel
  have zq : beNat D63.big = D41.q := by decide +kernel
  have hk : beNat D41.rk = 2 := by decide +kernel
  have he : stdE D41.q D41.dg = D41.e := by decide +kernel
  have hx : XMod D41.q (2 • P) D41.r := D41.xmod_two hg
  have std : ∀ d, d % D41.q = 0 → StdSign (given 1 Curves.c256D) D41.p D41.q P d D41.e 2 D41.r D63.sg := by
    intro d h
    refine ⟨by decide, by decide, hx, by decide, ?_, by decide +kernel⟩
    have : D41.r * d % D41.q = 0 := by rw [Nat.mul_mod, h]; rfl
    rw [Nat.add_mod, this]
    decide +kernel
  refine ⟨hg.hq, z0, zq, ?_, ?_⟩
  · refine C41_sign_returns hg rfl (by decide +kernel) rfl (by decide +kernel) rfl (by decide) _ ?_ F hF
    rw [z0, hk, he]; exact std 0 (Nat.zero_mod _)
  · refine C41_sign_returns hg rfl (by decide +kernel) rfl (by decide +kernel) rfl (by decide) _ ?_ F hF
    rw [zq, hk, he]; exact std _ (Nat.mod_self _)

/-- A case of C62: on 256-paramSetD the private key q-1 and k = 2 give signatures of two digests which differ. -/
example (F : Nat) (hF : D41.q ≤ 2 ^ F) : ∃ P, ∃ hg : Good (given 1 Curves.c256D) D41.p D41.q P,
    stdE D41.q D41.dg ≠ stdE D41.q D41.rk ∧
    ∀ rand, ∃ sig sig', (given 1 Curves.c256D).sign F rand (.bytearray D41.sk) (.bytearray D41.dg) (.bytearray D41.rk) =
        some (.ok sig) ∧
      (given 1 Curves.c256D).sign F rand (.bytearray D41.sk) (.bytearray D41.rk) (.bytearray D41.rk) =
        some (.ok sig') ∧ sig.drop (given 1 Curves.c256D).size ≠ sig'.drop (given 1 Curves.c256D).size := by
  obtain ⟨P, hg⟩ : ∃ P, Good (given 1 Curves.c256D) D41.p D41.q P := good_c256D
  refine ⟨P, hg, by decide +kernel, fun rand => ?_⟩
  have hd : beNat D41.sk = D41.q - 1 := by decide +kernel
  have hk : beNat D41.rk = 2 := by decide +kernel
  have he : stdE D41.q D41.dg = D41.e := by decide +kernel
  have he' : stdE D41.q D41.rk = 2 := by decide +kernel
  have hx : XMod D41.q (2 • P) D41.r := D41.xmod_two hg
  refine ⟨beBytes 32 D41.r ++ beBytes 32 D41.sg, beBytes 32 D41.r ++
    beBytes 32 ((D41.r * (D41.q - 1) + 2 * 2) % D41.q), ?_, ?_, by decide +kernel⟩
  · refine C41_sign_returns hg rfl (by decide +kernel) rfl (by decide +kernel) rfl (by decide) rand ?_ F hF
    rw [hd, hk, he]
    exact ⟨by decide, by decide, hx, by decide, by decide +kernel, by decide⟩
  · refine C41_sign_returns hg rfl (by decide +kernel) rfl (by decide +kernel) rfl (by decide) rand ?_ F hF
    rw [hd, hk, he']
    exact ⟨by decide, by decide, hx, by decide, by decide +kernel, by decide +kernel⟩

/-! ### C64: the public key -/

/-- C64, for every object and every public key of the right length: with (x, y) the sum which `_add` returns for the
base point and the two numbers of the key, and r = x mod q not 0, `verify` returns True for the digest q-r and the
signature (r, q-r). Nothing is asked of the key. -/
theorem C64_any_key {s : Sig} {q : Nat} (hq : s.q = q) (hqp : q.Prime) (hsize : q ≤ 256 ^ s.size) {pkv : PyVal}
    {pk : Bytes} (hpk : pkv.data? = some pk) (hl : pk.length = s.size * 2) {r : Nat} (hr0 : 0 < r)
    (hr : (s.add s.x (startPair s (beNat (pk.take s.size)) (beNat (pk.drop s.size))).1 s.y
      (startPair s (beNat (pk.take s.size)) (beNat (pk.drop s.size))).2).1.fmod s.q = (r : Int)) (F : Nat) :
    s.verify F pkv (.bytearray (beBytes s.size (q - r))) (.bytearray (beBytes s.size r ++ beBytes s.size (q - r))) =
      some (.ok true) := by
  have : Fact q.Prime := ⟨hqp⟩
  have hb := fmod_range q hqp.pos (s.add s.x (startPair s (beNat (pk.take s.size)) (beNat (pk.drop s.size))).1 s.y
      (startPair s (beNat (pk.take s.size)) (beNat (pk.drop s.size))).2).1
  rw [← hq, hr, hq] at hb
  have hrq : r < q := by omega
  have hdg : beNat (beBytes s.size (q - r)) = q - r := by
    rw [beNat_beBytes, Nat.mod_eq_of_lt (by omega)]
  have hE : s.setE (beBytes s.size (q - r)) = ((q - r : Nat) : Int) := by
    rw [setE_eq s q hq hqp.one_lt hsize]
    unfold stdE
    rw [hdg, Nat.mod_eq_of_lt (by omega), if_neg (by omega)]
  obtain ⟨p1, p2⟩ := pair_parts s.size r (q - r) (by omega) (by omega)
  rw [verify_eq hpk hl rfl (by simp) rfl (by simp; omega)]
  obtain ⟨z1, z2, e1, e2, f1, f2, -⟩ :=
    z_values hq (q - r) r (q - r) (by omega) (by omega) hr0 hrq (by omega) (by omega)
  have hne : ((q - r : Nat) : ZMod q) ≠ 0 := by
    rw [Ne, ZMod.natCast_eq_zero_iff]
    intro hd
    have := Nat.le_of_dvd (by omega) hd
    omega
  have : Fact (1 < q) := ⟨hqp.one_lt⟩
  have g1 : z1 = 1 := by rw [f1, mul_inv_cancel₀ hne, ZMod.val_one]
  have g2 : z2 = 1 := by
    rw [f2, ← natCast_sub_q (by omega), mul_inv_cancel₀ hne, ZMod.val_one]
  rw [g1] at e1
  rw [g2] at e2
  unfold verifyBytes
  simp only [pyUpto_nat, pyFrom_nat, bytesToInt_eq, p1, p2]
  have hst1 : s.verifyStep1 r ((q - r : Nat) : Int) = true := by
    unfold verifyStep1
    rw [hq]
    simp only [Bool.not_eq_true', Bool.or_eq_false_iff, decide_eq_false_iff_not]
    omega
  have one : ∀ x y : Int, s.mulPoint F ((1 : Nat) : Int) x y = some (if x > 0 ∧ y > 0 then (x, y) else (s.x, s.y)) := by
    intro x y
    unfold mulPoint
    cases F <;> simp [mulLoop]
  have hst : (if ((beNat (pk.take s.size) : Nat) : Int) > 0 ∧ ((beNat (pk.drop s.size) : Nat) : Int) > 0 then
      (((beNat (pk.take s.size) : Nat) : Int), ((beNat (pk.drop s.size) : Nat) : Int)) else (s.x, s.y)) =
      startPair s (beNat (pk.take s.size)) (beNat (pk.drop s.size)) := by
    unfold startPair
    simp only [gt_iff_lt, Int.natCast_pos]
  rw [hst1, hE, e1, e2, one, one, hst]
  show some (Except.ok (compare _ _)) = _
  rw [if_neg (by omega), hr, (compare_reduced (p := q) s.size hsize r r (by omega) (by omega) (by omega) (by omega)).2 rfl]

/-- C64, the part which holds: the error for the public key is raised exactly for values which are not byte strings
of twice `size` bytes. (Missing: pairs which are not a point of the curve are not refused; for points of order q see
C42.) -/
theorem C64_length_partial (s : Sig) (F : Nat) (pkv dgv sigv : PyVal) :
    s.verify F pkv dgv sigv = some (.error (.signatureError "GOSTSignatureError: invalid public key value")) ↔
      ¬ IsBytes pkv (s.size * 2) := by
  rw [C47_verify]
  simp

namespace D64
def r : Nat := 0x17c595b0d3a34bef31a05956d13046ce34e8e604cfc81cb50cbc4d9d06c67f27
def pk : Bytes := beBytes 32 1 ++ beBytes 32 1
def dg : Bytes := beBytes 32 (D41.q - r)
def sig : Bytes := beBytes 32 r ++ beBytes 32 (D41.q - r)
end D64

/-- C64 is false: on the built-in curve 256-paramSetD the pair (1, 1) is not a point of the curve, and `verify` with
this public key returns True for a digest and a signature. -/
theorem C64_statement_false :
    ∃ s, new 1 Curves.c256D = .ok s ∧
      (beNat (D64.pk.take s.size) = 1 ∧ beNat (D64.pk.drop s.size) = 1) ∧
      (∀ P : (curve s D41.p).Point, ¬ EncodesPoint s D41.p D64.pk P) ∧
      ∀ F, s.verify F (.bytearray D64.pk) (.bytearray D64.dg) (.bytearray D64.sig) = some (.ok true) := by
  refine ⟨given 1 Curves.c256D, new_builtin 1 "id-tc26-gost-3410-2012-256-paramSetD" _ (.inl rfl)
    (by simp [Curves.builtin]) (by decide +kernel), by decide +kernel, ?_, ?_⟩
  · intro P h
    obtain ⟨-, -, -, -, h5, -⟩ := (rep_of_encodes (by decide +kernel) h).1
    have h1 : beNat (D64.pk.take (given 1 Curves.c256D).size) = 1 := by decide +kernel
    have h2 : beNat (D64.pk.drop (given 1 Curves.c256D).size) = 1 := by decide +kernel
    rw [h1, h2] at h5
    have h6 := (WeierstrassCurve.Affine.equation_iff _ _).1 h5.1
    simp only [curve] at h6
    have h7 : ((1 : Nat) : ZMod D41.p) =
        ((1 + (given 1 Curves.c256D).a.toNat + (given 1 Curves.c256D).b.toNat : Nat) : ZMod D41.p) := by
      have ha : ((given 1 Curves.c256D).a : ZMod D41.p) = (((given 1 Curves.c256D).a.toNat : Nat) : ZMod D41.p) := rfl
      have hb : ((given 1 Curves.c256D).b : ZMod D41.p) = (((given 1 Curves.c256D).b.toNat : Nat) : ZMod D41.p) := rfl
      rw [ha, hb] at h6
      push_cast
      simpa using h6
    rw [ZMod.natCast_eq_natCast_iff'] at h7
    exact absurd h7 (by decide +kernel)
  · intro F
    obtain ⟨P, hg⟩ : ∃ P, Good (given 1 Curves.c256D) D41.p D41.q P := good_c256D
    refine C64_any_key hg.hq hg.qprime hg.qsize (pkv := .bytearray D64.pk) (pk := D64.pk) (r := D64.r) rfl
      (by decide +kernel) (by decide +kernel) ?_ F
    have hs : startPair (given 1 Curves.c256D) (beNat (D64.pk.take (given 1 Curves.c256D).size))
        (beNat (D64.pk.drop (given 1 Curves.c256D).size)) = (1, 1) := by decide +kernel
    rw [hs, addF_sound hg.hp hg.size 600 _ _ _ _
      (0x17c595b0d3a34bef31a05956d13046ce34e8e604cfc81cb50cbc4d9d06c67f27, 0x83684742c5b80e48350a5cb494d63c336b4fcbe85e0c12ff1fba46b5a6e8460a) (by decide +kernel) (by decide +kernel)
      (by decide +kernel) (by decide +kernel) (by decide +kernel) (by decide +kernel) (by decide +kernel)
      (by decide +kernel) (by decide +kernel)]
    decide +kernel

end Gost.Sig
