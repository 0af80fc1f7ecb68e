import Verif.Props.SourceNonce
import Verif.Props.Timing
import Verif.Props.CurveCheck

/-! C133: what `sign` returns, as it is written, on whatever parameters `new` accepts: p and q need not be primes, and
nothing is asked of the base point and its order. -/

namespace Gost.Src
open Spec ModesSrc SigSrc
open Sig (new given stdE signInner signOuter signWith)

/-- What the outer `while` of `sign` returns as r is what the inner one returned at its first turn. -/
theorem signOuter_keep {s : Sig} {q : Nat} (hsize : q ≤ 256 ^ s.size) (F : Nat) (d e k : Int) :
    ∀ (n : Nat) (r sg r' sg' : Int), 0 < r → r < q → signOuter s F d e k n r sg = some (r', sg') → r' = r := by
  intro n
  induction n with
  | zero =>
    intro r sg r' sg' h0 h1 h
    unfold signOuter at h
    split at h
    · cases h; rfl
    · cases h
  | succ n ih =>
    intro r sg r' sg' h0 h1 h
    unfold signOuter at h
    split at h
    · cases h; rfl
    · have hr : r < 256 ^ s.size := h1.trans_le (by exact_mod_cast hsize)
      dsimp only at h
      rw [Sig.signInner_step s F k F r h0.le hr, if_pos h0.ne'] at h
      exact ih r _ r' sg' h0 h1 h

theorem signOuter_first {s : Sig} {q : Nat} (hq : s.q = q) (hq0 : 0 < q) (hsize : q ≤ 256 ^ s.size) {F : Nat} {d e k : Int}
    {n : Nat} {r sg : Int} (h : signOuter s F d e k n 0 0 = some (r, sg)) : signInner s F k F 0 = some r := by
  have zb := (Sig.zero_bytes s.size 0 le_rfl (by positivity)).2 rfl
  cases n with
  | zero =>
    unfold signOuter at h
    rw [zb] at h
    cases h
  | succ n =>
    unfold signOuter at h
    rw [zb] at h
    simp only [Bool.not_true, Bool.false_eq_true, if_false] at h
    cases hm : signInner s F k F 0 with
    | none => rw [hm] at h; cases h
    | some r1 =>
      rw [hm] at h
      obtain ⟨b1, b2⟩ := Sig.signInner_range hq hq0 hsize F k F 0 r1 le_rfl (by omega) hm
      rw [signOuter_keep hsize F d e k n r1 _ r sg b1 b2 h]

/-- What `new` accepts has a positive q with room in the bytes of a number. -/
theorem accepted_q {mode : Int} {c : CurveParams} {s : Sig} (h : new mode c = .ok s) :
    ∃ q : Nat, s.q = q ∧ 1 < q ∧ q ≤ 256 ^ s.size ∧ 254 ≤ Nat.log 2 q := by
  have a : Sig.Acceptable s := by
    by_cases hE : Sig.Edwards (given mode c)
    · exact ((Sig.C45_accepted_edwards mode c hE s).1 h).2.2
    · obtain ⟨-, e, a⟩ := (Sig.C45_accepted_partial mode c hE s).1 h
      rw [e]; exact a
  have w : ∀ (a b : Nat), 254 ≤ a → (2 : Int) ^ a ≤ s.q → s.q ≤ 2 ^ b → (2 ^ b = 256 ^ s.size) →
      ∃ q : Nat, s.q = q ∧ 1 < q ∧ q ≤ 256 ^ s.size ∧ 254 ≤ Nat.log 2 q := by
    intro a b ha h1 h2 e
    have h0 : (0 : Int) ≤ s.q := le_trans (by positivity) h1
    obtain ⟨q, hq⟩ := Int.eq_ofNat_of_zero_le h0
    rw [hq] at h1 h2
    have h1' : 2 ^ a ≤ q := by exact_mod_cast h1
    have h2' : q ≤ 2 ^ b := by exact_mod_cast h2
    have h3 : 2 ^ 254 ≤ q := le_trans (Nat.pow_le_pow_right (by norm_num) ha) h1'
    have h4 : 254 ≤ Nat.log 2 q := Nat.le_log_of_pow_le (by norm_num) h3
    have h5 : 1 < q := lt_of_lt_of_le (Nat.one_lt_pow (by norm_num) (by norm_num)) h3
    exact ⟨q, hq, h5, e ▸ h2', h4⟩
  obtain ⟨-, -, -, ⟨z, h1, h2⟩ | ⟨z, h1, h2⟩⟩ := a
  · exact w 254 (8 * 32) le_rfl h1 h2 (by rw [z, pow_mul]; rfl)
  · exact w 508 (8 * 64) (by norm_num) h1 h2 (by rw [z, pow_mul]; rfl)

section
variable {mode : Int} {c : CurveParams} {s : Sig} (acc : new mode c = .ok s) (p0 : 0 < s.p) (p1 : s.p ≤ 2 ^ 512)
include acc p0 p1

/-- The call of `sign` in the model. -/
theorem signs_model {d dg rk sig : Bytes} (w : Signs s d dg rk sig) : d.length = s.size ∧ dg.length = s.size ∧
    (beNat rk : Int) < s.q ∧ ∃ F, signWith s F d dg rk = some (.ok sig) := by
  obtain ⟨q, hq, q0, -, -⟩ := accepted_q acc
  obtain ⟨me, o, h, h', F, n, kv, dv, rv, v, a, hn, ek, ed, er, hne, hc, hsig⟩ := w
  have nr : (pyVal rv h).isEmpty = false := by rw [← Bool.not_eq_true, isEmpty_data, er]; simpa using hne
  have f := C104_sign a p0 p1 F n hn (by omega) kv dv rv (fun w hw => by
    subst hw
    exact get_lt (Streebog.get_of_bytes er)) (fun _ => []) (fun hc => by rw [nr] at hc; cases hc)
  rw [hc] at f
  obtain ⟨d', dg', rk', e1, l1, e2, l2, e3, lt, m⟩ := Sig.sign_ok (bytesResult_ok f hsig)
  rw [pyVal_data, ek] at e1
  rw [pyVal_data, ed] at e2
  rw [pyVal_data, er] at e3
  rw [← Option.some.inj e1] at l1 m
  rw [← Option.some.inj e2] at l2 m
  rcases e3 with ⟨e, -⟩ | ⟨e, -⟩
  · rw [← Option.some.inj e] at lt m
    exact ⟨l1, l2, lt, F, m⟩
  · exact absurd (Option.some.inj e) hne

omit p0 p1 in
theorem signWith_form {d dg rk sig : Bytes} {F : Nat} (m : signWith s F d dg rk = some (.ok sig)) : ∃ q r sg : Nat, s.q = q ∧
    sig = beBytes s.size r ++ beBytes s.size sg ∧ sig.length = 2 * s.size ∧ 0 < r ∧ r < q ∧ 0 < sg ∧ sg < q ∧
    sg = (r * beNat d + beNat rk * stdE q dg) % q := by
  obtain ⟨q, hq, q0, hsize, -⟩ := accepted_q acc
  unfold signWith at m
  rw [Sig.setE_eq s q hq q0 hsize dg] at m
  cases hO : signOuter s F (beNat d : Nat) (stdE q dg : Nat) (beNat rk : Nat) F 0 0 with
  | none => rw [hO] at m; cases m
  | some x =>
    obtain ⟨r, sg⟩ := x
    rw [hO] at m
    obtain ⟨r0, r1, s0, s1, a5⟩ := Sig.signOuter_range hq (by omega) hsize F _ _ _ F 0 0 r sg le_rfl (by omega) le_rfl (by omega)
      (.inl rfl) hO
    obtain ⟨r, rfl⟩ := Int.eq_ofNat_of_zero_le r0.le
    obtain ⟨sg, rfl⟩ := Int.eq_ofNat_of_zero_le s0.le
    simp only [Option.map_some, Option.some.injEq, Except.ok.injEq] at m
    rw [Sig.pairBytes_nat] at m
    exact ⟨q, r, sg, hq, m.symm, by rw [← m, List.length_append, beBytes_length, beBytes_length]; omega, by omega, by omega,
      by omega, by omega, by exact_mod_cast a5⟩

/-- C133, form: on whatever parameters `new` accepts, what `sign` returns are two numbers from 1 to q - 1, each in
`size` bytes, and the second is r*d + k*e modulo q, where e is the digest modulo q, or 1 if that is 0. -/
theorem C133_form {d dg rk sig : Bytes} (w : Signs s d dg rk sig) : ∃ q r sg : Nat, s.q = q ∧
    sig = beBytes s.size r ++ beBytes s.size sg ∧ sig.length = 2 * s.size ∧ 0 < r ∧ r < q ∧ 0 < sg ∧ sg < q ∧
    sg = (r * beNat d + beNat rk * stdE q dg) % q := by
  obtain ⟨-, -, -, F, m⟩ := signs_model acc p0 p1 w
  exact signWith_form acc m

/-- C133, `sign` without a random number: the same with one of the draws from the source of the system, below q, as k. -/
theorem C133_default {me o : Nat} {h h' : Heap} (a : SigCell s me o h) {F n : Nat} (hn : 739 ≤ n) {kv dv : Val} {d dg sig : Bytes}
    (ek : bytesOf kv h = some d) (ed : bytesOf dv h = some dg) {rand : Nat → Bytes} (src : Source rand (F + 2) s.size h) {v : Nat}
    (hc : call package (F + 1) (n + 4) "GOST34102012.sign" [.ref me, kv, dv] h = ok (.ref v) h')
    (hsig : bytesOf (.ref v) h' = some sig) :
    ∃ q r sg i : Nat, s.q = q ∧ beNat (rand i) < q ∧ sig = beBytes s.size r ++ beBytes s.size sg ∧ sig.length = 2 * s.size ∧
      0 < r ∧ r < q ∧ 0 < sg ∧ sg < q ∧ sg = (r * beNat d + beNat (rand i) * stdE q dg) % q := by
  obtain ⟨q, hq, q0, -, -⟩ := accepted_q acc
  have old : ∀ {w : Val} {b : Bytes}, bytesOf w h = some b → ∀ x, w = .ref x → x < h.length := fun e x hx => by
    subst hx
    exact get_lt (Streebog.get_of_bytes e)
  have f := C104_sign_default a p0 p1 F n hn (by omega) kv dv (old ek) (old ed) rand src
  rw [hc] at f
  obtain ⟨d', dg', rk, e1, l1, e2, l2, e3, lt, m⟩ := Sig.sign_ok (bytesResult_ok f hsig)
  rw [pyVal_data, ek] at e1
  rw [pyVal_data, ed] at e2
  rw [← Option.some.inj e1, ← Option.some.inj e2] at m
  rcases e3 with ⟨e, he⟩ | ⟨-, e⟩
  · exact absurd (Option.some.inj e).symm he
  · obtain ⟨i, hi⟩ := Sig.getRandK_mem F rand rk e
    obtain ⟨q', r, sg, hq', x⟩ := signWith_form acc m
    exact ⟨q', r, sg, i, hq', by rw [← hi]; omega, by rw [← hi]; exact x⟩

/-- C133, the first half: it depends on the parameters and the random number and on nothing else, neither on the private
key nor on the digest. -/
theorem C133_first {d dg d' dg' rk rk' sig sig' : Bytes} (w : Signs s d dg rk sig) (w' : Signs s d' dg' rk' sig')
    (same : beNat rk' = beNat rk) : sig.take s.size = sig'.take s.size := by
  obtain ⟨q, hq, q0, hsize, -⟩ := accepted_q acc
  obtain ⟨-, -, -, F, m⟩ := signs_model acc p0 p1 w
  obtain ⟨-, -, -, F', m'⟩ := signs_model acc p0 p1 w'
  have m := Sig.signWith_mono hq (by omega) hsize (show F ≤ max F F' by omega) d dg rk _ m
  have m' := Sig.signWith_mono hq (by omega) hsize (show F' ≤ max F F' by omega) d' dg' rk' _ m'
  generalize max F F' = G at m m'
  unfold signWith at m m'
  rw [same] at m'
  cases hO : signOuter s G (beNat d : Nat) (s.setE dg) (beNat rk : Nat) G 0 0 with
  | none => rw [hO] at m; cases m
  | some x =>
    cases hO' : signOuter s G (beNat d' : Nat) (s.setE dg') (beNat rk : Nat) G 0 0 with
    | none => rw [hO'] at m'; cases m'
    | some y =>
      rw [hO] at m
      rw [hO'] at m'
      have e : x.1 = y.1 := Option.some.inj ((signOuter_first hq (by omega) hsize hO).symm.trans
        (signOuter_first hq (by omega) hsize hO'))
      simp only [Option.map_some, Option.some.injEq, Except.ok.injEq, Sig.pairBytes] at m m'
      rw [← m, ← m', e, List.take_left' (by simp [intToBytes]), List.take_left' (by simp [intToBytes])]

/-- C133, a known random number: if q is a prime, the signature gives away the private key modulo q; of the curve nothing
is used. -/
theorem C133_known {q : Nat} [Fact q.Prime] (hq : s.q = q) {d dg rk sig : Bytes} (w : Signs s d dg rk sig) :
    (beNat d : ZMod q) = ((beNat (sig.drop s.size) : ZMod q) - beNat rk * stdE q dg) * (beNat (sig.take s.size) : ZMod q)⁻¹ := by
  obtain ⟨q', hq', -, hsize, -⟩ := accepted_q acc
  obtain rfl : q' = q := by have := hq'.symm.trans hq; omega
  obtain ⟨q, r, sg, hq2, rfl, -, r0, r1, s0, s1, e⟩ := C133_form acc p0 p1 w
  obtain rfl : q = q' := by have := hq2.symm.trans hq; omega
  obtain ⟨e1, e2⟩ := Sig.pair_parts s.size r sg (by omega) (by omega)
  have hr : (r : ZMod q) ≠ 0 := by
    rw [Ne, ZMod.natCast_eq_zero_iff]
    intro hdv
    have := Nat.le_of_dvd r0 hdv
    omega
  have c1 : (sg : ZMod q) = r * beNat d + beNat rk * stdE q dg := by
    rw [e, ZMod.natCast_mod]; push_cast; rfl
  rw [e1, e2, c1, eq_mul_inv_iff_mul_eq₀ hr]
  ring

/-- C133, a random number which is used twice: if q is a prime and the digests differ modulo q (with 1 for 0), the two
signatures give away the private key modulo q. -/
theorem C133_reuse {q : Nat} [Fact q.Prime] (hq : s.q = q) {d dg dg' rk rk' sig sig' : Bytes} (w : Signs s d dg rk sig)
    (w' : Signs s d dg' rk' sig') (same : beNat rk' = beNat rk) (hne : (stdE q dg : ZMod q) ≠ stdE q dg') :
    (beNat d : ZMod q) = ((beNat (sig'.drop s.size) : ZMod q) * stdE q dg - beNat (sig.drop s.size) * stdE q dg') *
      ((beNat (sig.take s.size) : ZMod q) * (stdE q dg - stdE q dg'))⁻¹ := by
  have hf := C133_first acc p0 p1 w w' same
  obtain ⟨q', hq', -, hsize, -⟩ := accepted_q acc
  obtain rfl : q' = q := by have := hq'.symm.trans hq; omega
  obtain ⟨q, r, sg, hq2, rfl, -, r0, r1, s0, s1, e⟩ := C133_form acc p0 p1 w
  obtain rfl : q = q' := by have := hq2.symm.trans hq; omega
  obtain ⟨q2, r', sg', hq3, rfl, -, r0', r1', s0', s1', e'⟩ := C133_form acc p0 p1 w'
  obtain rfl : q = q2 := by have := hq2.symm.trans hq3; omega
  obtain ⟨e1, e2⟩ := Sig.pair_parts s.size r sg (by omega) (by omega)
  obtain ⟨e3, e4⟩ := Sig.pair_parts s.size r' sg' (by omega) (by omega)
  have hrr : r' = r := by rw [← e1, ← e3, hf]
  have hr : (r : ZMod q) ≠ 0 := by
    rw [Ne, ZMod.natCast_eq_zero_iff]
    intro hdv
    have := Nat.le_of_dvd r0 hdv
    omega
  have c1 : (sg : ZMod q) = r * beNat d + beNat rk * stdE q dg := by
    rw [e, ZMod.natCast_mod]; push_cast; rfl
  have c2 : (sg' : ZMod q) = r * beNat d + beNat rk * stdE q dg' := by
    rw [e', hrr, same, ZMod.natCast_mod]; push_cast; rfl
  rw [e1, e2, e4, c1, c2, eq_mul_inv_iff_mul_eq₀ (mul_ne_zero hr (sub_ne_zero.2 hne))]
  ring

end

/-! A case: the curve 256-paramSetB with its p in the place of q, which is a prime but not the order of the base point. -/

namespace Ex133

def params : CurveParams := { Curves.c256B with q := Curves.c256B.p }

def s : Sig := given 1 params

theorem accepted : new 1 params = .ok s := by decide +kernel

theorem not_order : s.q = Sig.B42.p ∧ Sig.B42.p ≠ Sig.B42.q := by decide +kernel

theorem signs (d dg rk sig : Bytes) (hne : rk ≠ [])
    (e : s.sign 2 (fun _ => []) (.bytes d) (.bytes dg) (.bytes rk) = some (.ok sig)) : Signs s d dg rk sig := by
  have a : SigCell s 0 0 [.inst "GOST34102012" (sigAttrs s 0)] := rfl
  have f := C104_sign a (by decide +kernel) (by decide +kernel) 2 739 le_rfl (by decide +kernel) (.bytes d) (.bytes dg) (.bytes rk)
    (fun w hw => by cases hw) (fun _ => []) (fun hc => by
      rw [isEmpty_data] at hc
      exact absurd (Option.some.inj hc) hne)
  rw [show pyVal (.bytes d) _ = PyVal.bytes d from rfl, show pyVal (.bytes dg) _ = PyVal.bytes dg from rfl,
    show pyVal (.bytes rk) _ = PyVal.bytes rk from rfl, e] at f
  obtain ⟨h', v, f, -, -, g⟩ := f
  exact ⟨0, 0, _, h', 2, 739, _, _, _, v, a, le_rfl, rfl, rfl, rfl, hne, f, g⟩

/-- The signature of a digest with the key 5 and the random number 3. -/
def sigOf (x : Nat) : Bytes :=
  match s.sign 2 (fun _ => []) (.bytes (beBytes 32 5)) (.bytes (beBytes 32 x)) (.bytes (beBytes 32 3)) with
  | some (.ok b) => b
  | _ => []

/-- Two such signatures, to which the theorems apply. -/
example : Signs s (beBytes 32 5) (beBytes 32 7) (beBytes 32 3) (sigOf 7) ∧
    Signs s (beBytes 32 5) (beBytes 32 8) (beBytes 32 3) (sigOf 8) ∧ sigOf 7 ≠ sigOf 8 ∧
    (sigOf 7).take 32 = (sigOf 8).take 32 ∧
    (stdE Sig.B42.p (beBytes 32 7) : ZMod Sig.B42.p) ≠ stdE Sig.B42.p (beBytes 32 8) := by
  refine ⟨signs _ _ _ _ (by decide) (by decide +kernel), signs _ _ _ _ (by decide) (by decide +kernel), by decide +kernel,
    by decide +kernel, ?_⟩
  rw [Ne, ZMod.natCast_eq_natCast_iff']
  decide +kernel

end Ex133

end Gost.Src
