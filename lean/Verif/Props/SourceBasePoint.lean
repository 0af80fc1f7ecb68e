import Verif.Props.SourceAnyCurve
import Verif.Proofs.BasePoint

/-! C134: parameters whose base points have coordinates which are equal modulo p describe the same point. `new` treats
them alike; `public_key_generate`, `sign` and `verify` do so as long as none of them multiplies the base point by 1. -/

namespace Gost.Src
open Spec ModesSrc SigSrc
open Sig (new signWith given Edwards Acceptable OnCurve OrderRange curve Good EncodesPoint stdE)

/-- The parameters `c` with the coordinates of the base point moved by multiples of p. -/
def moved (c : CurveParams) (x y p i j : Int) : CurveParams := { c with x := some (x + i * p), y := some (y + j * p) }

/-- The equation of the curve does not see the multiples of p. -/
theorem dvd_moved (p a b x y i j : Int) :
    p ∣ (y + j * p) ^ 2 - ((x + i * p) ^ 3 + a * (x + i * p) + b) ↔ p ∣ y ^ 2 - (x ^ 3 + a * x + b) := by
  have e : (y + j * p) ^ 2 - ((x + i * p) ^ 3 + a * (x + i * p) + b) =
      y ^ 2 - (x ^ 3 + a * x + b) +
        p * (2 * y * j + j ^ 2 * p - 3 * x ^ 2 * i - 3 * x * i ^ 2 * p - i ^ 3 * p ^ 2 - a * i) := by ring
  rw [e]
  exact dvd_add_left (dvd_mul_right _ _)

/-- C134, the part which holds: for every mode, every set of parameters with p, x and y and all multiples of p, the object
is created with the one base point if and only if it is created with the other. Missing: what is made with such an object
is the same, which is false (`C134_public_key_negation`, `C134_sign_negation`) and holds with the exceptions stated in
`C134_public_key_partial`, `C134_sign_partial` and `C134_verify_partial`. -/
theorem C134_accepted_partial (mode : Int) (c : CurveParams) (p x y i j : Int) (hp : c.p = some p) (hx : c.x = some x)
    (hy : c.y = some y) (hE : ¬ Edwards (given mode c)) (hE' : ¬ Edwards (given mode (moved c x y p i j))) :
    (∃ s, new mode (moved c x y p i j) = .ok s) ↔ ∃ s, new mode c = .ok s := by
  have key : Acceptable (given mode (moved c x y p i j)) ↔ Acceptable (given mode c) := by
    have o : OnCurve (given mode (moved c x y p i j)) ↔ OnCurve (given mode c) := by
      unfold OnCurve given moved
      rw [hp, hx, hy]
      exact dvd_moved p (c.a.getD 0) (c.b.getD 0) x y i j
    have r : OrderRange (given mode (moved c x y p i j)) ↔ OrderRange (given mode c) := Iff.rfl
    unfold Acceptable
    rw [o, r]
    exact Iff.rfl
  constructor
  · rintro ⟨s, e⟩
    obtain ⟨hm, -, ha⟩ := (Sig.C45_accepted_partial mode _ hE' s).1 e
    exact ⟨_, (Sig.C45_accepted_partial mode c hE _).2 ⟨hm, rfl, key.1 ha⟩⟩
  · rintro ⟨s, e⟩
    obtain ⟨hm, -, ha⟩ := (Sig.C45_accepted_partial mode c hE s).1 e
    exact ⟨_, (Sig.C45_accepted_partial mode _ hE' _).2 ⟨hm, rfl, key.2 ha⟩⟩

namespace Ex134

/-- The built-in set 256-paramSetB, whose base point has x = 1, with x = 1 + p. -/
def params : CurveParams :=
  moved Curves.c256B 1 0x8d91e471e0989cda27df505a453f2b7635294f2ddf23e3b122acc99c9e9f1e14 Sig.B42.p 1 0

def s : Sig := given 1 params

/-- The set itself. -/
def t : Sig := given 1 Curves.c256B

theorem accepted : new 1 params = .ok s := by decide +kernel

/-- The case meets the hypotheses of the theorem above, and both sides hold. -/
example : Curves.c256B.p = some (Sig.B42.p : Int) ∧ Curves.c256B.x = some 1 ∧
    Curves.c256B.y = some 0x8d91e471e0989cda27df505a453f2b7635294f2ddf23e3b122acc99c9e9f1e14 ∧ ¬ Edwards t ∧ ¬ Edwards s ∧
    new 1 params = .ok s ∧ new 1 Curves.c256B = .ok t := by
  refine ⟨by decide +kernel, by decide +kernel, by decide +kernel, ?_, ?_, accepted, by decide +kernel⟩ <;>
    · unfold Edwards
      decide +kernel

/-- The private keys 1 and q - 1. -/
def one : Bytes := beBytes 32 1
def key : Bytes := beBytes 32 (Sig.B42.q - 1)

/-- A digest, q - ((1 + p) mod q). -/
def dg : Bytes := beBytes 32 (Sig.B42.q - (1 + Sig.B42.p) % Sig.B42.q)

def sig : Bytes :=
  match s.sign 2 (fun _ => []) (.bytes key) (.bytes dg) (.bytes one) with
  | some (.ok b) => b
  | _ => []

theorem signed : s.sign 2 (fun _ => []) (.bytes key) (.bytes dg) (.bytes one) = some (.ok sig) := by decide +kernel

theorem signs_of (d dg rk sig : Bytes) (hne : rk ≠ [])
    (e : s.sign 2 (fun _ => []) (.bytes d) (.bytes dg) (.bytes rk) = some (.ok sig)) : Signs s d dg rk sig := by
  have a : SigCell s 0 0 [.inst "GOST34102012" (sigAttrs s 0)] := rfl
  have f := C104_sign a (by decide +kernel) (by decide +kernel) 2 739 le_rfl (by decide +kernel) (.bytes d) (.bytes dg) (.bytes rk)
    (fun w hw => by cases hw) (fun _ => []) (fun hc => by
      rw [isEmpty_data] at hc
      exact absurd (Option.some.inj hc) hne)
  rw [show pyVal (.bytes d) _ = PyVal.bytes d from rfl, show pyVal (.bytes dg) _ = PyVal.bytes dg from rfl,
    show pyVal (.bytes rk) _ = PyVal.bytes rk from rfl, e] at f
  obtain ⟨h', v, f, -, -, g⟩ := f
  exact ⟨0, 0, _, h', 2, 739, _, _, _, v, a, le_rfl, rfl, rfl, rfl, hne, f, g⟩

theorem signs : Signs s key dg one sig := signs_of _ _ _ _ (by decide) signed

theorem verify_of (pk dg sig : Bytes) (b : Bool) (e : s.verify 2 (.bytes pk) (.bytes dg) (.bytes sig) = some (.ok b))
    {me o : Nat} {h : Heap} {n : Nat} (a : SigCell s me o h) (hn : 739 ≤ n) :
    ∃ l, call package 3 (n + 4) "GOST34102012.verify" [.ref me, .bytes pk, .bytes dg, .bytes sig] h =
      ok (.bool b) (h ++ l) := by
  have f := C104_verify a (by decide +kernel) (by decide +kernel) 2 n hn (by decide +kernel) (by decide +kernel)
    (.bytes pk) (.bytes dg) (.bytes sig)
  rw [show pyVal (.bytes pk) h = PyVal.bytes pk from rfl, show pyVal (.bytes dg) h = PyVal.bytes dg from rfl,
    show pyVal (.bytes sig) h = PyVal.bytes sig from rfl, e] at f
  exact f

end Ex134

/-- `public_key_generate(key)` as it is written, called in some memory for an object with the attributes `s`, returns the
byte array `pk`. -/
def PublicKey (s : Sig) (d pk : Bytes) : Prop :=
  ∃ (me o : Nat) (h h' : Heap) (F n : Nat) (v : Nat), SigCell s me o h ∧ 739 ≤ n ∧
    call package (F + 1) (n + 4) "GOST34102012.public_key_generate" [.ref me, .bytes d] h = ok (.ref v) h' ∧
    bytesOf (.ref v) h' = some pk

theorem publicKey_of (s : Sig) (h0 : 0 < s.p) (hp : s.p ≤ 2 ^ 512) (F : Nat) (d pk : Bytes)
    (e : s.publicKeyGenerate F (.bytes d) = some (.ok pk)) : PublicKey s d pk := by
  have a : SigCell s 0 0 [.inst "GOST34102012" (sigAttrs s 0)] := rfl
  have f := C104_public_key a h0 hp F 739 le_rfl (.bytes d)
  rw [show pyVal (.bytes d) _ = PyVal.bytes d from rfl, e] at f
  obtain ⟨h', v, f, -, -, g⟩ := f
  exact ⟨0, 0, _, h', F, 739, v, a, le_rfl, f, g⟩

/-- C134 fails for public keys: the two objects, whose base points are equal modulo p, are both created, and from the same
private key they return different byte arrays. The one made with 1 + p encodes a coordinate which is not below p. -/
theorem C134_public_key_negation :
    ∃ (s t : Sig) (d pk pk' : Bytes), new 1 Ex134.params = .ok s ∧ new 1 Curves.c256B = .ok t ∧
      PublicKey s d pk ∧ PublicKey t d pk' ∧ pk ≠ pk' ∧ s.p ≤ (beNat (pk.take 32) : Int) := by
  refine ⟨Ex134.s, Ex134.t, Ex134.one,
    beBytes 32 (1 + Sig.B42.p) ++ beBytes 32 0x8d91e471e0989cda27df505a453f2b7635294f2ddf23e3b122acc99c9e9f1e14,
    beBytes 32 1 ++ beBytes 32 0x8d91e471e0989cda27df505a453f2b7635294f2ddf23e3b122acc99c9e9f1e14,
    Ex134.accepted, by decide +kernel, publicKey_of _ (by decide +kernel) (by decide +kernel) 2 _ _ (by decide +kernel),
    publicKey_of _ (by decide +kernel) (by decide +kernel) 2 _ _ (by decide +kernel), by decide +kernel, by decide +kernel⟩

/-- C134 fails for signatures: the object made with 1 + p signs with the private key q - 1, and with the public key which
encodes (q - 1)·P on that curve `verify`, as it is written, returns False for the signature, in every memory. -/
theorem C134_sign_negation :
    new 1 Ex134.params = .ok Ex134.s ∧ Signs Ex134.s Ex134.key Ex134.dg Ex134.one Ex134.sig ∧
      (∃ P, Good Ex134.t Sig.B42.p Sig.B42.q P ∧ EncodesPoint Ex134.t Sig.B42.p Sig.B42.pk ((Sig.B42.q - 1) • P)) ∧
      ∀ (me o : Nat) (h : Heap) (n : Nat), SigCell Ex134.s me o h → 739 ≤ n →
        ∃ l, call package 3 (n + 4) "GOST34102012.verify"
          [.ref me, .bytes Sig.B42.pk, .bytes Ex134.dg, .bytes Ex134.sig] h = ok (.bool false) (h ++ l) := by
  refine ⟨Ex134.accepted, Ex134.signs, ?_, fun me o h n a hn => ?_⟩
  · obtain ⟨-, P, hg, he, -⟩ := Sig.C42_statement_false
    exact ⟨P, hg, he⟩
  · exact Ex134.verify_of _ _ _ _ (by decide +kernel) a hn

/-- `verify(pk, dg, sig)` as it is written, called in some memory for an object with the attributes `s`, returns `b`. -/
def Verifies (s : Sig) (pk dg sig : Bytes) (b : Bool) : Prop :=
  ∃ (me o : Nat) (h h' : Heap) (F n : Nat), SigCell s me o h ∧ 739 ≤ n ∧
    call package (F + 1) (n + 4) "GOST34102012.verify" [.ref me, .bytes pk, .bytes dg, .bytes sig] h = ok (.bool b) h'

/-- In the model. -/
theorem publicKey_iff (s : Sig) (h0 : 0 < s.p) (hp : s.p ≤ 2 ^ 512) (d pk : Bytes) :
    PublicKey s d pk ↔ ∃ F, s.publicKeyGenerate F (.bytes d) = some (.ok pk) := by
  constructor
  · rintro ⟨me, o, h, h', F, n, v, a, hn, hc, e⟩
    have f := C104_public_key a h0 hp F n hn (.bytes d)
    rw [hc] at f
    exact ⟨F, bytesResult_ok f e⟩
  · rintro ⟨F, e⟩
    exact publicKey_of s h0 hp F d pk e

theorem signs_iff (s : Sig) (h0 : 0 < s.p) (hp : s.p ≤ 2 ^ 512) (q0 : 0 < s.q) (d dg rk sig : Bytes) :
    Signs s d dg rk sig ↔ d.length = s.size ∧ dg.length = s.size ∧ rk ≠ [] ∧ (beNat rk : Int) < s.q ∧
      ∃ F, signWith s F d dg rk = some (.ok sig) := by
  constructor
  · rintro ⟨me, o, h, h', F, n, kv, dv, rv, v, a, hn, ek, ed, er, hne, hc, hsig⟩
    have nr : (pyVal rv h).isEmpty = false := by rw [← Bool.not_eq_true, isEmpty_data, er]; simpa using hne
    have f := C104_sign a h0 hp F n hn q0 kv dv rv (fun w hw => by
      subst hw
      exact get_lt (Streebog.get_of_bytes er)) (fun _ => []) (fun hc => by rw [nr] at hc; cases hc)
    rw [hc] at f
    obtain ⟨d', dg', rk', e1, l1, e2, l2, e3, lt, m⟩ := Sig.sign_ok (bytesResult_ok f hsig)
    rw [pyVal_data, ek] at e1
    rw [pyVal_data, ed] at e2
    rw [pyVal_data, er] at e3
    rw [← Option.some.inj e1] at l1 m
    rw [← Option.some.inj e2] at l2 m
    rcases e3 with ⟨e, -⟩ | ⟨e, -⟩
    · rw [← Option.some.inj e] at lt m
      exact ⟨l1, l2, hne, lt, F, m⟩
    · exact absurd (Option.some.inj e) hne
  · rintro ⟨l1, l2, hne, lt, F, m⟩
    have e := Sig.sign_explicit (s := s) (sk := .bytes d) (dgv := .bytes dg) (rkv := .bytes rk) rfl l1 rfl l2 rfl hne F
      (fun _ => [])
    rw [if_neg (by omega), m] at e
    have a : SigCell s 0 0 [.inst "GOST34102012" (sigAttrs s 0)] := rfl
    have f := C104_sign a h0 hp F 739 le_rfl q0 (.bytes d) (.bytes dg) (.bytes rk) (fun w hw => by cases hw) (fun _ => [])
      (fun hc => by
        rw [isEmpty_data] at hc
        exact absurd (Option.some.inj hc) hne)
    rw [show pyVal (.bytes d) _ = PyVal.bytes d from rfl, show pyVal (.bytes dg) _ = PyVal.bytes dg from rfl,
      show pyVal (.bytes rk) _ = PyVal.bytes rk from rfl, e] at f
    obtain ⟨h', v, f, -, -, g⟩ := f
    exact ⟨0, 0, _, h', F, 739, _, _, _, v, a, le_rfl, rfl, rfl, rfl, hne, f, g⟩

theorem verifies_iff (s : Sig) (h0 : 0 < s.p) (hp : s.p ≤ 2 ^ 512) (q0 : 0 < s.q) (hq : s.q ≤ 2 ^ 512) (pk dg sig : Bytes)
    (b : Bool) : Verifies s pk dg sig b ↔ ∃ F, s.verify F (.bytes pk) (.bytes dg) (.bytes sig) = some (.ok b) := by
  constructor
  · rintro ⟨me, o, h, h', F, n, a, hn, hc⟩
    have f := C104_verify a h0 hp F n hn q0 hq (.bytes pk) (.bytes dg) (.bytes sig)
    rw [show pyVal (.bytes pk) h = PyVal.bytes pk from rfl, show pyVal (.bytes dg) h = PyVal.bytes dg from rfl,
      show pyVal (.bytes sig) h = PyVal.bytes sig from rfl, hc] at f
    refine ⟨F, ?_⟩
    match hR : s.verify F (.bytes pk) (.bytes dg) (.bytes sig), f with
    | some (.ok b'), ⟨l, e⟩ =>
      simp only [ok, Prod.mk.injEq, Except.ok.injEq, Val.bool.injEq] at e
      rw [e.1]
    | some (.error _), ⟨l, e⟩ => simp [ok, fail] at e
    | none, ⟨l, e⟩ => simp [ok, fail] at e
  · rintro ⟨F, e⟩
    have a : SigCell s 0 0 [.inst "GOST34102012" (sigAttrs s 0)] := rfl
    have f := C104_verify a h0 hp F 739 le_rfl q0 hq (.bytes pk) (.bytes dg) (.bytes sig)
    rw [show pyVal (.bytes pk) _ = PyVal.bytes pk from rfl, show pyVal (.bytes dg) _ = PyVal.bytes dg from rfl,
      show pyVal (.bytes sig) _ = PyVal.bytes sig from rfl, e] at f
    obtain ⟨l, f⟩ := f
    exact ⟨0, 0, _, _, F, 739, a, le_rfl, f⟩

section
variable {s : Sig} {p q : Nat} [Fact p.Prime] {P : (curve s p).Point} (g : Good s p q P) (hs : s.size ≤ 64) {x y : Int}
    (h1 : s.p ∣ x - s.x) (h2 : s.p ∣ y - s.y) (r1 : 0 ≤ x) (r2 : x < (256 ^ s.size : Nat)) (r3 : 0 ≤ y)
    (r4 : y < (256 ^ s.size : Nat))
include g hs h1 h2 r1 r2 r3 r4

/-- C134, public keys: on a good curve, with coordinates of the base point which are congruent to the reduced ones and fit
the size of the mode, the public keys of all private keys below q but 1 are the same. Missing: the private key 1. -/
theorem C134_public_key_partial (d pk : Bytes) (hd : beNat d ≠ 1) (hq : beNat d < q) :
    PublicKey { s with x := x, y := y } d pk ↔ PublicKey s d pk := by
  obtain ⟨b0, b1, b2, b3, b4⟩ := good_bounds g hs
  rw [publicKey_iff _ b0 b1, publicKey_iff { s with x := x, y := y } b0 b1]
  simp only [Sig.publicKey_moved g h1 h2 r1 r2 r3 r4 _ (.bytes d) fun d' e => by
    rw [← Option.some.inj (show some d = some d' from e)]
    exact ⟨hd, hq⟩]

/-- C134, signatures: the same byte arrays are returned by `sign` for all private keys, digests and random numbers but 1.
Missing: the random number 1. -/
theorem C134_sign_partial (d dg rk sig : Bytes) (hk : beNat rk ≠ 1) :
    Signs { s with x := x, y := y } d dg rk sig ↔ Signs s d dg rk sig := by
  obtain ⟨b0, b1, b2, b3, b4⟩ := good_bounds g hs
  rw [signs_iff _ b0 b1 b2, signs_iff { s with x := x, y := y } b0 b1 b2]
  dsimp only
  refine and_congr_right fun _ => and_congr_right fun _ => and_congr_right fun _ => and_congr_right fun lt => ?_
  rw [g.hq] at lt
  simp only [Sig.signWith_moved g h1 h2 r1 r2 r3 r4 _ d dg rk hk (by exact_mod_cast lt)]

/-- C134, verification: the same answers for all public keys with coordinates other than 0, all digests and all signatures
whose second half is not e (the digest modulo q, or 1 if that is 0). Missing: second halves equal to e, for which the base
point is multiplied by 1, and public keys with a coordinate 0, for which the code uses the base point (C105). -/
theorem C134_verify_partial (pk dg sig : Bytes) (b : Bool) (kx : 0 < beNat (pk.take s.size)) (ky : 0 < beNat (pk.drop s.size))
    (hz : beNat (sig.drop s.size) ≠ stdE q dg) :
    Verifies { s with x := x, y := y } pk dg sig b ↔ Verifies s pk dg sig b := by
  obtain ⟨b0, b1, b2, b3, b4⟩ := good_bounds g hs
  rw [verifies_iff _ b0 b1 b2 b3, verifies_iff { s with x := x, y := y } b0 b1 b2 b3]
  have e : ∀ F, Sig.verifyBytes { s with x := x, y := y } F pk dg sig = s.verifyBytes F pk dg sig := fun F =>
    Sig.verifyBytes_moved g h1 h2 r1 r2 r3 r4 F pk dg sig (by rw [pyUpto_nat]; exact kx) (by rw [pyFrom_nat]; exact ky)
      (by rw [pyFrom_nat]; exact hz)
  unfold Sig.verify
  simp only [PyVal.data?, Option.getD_some, e]

end

/-- The case above meets the hypotheses of the three theorems. -/
example : ∃ P, Good Ex134.t Sig.B42.p Sig.B42.q P ∧ Ex134.t.size ≤ 64 ∧ Ex134.s = { Ex134.t with x := 1 + Sig.B42.p } ∧
    Ex134.t.p ∣ (1 + Sig.B42.p : Int) - Ex134.t.x ∧ (1 + Sig.B42.p : Int) < (256 ^ Ex134.t.size : Nat) ∧
    beNat (beBytes 32 2) ≠ 1 ∧ beNat (beBytes 32 2) < Sig.B42.q ∧ 0 < beNat (Sig.B42.pk.take 32) ∧
    0 < beNat (Sig.B42.pk.drop 32) ∧ beNat ((beBytes 32 3 ++ beBytes 32 5).drop 32) ≠ stdE Sig.B42.q Ex134.dg := by
  obtain ⟨-, P, hg, -⟩ := Sig.C42_statement_false
  exact ⟨P, hg, by decide +kernel, by decide +kernel, by decide +kernel, by decide +kernel, by decide +kernel,
    by decide +kernel, by decide +kernel, by decide +kernel, by decide +kernel⟩

end Gost.Src
