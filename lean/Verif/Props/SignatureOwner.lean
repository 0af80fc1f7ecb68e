import Verif.Props.SignatureForge
import Verif.Props.SignatureBuiltin

/-! Property C124: an accepted signature does not say whose it is. -/

namespace Gost.Sig
open Spec (beNat beBytes)
open WeierstrassCurve.Affine

section
variable {s : Sig} {p q : Nat} [Fact p.Prime] {P : (curve s p).Point}

/-- The point of the verification as a multiple of the base point. -/
theorem stdPoint_private (hq : q.Prime) (hP : q • P = 0) (d e r sg : Nat) :
    stdPoint s p q P (d • P) e r sg = (((sg : ZMod q) - r * d) * (e : ZMod q)⁻¹).val • P := by
  have hd : d • P = (d : ZMod q).val • P := by
    rw [ZMod.val_natCast]
    conv_lhs => rw [← Nat.div_add_mod d q, add_nsmul, mul_comm, mul_nsmul', hP, nsmul_zero, zero_add]
  unfold stdPoint
  rw [hd, ← val_mul_nsmul hq hP, ← val_add_nsmul hq hP]
  congr 2
  ring

omit [Fact p.Prime] in
theorem flip_some (R : (curve s p).Point) (pr : ZMod p → Prop) (h : ∃ x y h, R = .some x y h ∧ pr x) :
    ∃ x y h, -R = .some x y h ∧ pr x := by
  obtain ⟨x, y, h, e, hp⟩ := h
  obtain ⟨y', h', e'⟩ := some_of_neg ⟨y, h, e⟩
  exact ⟨x, y', h', e', hp⟩

/-- The public key of a private key, as `public_key_generate` returns it. -/
theorem key_of_private (hg : Good s p q P) {d : Nat} (h0 : 0 < d) (hdq : d < q) {F : Nat} (hF : q ≤ 2 ^ F) {pk : Bytes}
    (hpk : s.publicKeyGenerate F (.bytes (beBytes s.size d)) = some (.ok pk)) :
    EncodesPoint s p pk (d • P) ∧ pk.length = s.size * 2 ∧ addOrderOf (d • P) = q := by
  have hbd : beNat (beBytes s.size d) = d := by
    rw [beNat_beBytes, Nat.mod_eq_of_lt (lt_of_lt_of_le hdq hg.qsize)]
  obtain ⟨b, e1, e2⟩ := C43_private_key hg (sk := .bytes (beBytes s.size d)) rfl (by rw [beBytes_length])
    (by rw [hbd]; exact h0) (by rw [hbd]; exact hdq)
  rw [hbd] at e1
  rw [e2 F hF] at hpk
  have hb : b = pk := by simpa using hpk
  subst hb
  exact ⟨e1, (rep_of_encodes hg.size e1).2, order_nsmul hg.qprime hg.order
    (fun h => by have := Nat.le_of_dvd h0 h; omega)⟩

/-- Another key and another second half give the opposite point: `verify` gives the same answer. -/
theorem accept_opposite (hg : Good s p q P) {dgv : PyVal} {dg pk pk' : Bytes} (h2 : dgv.data? = some dg)
    (l2 : dg.length = s.size) {F : Nat} (hF : q ≤ 2 ^ F) {d d' r sg sg' : Nat} (h0 : 0 < d) (hdq : d < q)
    (h0' : 0 < d') (hdq' : d' < q) (hpk : s.publicKeyGenerate F (.bytes (beBytes s.size d)) = some (.ok pk))
    (hpk' : s.publicKeyGenerate F (.bytes (beBytes s.size d')) = some (.ok pk'))
    (hx : beNat (pk.take s.size) ≠ 0) (hx' : beNat (pk'.take s.size) ≠ 0)
    (hr : r < 256 ^ s.size) (hs : sg < 256 ^ s.size) (hs0 : 0 < sg') (hsq : sg' < q)
    (he : (sg' : ZMod q) - r * d' = -((sg : ZMod q) - r * d)) (hz : (sg' : ZMod q) = sg ∨ (sg' : ZMod q) = -sg)
    (h : s.verify F (.bytes pk) dgv (.bytes (beBytes s.size r ++ beBytes s.size sg)) = some (.ok true)) :
    s.verify F (.bytes pk') dgv (.bytes (beBytes s.size r ++ beBytes s.size sg')) = some (.ok true) := by
  have hq := hg.qprime
  have hP := q_nsmul hg.order
  have hqs := hg.qsize
  obtain ⟨k1, l1, o1⟩ := key_of_private hg h0 hdq hF hpk
  obtain ⟨k1', l1', o1'⟩ := key_of_private hg h0' hdq' hF hpk'
  obtain ⟨t1, t2⟩ := pair_parts s.size r sg hr hs
  obtain ⟨t1', t2'⟩ := pair_parts s.size r sg' hr (by omega)
  have hl : ∀ x, (beBytes s.size r ++ beBytes s.size x).length = s.size * 2 := fun x => by
    rw [List.length_append, beBytes_length, beBytes_length]; omega
  have v := (verify_true hg (pkv := .bytes pk) rfl l1 h2 l2 (sigv := .bytes (beBytes s.size r ++ beBytes s.size sg)) rfl
    (hl _) (.inl ⟨hx, k1⟩) o1 hF).1 h
  refine (verify_true hg (pkv := .bytes pk') rfl l1' h2 l2
    (sigv := .bytes (beBytes s.size r ++ beBytes s.size sg')) rfl (hl _) (.inl ⟨hx', k1'⟩) o1' hF).2 ?_
  rw [t1, t2, stdPoint_private hq hP] at v
  rw [t1', t2', stdPoint_private hq hP, he, neg_mul, val_neg_nsmul hq hP]
  obtain ⟨rg, v⟩ := v
  refine ⟨⟨rg.1, rg.2.1, hs0, hsq⟩, ?_⟩
  rcases v with ⟨v1, v2⟩ | ⟨v1, v2⟩
  · exact .inl ⟨neg_ne_zero.2 v1, flip_some _ (fun x => x.val % q = r) v2⟩
  · refine .inr ⟨neg_eq_zero.2 v1, ?_⟩
    rcases hz with hz | hz
    · rw [hz]; exact v2
    · rw [hz, neg_mul, val_neg_nsmul hq hP]
      exact flip_some _ (fun x : ZMod p => (-2 * x).val % q = r) v2

/-- C124: let `verify` accept r and s for a digest and the public key of d. If r*(d + d') = 2*s modulo q, then it
accepts the same signature for the same digest and the public key of d' (unless that key has the x coordinate 0,
which `verify` does not read). -/
theorem C124_second_key (hg : Good s p q P) {dgv : PyVal} {dg pk pk' : Bytes} (h2 : dgv.data? = some dg)
    (l2 : dg.length = s.size) {F : Nat} (hF : q ≤ 2 ^ F) {d d' r sg : Nat} (h0 : 0 < d) (hdq : d < q)
    (h0' : 0 < d') (hdq' : d' < q) (hpk : s.publicKeyGenerate F (.bytes (beBytes s.size d)) = some (.ok pk))
    (hpk' : s.publicKeyGenerate F (.bytes (beBytes s.size d')) = some (.ok pk'))
    (hx : beNat (pk.take s.size) ≠ 0) (hx' : beNat (pk'.take s.size) ≠ 0)
    (hr : r < q) (hs0 : 0 < sg) (hs : sg < q) (hd : r * (d + d') % q = 2 * sg % q) :
    s.verify F (.bytes pk) dgv (.bytes (beBytes s.size r ++ beBytes s.size sg)) = some (.ok true) ↔
    s.verify F (.bytes pk') dgv (.bytes (beBytes s.size r ++ beBytes s.size sg)) = some (.ok true) := by
  have hqs := hg.qsize
  have e : (r : ZMod q) * (d + d') = 2 * sg := by
    have := (ZMod.natCast_eq_natCast_iff' (r * (d + d')) (2 * sg) q).2 hd
    push_cast at this
    exact this
  exact ⟨accept_opposite hg h2 l2 hF h0 hdq h0' hdq' hpk hpk' hx hx' (by omega) (by omega) hs0 hs
      (by linear_combination -e) (.inl rfl),
    accept_opposite hg h2 l2 hF h0' hdq' h0 hdq hpk' hpk hx' hx (by omega) (by omega) hs0 hs
      (by linear_combination -e) (.inl rfl)⟩

/-- C124: the number d' exists and is the only one below q; it is another key than d if the signature was made with d
(s = r*d + k*e with k and e prime to q). -/
theorem C124_which (hq : q.Prime) (hodd : 2 < q) {d r sg : Nat} (hr0 : 0 < r) (hr : r < q) :
    (∃! d', d' < q ∧ r * (d + d') % q = 2 * sg % q) ∧
    ∀ k e, ¬ q ∣ k → ¬ q ∣ e → sg % q = (r * d + k * e) % q →
      ∀ d', r * (d + d') % q = 2 * sg % q → d' ≠ d := by
  have : Fact q.Prime := ⟨hq⟩
  have hr' := cast_ne_zero hr0 hr
  have cast : ∀ d' : Nat, r * (d + d') % q = 2 * sg % q ↔ (r : ZMod q) * (d + d') = 2 * sg := fun d' => by
    rw [← ZMod.natCast_eq_natCast_iff' (r * (d + d')) (2 * sg) q]
    push_cast
    exact Iff.rfl
  constructor
  · refine ⟨(2 * (sg : ZMod q) * (r : ZMod q)⁻¹ - d).val, ⟨ZMod.val_lt _, ?_⟩, ?_⟩
    · rw [cast, ZMod.natCast_val, ZMod.cast_id]
      field_simp
      ring
    · rintro x ⟨hx, hxe⟩
      rw [cast] at hxe
      have : (x : ZMod q) = 2 * (sg : ZMod q) * (r : ZMod q)⁻¹ - d := by
        rw [← hxe]
        field_simp
        ring
      rw [← this, ZMod.val_natCast, Nat.mod_eq_of_lt hx]
  · rintro k e hk he hs d' hd rfl
    rw [cast] at hd
    have hs' : (sg : ZMod q) = r * d' + k * e := by
      have := (ZMod.natCast_eq_natCast_iff' sg (r * d' + k * e) q).2 hs
      push_cast at this
      exact this
    have h2 : (2 : ZMod q) ≠ 0 := cast_ne_zero (n := 2) (by omega) hodd
    have : (2 : ZMod q) * (k * e) = 0 := by rw [hs'] at hd; linear_combination -hd
    rcases mul_eq_zero.1 this with h | h
    · exact h2 h
    · rcases mul_eq_zero.1 h with h | h
      · exact hk ((ZMod.natCast_eq_zero_iff _ _).1 h)
      · exact he ((ZMod.natCast_eq_zero_iff _ _).1 h)

/-- C124: r and q - s is accepted for the public key of q - d exactly if r and s is for that of d. -/
theorem C124_negative (hg : Good s p q P) {dgv : PyVal} {dg pk pk' : Bytes} (h2 : dgv.data? = some dg)
    (l2 : dg.length = s.size) {F : Nat} (hF : q ≤ 2 ^ F) {d r sg : Nat} (h0 : 0 < d) (hdq : d < q)
    (hpk : s.publicKeyGenerate F (.bytes (beBytes s.size d)) = some (.ok pk))
    (hpk' : s.publicKeyGenerate F (.bytes (beBytes s.size (q - d))) = some (.ok pk'))
    (hx : beNat (pk.take s.size) ≠ 0) (hr : r < q) (hs0 : 0 < sg) (hs : sg < q) :
    pk'.take s.size = pk.take s.size ∧
    (s.verify F (.bytes pk) dgv (.bytes (beBytes s.size r ++ beBytes s.size sg)) = some (.ok true) ↔
      s.verify F (.bytes pk') dgv (.bytes (beBytes s.size r ++ beBytes s.size (q - sg))) = some (.ok true)) := by
  have hqs := hg.qsize
  have hP := q_nsmul hg.order
  have c : ∀ n : Nat, n < q → ((q - n : Nat) : ZMod q) = -n := fun n hn => by
    rw [Nat.cast_sub (by omega), ZMod.natCast_self, zero_sub]
  have hsame : pk'.take s.size = pk.take s.size := by
    obtain ⟨⟨x, y, hxp, -, rfl, hn, e⟩, -⟩ := key_of_private hg h0 hdq hF hpk
    obtain ⟨⟨x', y', hxp', -, rfl, hn', e'⟩, -⟩ := key_of_private hg (d := q - d) (by omega) (by omega) hF hpk'
    have hneg : (q - d) • P = -(d • P) := by
      rw [eq_neg_iff_add_eq_zero, ← add_nsmul, Nat.sub_add_cancel (by omega), hP]
    obtain ⟨y2, h2, e2⟩ := some_of_neg ⟨_, hn, e⟩
    rw [hneg, e2] at e'
    have hxx := some_inj e'
    have : x = x' := natCast_inj_of_lt hxp hxp' hxx
    rw [List.take_left' (beBytes_length _ _), List.take_left' (beBytes_length _ _), this]
  refine ⟨hsame, ?_, ?_⟩
  · exact accept_opposite hg h2 l2 hF h0 hdq (by omega) (by omega) hpk hpk' hx (by rw [hsame]; exact hx) (by omega)
      (by omega) (by omega) (by omega) (by rw [c _ hs, c _ hdq]; ring) (.inr (c _ hs))
  · exact accept_opposite hg h2 l2 hF (d := q - d) (d' := d) (by omega) (by omega) h0 hdq hpk' hpk
      (by rw [hsame]; exact hx) hx (by omega) (by omega) hs0 hs (by rw [c _ hs, c _ hdq]; ring)
      (.inr (by rw [c _ hs]; ring))

end

/-- C124 for the built-in curves: for every private key d and every r and s, the only other private key d' with
r*(d + d') = 2*s modulo q has the same answers of `verify`, for every digest. -/
theorem C124_builtin : ∀ nc ∈ Curves.builtin, ∃ (mode : Int) (s : Sig) (q : Nat), (mode = 1 ∨ mode = 2) ∧
    new mode nc.2 = .ok s ∧ s.q = q ∧
    ∀ d r sg F, 0 < d → d < q → 0 < r → r < q → 0 < sg → sg < q → q ≤ 2 ^ F →
      ∃ d', d' < q ∧ r * (d + d') % q = 2 * sg % q ∧
        ∀ pk pk', 0 < d' → s.publicKeyGenerate F (.bytes (beBytes s.size d)) = some (.ok pk) →
          s.publicKeyGenerate F (.bytes (beBytes s.size d')) = some (.ok pk') →
          beNat (pk.take s.size) ≠ 0 → beNat (pk'.take s.size) ≠ 0 →
          ∀ (dgv : PyVal) (dg : Bytes), dgv.data? = some dg → dg.length = s.size →
          (s.verify F (.bytes pk) dgv (.bytes (beBytes s.size r ++ beBytes s.size sg)) = some (.ok true) ↔
            s.verify F (.bytes pk') dgv (.bytes (beBytes s.size r ++ beBytes s.size sg)) = some (.ok true)) := by
  intro nc hnc
  obtain ⟨mode, s, p, q, hf, P, hm, hn, hg, -⟩ := good_builtin nc hnc
  refine ⟨mode, s, q, hm, hn, hg.hq, fun d r sg F h0 hdq hr0 hr hs0 hs hF => ?_⟩
  obtain ⟨d', ⟨h1, h2⟩, -⟩ := (C124_which hg.qprime hg.qodd (d := d) (sg := sg) hr0 hr).1
  exact ⟨d', h1, h2, fun pk pk' h0' hpk hpk' hx hx' dgv dg e l =>
    C124_second_key hg e l hF h0 hdq h0' h1 hpk hpk' hx hx' hr hs0 hs h2⟩

/-- On the built-in curve 256-paramSetB: one digest with one signature which `verify` accepts for the public keys of the
private keys 1 and q - 3, which are different. -/
theorem C124_example (F : Nat) (hF : B42.q ≤ 2 ^ F) : ∃ pk pk', pk ≠ pk' ∧
    (given 1 Curves.c256B).publicKeyGenerate F (.bytes (beBytes 32 1)) = some (.ok pk) ∧
    (given 1 Curves.c256B).publicKeyGenerate F (.bytes (beBytes 32 (B42.q - 3))) = some (.ok pk') ∧
    ∀ k ∈ [pk, pk'], (given 1 Curves.c256B).verify F (.bytes k) (.bytes (beBytes 32 B42.e))
      (.bytes (beBytes 32 B42.r ++ beBytes 32 B42.e)) = some (.ok true) := by
  obtain ⟨P, hg⟩ : ∃ P, Good (given 1 Curves.c256B) B42.p B42.q P := good_c256B
  have hsz : (given 1 Curves.c256B).size = 32 := by decide +kernel
  have hb : ¬ IsSquare ((given 1 Curves.c256B).b : ZMod B42.p) := by
    have := not_square_of_check (p := B42.p) (b := (given 1 Curves.c256B).b.toNat) 256 (by decide +kernel)
      (by decide +kernel) (by decide +kernel)
    rwa [← Int.cast_natCast, show (((given 1 Curves.c256B).b.toNat : Nat) : Int) = (given 1 Curves.c256B).b from
      by decide +kernel] at this
  obtain ⟨pk, a1, a2⟩ := C43_private_key hg (sk := .bytes (beBytes 32 1)) rfl (by rw [beBytes_length, hsz])
    (by decide +kernel) (by decide +kernel)
  obtain ⟨pk', b1, b2⟩ := C43_private_key hg (sk := .bytes (beBytes 32 (B42.q - 3))) rfl
    (by rw [beBytes_length, hsz]) (by decide +kernel) (by decide +kernel)
  have hx : beNat (pk.take (given 1 Curves.c256B).size) ≠ 0 := fun hx => by
    obtain ⟨y, -, hy, -⟩ := sq_of_zero_x a1 hg.size hx
    exact hb ⟨_, by rw [← hy, pow_two]⟩
  have hx' : beNat (pk'.take (given 1 Curves.c256B).size) ≠ 0 := fun hx => by
    obtain ⟨y, -, hy, -⟩ := sq_of_zero_x b1 hg.size hx
    exact hb ⟨_, by rw [← hy, pow_two]⟩
  have h1 : (given 1 Curves.c256B).verify F (.bytes pk) (.bytes (beBytes 32 B42.e))
      (.bytes (beBytes 32 B42.r ++ beBytes 32 B42.e)) = some (.ok true) := by
    have a1' := a1
    rw [show beNat (beBytes 32 1) = 1 by decide +kernel, one_nsmul] at a1'
    have := C90_forge hg (pkv := .bytes pk) (a := 1) (b := 1) (e := B42.e) (r := B42.r) (sg := B42.e) rfl
      (rep_of_encodes hg.size a1).2 (.inl ⟨hx, a1'⟩) hg.order (F := F) (by
        refine ⟨by decide, by decide, by decide, by decide, ?_, by decide, by decide, by decide, by decide⟩
        rw [one_nsmul, xmod_iff hg.hq (double_c256B hg)]
        decide +kernel) hF
    rwa [hsz] at this
  have hne : pk ≠ pk' := fun h => by
    have := C74_injective hg (sk := .bytes (beBytes 32 1)) (sk' := .bytes (beBytes 32 (B42.q - 3))) rfl
      (by rw [beBytes_length, hsz]) rfl (by rw [beBytes_length, hsz]) (by decide +kernel) (by decide +kernel)
      (by decide +kernel) (by decide +kernel) hF hF (by rw [a2 F hF, b2 F hF, h])
    exact absurd this (by decide +kernel)
  refine ⟨pk, pk', hne, a2 F hF, b2 F hF, ?_⟩
  have h2 := (C124_second_key hg (dgv := .bytes (beBytes 32 B42.e)) rfl (by rw [beBytes_length, hsz]) hF (d := 1)
    (d' := B42.q - 3) (r := B42.r) (sg := B42.e) (by decide) (by decide) (by decide) (by decide)
    (by rw [hsz]; exact a2 F hF) (by rw [hsz]; exact b2 F hF) hx hx' (by decide) (by decide) (by decide)
    (by decide +kernel)).1 (by rw [hsz]; exact h1)
  rw [hsz] at h2
  simp only [List.mem_cons, List.not_mem_nil, or_false]
  rintro k (rfl | rfl)
  · exact h1
  · exact h2

end Gost.Sig
