import Verif.Props.SignatureNonce

/-! Property C118: the random value of a signature gives away the private key, and the other way round. -/

namespace Gost.Sig
open Spec (beNat beBytes)

/-- C118, signature: with the random value of one signature, given or drawn, the digest and the signature are the
private key modulo q; with the private key they are the random value. -/
theorem C118_signature {s : Sig} {p q : Nat} [Fact p.Prime] {P : (curve s p).Point} (hg : Good s p q P)
    {sk dgv rkv : PyVal} {d dg : Bytes} (hd : sk.data? = some d) (hdg : dgv.data? = some dg) {F : Nat} {rand : Nat → Bytes}
    {sig : Bytes} (h : s.sign F rand sk dgv rkv = some (.ok sig)) :
    ∃ rk, ((rkv.data? = some rk ∧ rk ≠ []) ∨ (rkv.data? = some [] ∧ ∃ i, rk = rand i)) ∧
      (beNat d : ZMod q) = ((beNat (sig.drop s.size) : ZMod q) - (beNat rk : ZMod q) * (stdE q dg : ZMod q)) *
        (beNat (sig.take s.size) : ZMod q)⁻¹ ∧
      (beNat rk : ZMod q) = ((beNat (sig.drop s.size) : ZMod q) - (beNat d : ZMod q) * (beNat (sig.take s.size) : ZMod q)) *
        (stdE q dg : ZMod q)⁻¹ := by
  have : Fact q.Prime := ⟨hg.qprime⟩
  have hq0 := hg.qprime.pos
  have hq1 := hg.qprime.one_lt
  obtain ⟨-, -, rk, r, sg, e1, st, hsig⟩ := C41_sign_std hg hd hdg h
  obtain ⟨-, -, ⟨x, y, hn, a2, a3⟩, a4, a5, a6⟩ := st
  have hrq : r < q := by rw [← a3]; exact Nat.mod_lt _ hq0
  have hsq : sg < q := by rw [a5]; exact Nat.mod_lt _ hq0
  have hsz := hg.qsize
  obtain ⟨p1, p2⟩ := pair_parts s.size r sg (by omega) (by omega)
  have hr0 : (r : ZMod q) ≠ 0 := by
    rw [Ne, ZMod.natCast_eq_zero_iff]
    intro hdv
    have := Nat.le_of_dvd (by omega) hdv
    omega
  have he0 : (stdE q dg : ZMod q) ≠ 0 := by
    rw [Ne, ZMod.natCast_eq_zero_iff]
    intro hdv
    have h1 : stdE q dg < q := by
      unfold stdE
      have := Nat.mod_lt (beNat dg) hq0
      split <;> omega
    have h2 : 0 < stdE q dg := by
      unfold stdE
      split <;> omega
    have := Nat.le_of_dvd h2 hdv
    omega
  have c1 : (sg : ZMod q) = r * beNat d + beNat rk * stdE q dg := by
    rw [a5, ZMod.natCast_mod]; push_cast; rfl
  refine ⟨rk, ?_, ?_, ?_⟩
  · exact e1
  · rw [hsig, p1, p2, c1, eq_mul_inv_iff_mul_eq₀ hr0]
    ring
  · rw [hsig, p1, p2, c1, eq_mul_inv_iff_mul_eq₀ he0]
    ring

/-- C118: private keys below q which give the same signature of the same digest with the same random value are equal. -/
theorem C118_key {s : Sig} {p q : Nat} [Fact p.Prime] {P : (curve s p).Point} (hg : Good s p q P)
    {sk sk' dgv rkv : PyVal} {d d' dg rk : Bytes} (hd : sk.data? = some d) (hd' : sk'.data? = some d') (l : beNat d < q)
    (l' : beNat d' < q) (hl : d.length = d'.length) (hdg : dgv.data? = some dg) (hrk : rkv.data? = some rk) (hne : rk ≠ [])
    {F F' : Nat} {rand rand' : Nat → Bytes} {sig : Bytes} (h : s.sign F rand sk dgv rkv = some (.ok sig))
    (h' : s.sign F' rand' sk' dgv rkv = some (.ok sig)) : d = d' := by
  obtain ⟨r1, e1, f1, -⟩ := C118_signature hg hd hdg h
  obtain ⟨r2, e2, f2, -⟩ := C118_signature hg hd' hdg h'
  have k1 : r1 = rk := by
    rcases e1 with ⟨e, -⟩ | ⟨e, -⟩
    · rw [hrk] at e; cases e; rfl
    · rw [hrk] at e; cases e; exact absurd rfl hne
  have k2 : r2 = rk := by
    rcases e2 with ⟨e, -⟩ | ⟨e, -⟩
    · rw [hrk] at e; cases e; rfl
    · rw [hrk] at e; cases e; exact absurd rfl hne
  rw [k1] at f1
  rw [k2, ← f1] at f2
  have := (ZMod.natCast_eq_natCast_iff' _ _ _).1 f2
  rw [Nat.mod_eq_of_lt l, Nat.mod_eq_of_lt l'] at this
  exact (beNat_inj _ _ hl.symm this).symm

/-- A case, on the built-in curve 256-paramSetB: the private key 2 from the digest 1 and the random value 2. -/
example : ((2 : Nat) : ZMod B42.q) = ((B42.s2 : ZMod B42.q) - ((2 : Nat) : ZMod B42.q) * ((1 : Nat) : ZMod B42.q)) * (B42.r2 : ZMod B42.q)⁻¹ := by
  obtain ⟨-, P, hg, -, -, -, -, f⟩ := C41_example
  obtain ⟨rk, e, g, -⟩ := C118_signature hg rfl rfl (f 256 (by decide +kernel)).2.1
  have k : rk = B42.two := by
    rcases e with ⟨e, -⟩ | ⟨e, -⟩
    · cases e; rfl
    · exact absurd e (by decide +kernel)
  rw [k, show beNat B42.two = 2 by decide +kernel, show stdE B42.q B42.one = 1 by decide +kernel,
    show beNat ((beBytes 32 B42.r2 ++ beBytes 32 B42.s2).drop (given 1 Curves.c256B).size) = B42.s2 by decide +kernel,
    show beNat ((beBytes 32 B42.r2 ++ beBytes 32 B42.s2).take (given 1 Curves.c256B).size) = B42.r2 by decide +kernel] at g
  exact g

end Gost.Sig
