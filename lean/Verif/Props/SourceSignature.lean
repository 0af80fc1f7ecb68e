import Verif.SourceProofs.Curves
import Verif.Props.Depth
import Verif.Props.Signature
import Verif.Props.SignatureBuiltin

/-! C104, C105: the text of `gost_34_10_2012.py` computes the functions of the model, and the signature of
GOST R 34.10-2012. -/

namespace Gost.Src

open Spec (beNat beBytes)
open SigSrc

/-- With 739 nested calls `_invert` ends for every modulus up to 2^512. -/
theorem deep_of_le {m : Int} (h0 : 0 < m) (h : m ≤ 2 ^ 512) {n : Nat} (hn : 739 ≤ n) : Deep n m :=
  fun v => (Sig.C79_enough v m h0).1 h n hn

theorem gcdexLim_some_of_natAbs : ∀ (k : Nat) (v m : Int), m.natAbs ≤ k → (Sig.gcdexLim (k + 1) v m).isSome = true
  | 0, v, m, h => by
    have : m = 0 := by omega
    subst this
    rfl
  | k + 1, v, m, h => by
    by_cases hm : m = 0
    · subst hm
      rfl
    · rw [Sig.gcdexLim_isSome _ _ _ hm]
      have := Sig.natAbs_fmod_lt v m hm
      exact gcdexLim_some_of_natAbs k m _ (by omega)

/-- For every modulus there is a number of nested calls which is enough. -/
theorem deep_any (m : Int) {n : Nat} (hn : m.natAbs < n) : Deep n m := by
  intro v
  obtain ⟨r, hr⟩ := Option.isSome_iff_exists.1 (gcdexLim_some_of_natAbs m.natAbs v m (Nat.le_refl _))
  have e := Sig.gcdexLim_sound _ _ _ _ hr
  rw [Sig.invertLim, Sig.gcdexLim_le hn hr, Sig.invert, e]

theorem pyVal_old {v : Val} {h : Heap} (k : ∀ w, v = .ref w → w < h.length) {l : Heap} :
    pyVal v (h ++ l) = pyVal v h := by
  cases v with
  | ref r => simp only [pyVal, bytesOf_old k]
  | _ => rfl

/-- C104, constructor: `new(mode, curve)` as it is written, in any memory, for any mode and any dictionary whose values
for the parameters of a curve are integers, and which may have other keys, makes the object of the model or raises its
exception. Nothing which exists before is changed. The modulus is bounded by the limit of 743 nested calls. -/
theorem C104_new (L n : Nat) (hn : 739 ≤ n) (h : Heap) (mode : Int) {l : List (String × Val)} {c : CurveParams}
    (d : CurveDict l c) (h0 : 0 < c.p.getD 1) (hp : c.p.getD 1 ≤ 2 ^ 512) :
    NewResult (call package L (n + 4) "Signature.new" [.int mode, .dict l] h) (sigOid mode) h (Sig.new mode c) :=
  new_ok L n h mode d (deep_of_le h0 hp hn)

/-- C104, constructor for all moduli, also zero and negative ones, with enough nested calls. -/
theorem C104_new_any (L : Nat) (h : Heap) (mode : Int) {l : List (String × Val)} {c : CurveParams} (d : CurveDict l c) :
    ∃ N, ∀ n, N ≤ n → NewResult (call package L (n + 4) "Signature.new" [.int mode, .dict l] h) (sigOid mode) h
      (Sig.new mode c) :=
  ⟨(c.p.getD 1).natAbs + 1, fun n hn => new_ok L n h mode d (deep_any _ (by omega))⟩

section
variable {s : Sig} {me o : Nat} {h : Heap} (a : SigCell s me o h) (h0 : 0 < s.p) (hp : s.p ≤ 2 ^ 512) (F n : Nat)
  (hn : 739 ≤ n)
include a h0 hp hn

/-- C104, `public_key_generate` as it is written, on any object and for any argument. `F` is the number of turns which
each loop may make. Nothing which exists is changed, also when it raises or does not end. -/
theorem C104_public_key (kv : Val) :
    BytesResult [] (call package (F + 1) (n + 4) "GOST34102012.public_key_generate" [.ref me, kv] h) h
      (s.publicKeyGenerate F (pyVal kv h)) :=
  public_key_ok F n a h0.ne' (deep_of_le h0 hp hn) kv

variable (q0 : 0 < s.q) (hq : s.q ≤ 2 ^ 512)

include q0 hq in
/-- C104, `verify`. -/
theorem C104_verify (kv dv gv : Val) :
    BoolResult (call package (F + 1) (n + 4) "GOST34102012.verify" [.ref me, kv, dv, gv] h) h
      (s.verify F (pyVal kv h) (pyVal dv h) (pyVal gv h)) :=
  verify_ok F n a h0.ne' q0.ne' (deep_of_le h0 hp hn) (deep_of_le q0 hq hn) kv dv gv

include q0 in
/-- C104, `sign` with a random number. The source of random bytes is read, and changed, only if the random number is
the empty byte string. -/
theorem C104_sign (kv dv rv : Val) (hv : ∀ w, rv = .ref w → w < h.length) (rand : Nat → Bytes)
    (src : (pyVal rv h).isEmpty = true → Source rand (F + 2) s.size h) :
    BytesResult (if (pyVal rv h).isEmpty then [0] else [])
      (call package (F + 1) (n + 4) "GOST34102012.sign" [.ref me, kv, dv, rv] h) h
      (s.sign F rand (pyVal kv h) (pyVal dv h) (pyVal rv h)) :=
  sign_ok F n a h0.ne' q0.ne' (deep_of_le h0 hp hn) kv dv rv hv rand src

include q0 in
/-- C104, `sign` without a random number. -/
theorem C104_sign_default (kv dv : Val) (hk : ∀ w, kv = .ref w → w < h.length) (hd : ∀ w, dv = .ref w → w < h.length)
    (rand : Nat → Bytes) (src : Source rand (F + 2) s.size h) :
    BytesResult [0] (call package (F + 1) (n + 4) "GOST34102012.sign" [.ref me, kv, dv] h) h
      (s.sign F rand (pyVal kv h) (pyVal dv h)) := by
  rw [sign_default]
  have e : pyVal (.ref h.length) (h ++ [Obj.bytearray []]) = .bytearray [] := by
    simp only [pyVal, bytesOf_last]
  have f := sign_ok F n (a.mono [Obj.bytearray []]) h0.ne' q0.ne' (deep_of_le h0 hp hn) kv dv (.ref h.length)
    (by intro w hw; cases hw; simp) rand (fun _ => src.mono _)
  rw [e, pyVal_old hk, pyVal_old hd] at f
  exact BytesResult.before ((Ext.refl h).add _) f

end

/-- The dictionary of a table of curves. -/
def tableDict (l : List (String × CurveParams)) : List (String × Val) :=
  (l.map fun nc => (nc.1, curveInts nc.2)).map fun x => (x.1, .dict (intDict x.2))

theorem find_table : ∀ (l : List (String × CurveParams)), (l.map Prod.fst).Nodup → ∀ nc ∈ l,
    findAttr nc.1 (tableDict l) = some (.dict (intDict (curveInts nc.2)))
  | [], _, nc, h => by cases h
  | x :: l, hd, nc, h => by
    simp only [tableDict, List.map_cons, findAttr]
    by_cases e : x.1 = nc.1
    · rw [if_pos e]
      rcases List.mem_cons.1 h with rfl | h
      · rfl
      · simp only [List.map_cons, List.nodup_cons] at hd
        exact absurd (List.mem_map.2 ⟨nc, h, e.symm⟩) hd.1
    · rw [if_neg e]
      rcases List.mem_cons.1 h with rfl | h
      · exact absurd rfl e
      · simp only [List.map_cons, List.nodup_cons] at hd
        exact find_table l hd.2 nc h

theorem keys_table (l : List (String × CurveParams)) : (tableDict l).map Prod.fst = l.map Prod.fst := by
  simp only [tableDict, List.map_map, Function.comp_def]

theorem nodup_builtin : (Curves.builtin.map Prod.fst).Nodup := by
  decide +kernel

/-- C104, the table of curves: evaluating the text of `CURVES_R_1323565_1_024_2019` in any memory gives, in this order, a
dictionary for each curve of the model, with its integers. -/
theorem C104_table (L n : Nat) (h : Heap) :
    ∃ T l, evalTable (ctx L (n + 1)) Signature.curves h = ok T (h ++ l) ∧
      T.map Prod.fst = Curves.builtin.map Prod.fst ∧
      ∀ nc ∈ Curves.builtin, ∃ d, findAttr nc.1 T = some (.dict d) ∧ CurveDict d nc.2 := by
  obtain ⟨l, e⟩ := evalTable_ok L n _ _ h tableVals_eq
  exact ⟨tableDict Curves.builtin, l, e, keys_table _, fun nc hnc =>
    ⟨intDict (curveInts nc.2), find_table _ nodup_builtin nc hnc, curveDict nc.2⟩⟩

end Gost.Src
