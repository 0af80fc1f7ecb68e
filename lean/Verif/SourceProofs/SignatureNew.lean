import Verif.SourceProofs.Signature
import Verif.SourceProofs.NewOid

/-! The constructor of `GOST34102012` as it is written: the checks of the curve, the change of an Edwards curve
and the function `new`. -/

namespace Gost.Src
open Gost
namespace SigSrc
open Gost.Sig

/-- What a method does which returns a truth value or raises and which leaves the memory as it is. -/
def boolOut (r : Res Bool) (h : Heap) : Out Val :=
  match r with
  | .ok b => ok (.bool b) h
  | .error e => fail (exc e) h

theorem cmp_eq_int (x y : Int) (h : Heap) : cmpop .eq (.int x) (.int y) h = ok (.bool (x == y)) h := (rfl)

theorem cmp_ne_int (x y : Int) (h : Heap) : cmpop .ne (.int x) (.int y) h = ok (.bool (!(x == y))) h := (rfl)

theorem arith_pow_nat (x : Int) (k : Nat) : arith .pow x k = .ok (x ^ k) := by
  rw [arith, if_neg (by omega), Int.toNat_natCast]

/-- `_check_p_m`. -/
theorem check_p_m_ok (L n : Nat) {s : Sig} {me o : Nat} {h : Heap} (a : SigCell s me o h) :
    call package L (n + 1) "GOST34102012._check_p_m" [.ref me] h = ok (.bool s.checkPM) h := by
  rw [call_succ Fn.GOST34102012._check_p_m, run_body h rfl rfl]
  unfold GOST34102012.m__check_p_m atEnd Sig.checkPM
  have a1 := a
  unfold SigCell sigAttrs at a1
  cases e : s.m == s.p <;> py [a1, cmp_eq_int, e, Bool.not_true, Bool.not_false]

/-- `_check_x_y`. -/
theorem check_x_y_ok (L n : Nat) {s : Sig} {me o : Nat} {h : Heap} (a : SigCell s me o h) :
    call package L (n + 1) "GOST34102012._check_x_y" [.ref me] h = boolOut s.checkXY h := by
  rw [call_succ Fn.GOST34102012._check_x_y, run_body h rfl rfl]
  unfold GOST34102012.m__check_x_y atEnd Sig.checkXY
  have a1 := a
  unfold SigCell sigAttrs at a1
  by_cases hp : s.p = 0
  · rw [if_pos hp]
    have z := fun v => arith_mod_zero v
    rw [hp] at a1
    py [a1, z, boolOut, exc]
  · rw [if_neg hp]
    have hm := fun v => arith_mod v s.p hp
    have p3 : arith .pow s.x 3 = .ok (s.x ^ 3) := arith_pow_nat s.x 3
    cases e : (s.y * s.y).fmod s.p == (s.x ^ 3 + s.x * s.a + s.b).fmod s.p <;>
      py [a1, hm, p3, cmp_ne_int, e, Bool.not_true, Bool.not_false, boolOut]

/-- `_check_q`. -/
theorem check_q_ok (L n : Nat) {s : Sig} {me o : Nat} {h : Heap} (a : SigCell s me o h) :
    call package L (n + 1) "GOST34102012._check_q" [.ref me] h = ok (.bool s.checkQ) h := by
  rw [call_succ Fn.GOST34102012._check_q, run_body h rfl rfl]
  unfold GOST34102012.m__check_q atEnd Sig.checkQ
  have a1 := a
  unfold SigCell sigAttrs at a1
  have e1 : arith .mul (s.size : Int) 8 = .ok ((s.size * 8 : Nat) : Int) := arith_mul_nat s.size 8
  have e2 : arith .floordiv (s.size : Int) 16 = .ok ((s.size / 16 : Nat) : Int) := by
    rw [arith, if_neg (by omega), Int.fdiv_eq_ediv_of_nonneg _ (by omega)]
    rfl
  have e3 : arith .sub ((s.size * 8 : Nat) : Int) ((s.size / 16 : Nat) : Int) =
      .ok ((s.size * 8 - s.size / 16 : Nat) : Int) := by
    rw [arith_sub]
    congr 1
    omega
  have e4 := fun k => arith_pow_nat 2 k
  have tf : ∀ p : Prop, p = True ∨ p = False := fun p => by by_cases hp : p <;> simp [hp]
  rcases tf (s.q < 2 ^ (s.size * 8 - s.size / 16)) with h1 | h1 <;> rcases tf (s.q > 2 ^ (s.size * 8)) with h2 | h2 <;>
    py [a1, e1, e2, e3, e4, h1, h2, decide_true, decide_false, Bool.or_true, Bool.or_false, Bool.not_true, Bool.not_false]

theorem checkP_eq (s : Sig) : s.checkP = if s.q = 0 then .error .zeroDivisionError else .ok true := by
  have hk : ∃ k, (if s.size = 64 then 132 else 32) - 1 = k + 1 := by
    by_cases h : s.size = 64
    · exact ⟨130, by rw [if_pos h]⟩
    · exact ⟨30, by rw [if_neg h]⟩
  obtain ⟨k, hk⟩ := hk
  unfold Sig.checkP
  simp only
  rw [hk]
  by_cases hq : s.q = 0
  · rw [if_pos hq, List.range'_succ, List.foldlM_cons]
    simp only [if_pos hq]
    rfl
  · rw [if_neg hq]
    generalize k + 1 = m
    suffices ∀ i m, List.foldlM (fun (result : Bool) (i : Nat) =>
        if s.q = 0 then (.error .zeroDivisionError : Res Bool)
        else if (s.p ^ i).fmod s.q = (1 : Int).fmod s.q then .ok (result || result)
        else .ok result) true (List.range' i m) = .ok true from this 1 m
    intro i m
    induction m generalizing i with
    | zero => rfl
    | succ m ih =>
      rw [List.range'_succ, List.foldlM_cons]
      simp only [if_neg hq, Bool.or_self, ite_self] at ih ⊢
      rw [ok_bind]
      exact ih _

def checkBody : List Stmt :=
  [.if_ (.cmp .eq (.bin .mod (.bin .pow (.attr (.name "self") "_p") (.name "i")) (.attr
      (.name "self") "_q")) (.bin .mod (.int 1) (.attr (.name "self") "_q")))
      [.assign (.name "result") (.or (.name "result") (.name "result"))]
      []]

theorem check_p_loop (L n : Nat) {s : Sig} {me o : Nat} {h : Heap} (a : SigCell s me o h) (k : Nat) {env : Env}
    (e0 : env "self" = some (.ref me)) (e1 : env "result" = some (.bool true)) :
    atEnd (thenRun (forLoop "i" (fun env h => execs (ctx L n) checkBody env h)
      (pyRange 1 ((k + 2 : Nat) : Int) 1) env h) fun env h => execs (ctx L n) [.ret (.name "result")] env h) =
      boolOut s.checkP h := by
  have a1 := a
  unfold SigCell sigAttrs at a1
  have er : ((k + 2 : Nat) : Int) = ((1 + (k + 1) : Nat) : Int) := by omega
  rw [checkP_eq, er]
  have hr := pyRange_from 1 (k + 1)
  rw [show ((1 : Nat) : Int) = 1 from rfl] at hr
  rw [hr]
  clear hr er
  have e4 := fun k => arith_pow_nat s.p k
  by_cases hq : s.q = 0
  · rw [if_pos hq, List.range_succ_eq_map, List.map_cons, forLoop]
    have z := fun v => arith_mod_zero v
    rw [hq] at a1
    unfold atEnd
    py [checkBody, e0, a1, e4, z, boolOut, exc]
  · rw [if_neg hq]
    have hm := fun v => arith_mod v s.q hq
    obtain ⟨env', h', f, i1, i2⟩ := for_inv (x := "i") (body := fun env h => execs (ctx L n) checkBody env h)
      (vs := (List.range (k + 1)).map fun k : Nat => .int ((k + 1 : Nat) : Int)) (env := env) (h := h) rfl
      (fun _ env' h' => h' = h ∧ env' "self" = some (.ref me) ∧ env' "result" = some (.bool true)) (by
        rintro i v env' h' hi ⟨rfl, g0, g1⟩
        rw [List.getElem?_map] at hi
        obtain ⟨j, _, rfl⟩ := Option.map_eq_some_iff.mp hi
        cases hc : (s.p ^ (j + 1)).fmod s.q == (1 : Int).fmod s.q with
        | true =>
          exact ⟨(env'.set "i" (.int ((j + 1 : Nat) : Int))).set "result" (.bool true), _,
            by py [checkBody, g0, g1, a1, e4, hm, cmp_eq_int, hc], rfl, by py [g0], by py []⟩
        | false =>
          exact ⟨env'.set "i" (.int ((j + 1 : Nat) : Int)), _,
            by py [checkBody, g0, g1, a1, e4, hm, cmp_eq_int, hc], rfl, by py [g0], by py [g1]⟩) ⟨rfl, e0, e1⟩
    rw [f, i1]
    unfold atEnd
    py [i2, boolOut]

/-- `_check_p`. -/
theorem check_p_ok (L n : Nat) {s : Sig} {me o : Nat} {h : Heap} (a : SigCell s me o h) :
    call package L (n + 1) "GOST34102012._check_p" [.ref me] h = boolOut s.checkP h := by
  rw [call_succ Fn.GOST34102012._check_p, run_body h rfl rfl]
  have e : GOST34102012.m__check_p.body =
      [.assign (.name "result") (.bool true),
       .assign (.name "check_b") (.int 32),
       .if_ (.cmp .eq (.attr (.name "self") "_size") (.int 64))
          [.assign (.name "check_b") (.int 132)]
          [],
       .for_ "i" (.builtin "range" [.int 1, .name "check_b"]) checkBody,
       .ret (.name "result")] := rfl
  rw [e]
  clear e
  have a1 := a
  unfold SigCell sigAttrs at a1
  generalize hb : checkBody = body
  cases hc : (s.size : Int) == 64 with
  | true =>
    py [a1, cmp_eq_int, hc]
    rw [← hb]
    exact check_p_loop L n a 130 (by py []) (by py [])
  | false =>
    py [a1, cmp_eq_int, hc]
    rw [← hb]
    exact check_p_loop L n a 30 (by py []) (by py [])

/-- `_check_curve`. -/
theorem check_curve_ok (L n : Nat) {s : Sig} {me o : Nat} {h : Heap} (a : SigCell s me o h) :
    call package L (n + 2) "GOST34102012._check_curve" [.ref me] h = boolOut s.checkCurve h := by
  rw [call_succ Fn.GOST34102012._check_curve, run_body h rfl rfl]
  unfold GOST34102012.m__check_curve atEnd Sig.checkCurve
  have a1 := a
  unfold SigCell at a1
  have f1 := check_p_m_ok L n a
  have f2 := check_x_y_ok L n a
  have f3 := check_p_ok L n a
  have f4 := check_q_ok L n a
  generalize s.checkPM = c1 at *
  generalize s.checkXY = c2 at *
  generalize s.checkP = c3 at *
  generalize s.checkQ = c4 at *
  cases c1 with
  | false =>
    rw [if_pos (show (!false) = true from rfl)]
    py [a1, f1, Bool.not_false, boolOut]
  | true =>
    rw [if_neg (by decide)]
    unfold boolOut at f2 f3
    cases c2 with
    | error x =>
      rw [error_bind]
      py [a1, f1, f2, Bool.not_true, boolOut]
    | ok c2 =>
      rw [ok_bind]
      cases c2 with
      | false => py [a1, f1, f2, Bool.not_true, Bool.not_false, boolOut]; rfl
      | true =>
        rw [if_neg (by decide)]
        cases c3 with
        | error x =>
          rw [error_bind]
          py [a1, f1, f2, f3, Bool.not_true, boolOut]
        | ok c3 =>
          rw [ok_bind]
          cases c3 with
          | false => py [a1, f1, f2, f3, Bool.not_true, Bool.not_false, boolOut]; rfl
          | true =>
            rw [if_neg (by decide)]
            cases c4 with
            | false => py [a1, f1, f2, f3, f4, Bool.not_true, Bool.not_false, boolOut]; rfl
            | true => py [a1, f1, f2, f3, f4, Bool.not_true, Bool.not_false, boolOut]; rfl

def edBody : List Stmt :=
  [.assign (.name "ed_s") (.bin .mod (.bin .mul (.bin .sub (.attr (.name "self") "_e")
      (.attr (.name "self") "_d")) (.meth (.name "self") "_invert" [.int 4, .attr (.name
      "self") "_p"])) (.attr (.name "self") "_p")),
   .assign (.name "ed_t") (.bin .mod (.bin .mul (.bin .add (.attr (.name "self") "_e")
       (.attr (.name "self") "_d")) (.meth (.name "self") "_invert" [.int 6, .attr (.name
       "self") "_p"])) (.attr (.name "self") "_p")),
   .assign (.attr (.name "self") "_a") (.bin .mod (.bin .sub (.bin .pow (.name "ed_s")
       (.int 2)) (.bin .mul (.int 3) (.bin .pow (.name "ed_t") (.int 2)))) (.attr (.name
       "self") "_p")),
   .assign (.attr (.name "self") "_b") (.bin .mod (.bin .sub (.bin .mul (.int 2) (.bin .pow
       (.name "ed_t") (.int 3))) (.bin .mul (.name "ed_t") (.bin .pow (.name "ed_s") (.int
       2)))) (.attr (.name "self") "_p")),
   .assign (.attr (.name "self") "_x") (.bin .mod (.bin .add (.bin .mul (.bin .mul (.name
       "ed_s") (.bin .add (.int 1) (.attr (.name "self") "_v"))) (.meth (.name "self")
       "_invert" [.bin .sub (.int 1) (.attr (.name "self") "_v"), .attr (.name "self")
       "_p"])) (.name "ed_t")) (.attr (.name "self") "_p")),
   .assign (.attr (.name "self") "_y") (.bin .mod (.bin .mul (.bin .mul (.name "ed_s")
       (.bin .add (.int 1) (.attr (.name "self") "_v"))) (.meth (.name "self") "_invert"
       [.bin .mul (.bin .sub (.int 1) (.attr (.name "self") "_v")) (.attr (.name "self")
       "_u"), .attr (.name "self") "_p"])) (.attr (.name "self") "_p"))]

theorem ed_ok (L n : Nat) {s : Sig} {me o : Nat} {h : Heap} (a : SigCell s me o h) (hp : s.p ≠ 0) (d : Deep n s.p)
    {env : Env} (e0 : env "self" = some (.ref me)) :
    ∃ env' h', execs (ctx L (n + 1)) edBody env h = ok (.next env') h' ∧ Keeps [me] h h' ∧ SigCell
      { s with
        a := ((((s.e - s.d) * invert 4 s.p).fmod s.p) ^ 2 - 3 * (((s.e + s.d) * invert 6 s.p).fmod s.p) ^ 2).fmod s.p
        b := (2 * (((s.e + s.d) * invert 6 s.p).fmod s.p) ^ 3 - (((s.e + s.d) * invert 6 s.p).fmod s.p) *
          (((s.e - s.d) * invert 4 s.p).fmod s.p) ^ 2).fmod s.p
        x := (((((s.e - s.d) * invert 4 s.p).fmod s.p) * (1 + s.v)) * invert (1 - s.v) s.p +
          (((s.e + s.d) * invert 6 s.p).fmod s.p)).fmod s.p
        y := (((((s.e - s.d) * invert 4 s.p).fmod s.p) * (1 + s.v)) * invert ((1 - s.v) * s.u) s.p).fmod s.p } me o h' := by
  have a1 := a
  unfold SigCell sigAttrs at a1
  have hm := fun v => arith_mod v s.p hp
  have f := fun v => invert_ok L n (d v)
  have p2 : ∀ x, arith .pow x 2 = .ok (x ^ 2) := fun x => arith_pow_nat x 2
  have p3 : ∀ x, arith .pow x 3 = .ok (x ^ 3) := fun x => arith_pow_nat x 3
  unfold edBody
  rw [execs_assign (v := .int (((s.e - s.d) * invert 4 s.p).fmod s.p)) (h' := h) (by py [e0, a1, f, hm])]
  rw [execs_assign (v := .int (((s.e + s.d) * invert 6 s.p).fmod s.p)) (h' := h) (by py [e0, a1, f, hm])]
  generalize ((s.e - s.d) * invert 4 s.p).fmod s.p = S
  generalize ((s.e + s.d) * invert 6 s.p).fmod s.p = T
  generalize he : (env.set "ed_s" (.int S)).set "ed_t" (.int T) = env'
  have g0 : env' "self" = some (.ref me) := by rw [← he]; py [e0]
  have g1 : env' "ed_s" = some (.int S) := by rw [← he]; py []
  have g2 : env' "ed_t" = some (.int T) := by rw [← he]; py []
  py [g0, g1, g2, a1, f, hm, p2, p3]
  simp only [List.set_set]
  exact ⟨env', _, rfl, keeps_set a1, get_set_same _ (by rw [a1]; rfl)⟩

/-- What a method does which changes the object and returns nothing. -/
def SigResult (o : Out Val) (me cell : Nat) (h : Heap) (r : Res Sig) : Prop :=
  match r with
  | .ok s => ∃ h', o = ok .none h' ∧ Keeps [me] h h' ∧ SigCell s me cell h'
  | .error e => ∃ h', o = fail (exc e) h' ∧ Keeps [me] h h'

/-- `_edvards_to_canonical`. -/
theorem edvards_ok (L n : Nat) {s : Sig} {me o : Nat} {h : Heap} (a : SigCell s me o h) (d : Deep n s.p) :
    SigResult (call package L (n + 2) "GOST34102012._edvards_to_canonical" [.ref me] h) me o h s.edvardsToCanonical := by
  rw [call_succ Fn.GOST34102012._edvards_to_canonical, run_body h rfl rfl]
  have e : GOST34102012.m__edvards_to_canonical.body =
      [.if_ (.and (.cmp .eq (.attr (.name "self") "_a") (.int 0)) (.and (.cmp .eq (.attr (.name
        "self") "_b") (.int 0)) (.and (.cmp .eq (.attr (.name "self") "_x") (.int 0)) (.cmp .eq
        (.attr (.name "self") "_y") (.int 0))))) edBody []] := rfl
  rw [e]
  clear e
  have a1 := a
  unfold SigCell sigAttrs at a1
  generalize hb : edBody = body
  have c : eval (ctx L (n + 1)) (Env.empty.set "self" (.ref me)) (.and (.cmp .eq (.attr (.name "self") "_a") (.int 0))
      (.and (.cmp .eq (.attr (.name "self") "_b") (.int 0)) (.and (.cmp .eq (.attr (.name "self") "_x") (.int 0))
      (.cmp .eq (.attr (.name "self") "_y") (.int 0))))) h =
      ok (.bool (s.a == 0 && (s.b == 0 && (s.x == 0 && s.y == 0)))) h := by
    cases h1 : s.a == 0 <;> cases h2 : s.b == 0 <;> cases h3 : s.x == 0 <;>
      py [a1, cmp_eq_int, h1, h2, h3, Bool.and_true, Bool.and_false, Bool.true_and, Bool.false_and]
  unfold Sig.edvardsToCanonical
  by_cases hc : s.a = 0 ∧ s.b = 0 ∧ s.x = 0 ∧ s.y = 0
  · rw [if_pos hc]
    have hc' : (s.a == 0 && (s.b == 0 && (s.x == 0 && s.y == 0))) = true := by simp [hc]
    rw [hc'] at c
    by_cases hp : s.p = 0
    · rw [if_pos hp]
      rw [hp] at a1 d
      have f := fun v => invert_ok L n (d v)
      have z := fun v => arith_mod_zero v
      rw [execs, exec, c, ← hb]
      unfold atEnd
      py [edBody, a1, f, z]
      exact ⟨h, rfl, .refl _ _⟩
    · rw [if_neg hp]
      obtain ⟨env', h', f, k, a'⟩ := ed_ok L n a hp d (env := Env.empty.set "self" (.ref me)) (by py [])
      rw [execs, exec, c, ← hb]
      unfold atEnd
      py [f]
      exact ⟨h', rfl, k, a'⟩
  · rw [if_neg hc]
    have hc' : (s.a == 0 && (s.b == 0 && (s.x == 0 && s.y == 0))) = false := by
      rw [Bool.eq_false_iff]
      intro x
      exact hc (by simpa using x)
    rw [hc'] at c
    rw [execs, exec, c]
    unfold atEnd
    py []
    exact ⟨h, rfl, .refl _ _, a⟩

/-- The dictionary with the parameters of the curve. Other keys may be there as well. -/
structure CurveDict (l : List (String × Val)) (c : CurveParams) : Prop where
  p : findAttr "p" l = c.p.map .int
  a : findAttr "a" l = c.a.map .int
  b : findAttr "b" l = c.b.map .int
  e : findAttr "e" l = c.e.map .int
  d : findAttr "d" l = c.d.map .int
  m : findAttr "m" l = c.m.map .int
  q : findAttr "q" l = c.q.map .int
  x : findAttr "x" l = c.x.map .int
  y : findAttr "y" l = c.y.map .int
  u : findAttr "u" l = c.u.map .int
  v : findAttr "v" l = c.v.map .int

theorem get_int (o : Option Int) (d : Int) : (o.map Val.int).getD (.int d) = .int (o.getD d) := by
  cases o <;> rfl

/-- `_set_size`. -/
theorem set_size_ok (L n : Nat) {me : Nat} {h : Heap} (o : h[me]? = some (.inst "GOST34102012" [])) (mode : Int) :
    ∃ h', call package L (n + 1) "GOST34102012._set_size" [.ref me, .int mode] h = ok .none h' ∧ Keeps [me] h h' ∧
      h'[me]? = some (.inst "GOST34102012" [("_size", .int ((if mode = mode256 then 32 else 64 : Nat) : Int))]) := by
  rw [call_succ Fn.GOST34102012._set_size, run_body h rfl rfl]
  unfold GOST34102012.m__set_size
  by_cases hm : mode = mode256
  · have hm' : (mode == 1) = true := by simp [hm, mode256]
    rw [if_pos hm]
    unfold atEnd
    py [cmp_eq_int, hm']
    upd o with H e k l
    exact ⟨H, rfl, k, e⟩
  · have hm' : (mode == 1) = false := by simpa [mode256] using hm
    rw [if_neg hm]
    unfold atEnd
    py [cmp_eq_int, hm']
    upd o with H e k l
    exact ⟨H, rfl, k, e⟩

/-- The object identifier of a signature object, gost_34_10_2012.py 517-520. -/
def sigOid (mode : Int) : String := if mode = mode256 then "1.2.643.7.1.1.1.1" else "1.2.643.7.1.1.1.2"

/-- The object before the checks. -/
def rawSig (mode : Int) (c : CurveParams) : Sig where
  size := if mode = mode256 then 32 else 64
  p := c.p.getD 1
  a := c.a.getD 0
  b := c.b.getD 0
  e := c.e.getD 0
  d := c.d.getD 0
  m := c.m.getD 1
  q := c.q.getD 1
  x := c.x.getD 0
  y := c.y.getD 0
  u := c.u.getD 0
  v := c.v.getD 0

def initGets : List Stmt :=
  [.assign (.attr (.name "self") "_p") (.meth (.name "curve") "get" [.str "p", .int 1]),
   .assign (.attr (.name "self") "_a") (.meth (.name "curve") "get" [.str "a", .int 0]),
   .assign (.attr (.name "self") "_b") (.meth (.name "curve") "get" [.str "b", .int 0]),
   .assign (.attr (.name "self") "_e") (.meth (.name "curve") "get" [.str "e", .int 0]),
   .assign (.attr (.name "self") "_d") (.meth (.name "curve") "get" [.str "d", .int 0]),
   .assign (.attr (.name "self") "_m") (.meth (.name "curve") "get" [.str "m", .int 1]),
   .assign (.attr (.name "self") "_q") (.meth (.name "curve") "get" [.str "q", .int 1]),
   .assign (.attr (.name "self") "_x") (.meth (.name "curve") "get" [.str "x", .int 0]),
   .assign (.attr (.name "self") "_y") (.meth (.name "curve") "get" [.str "y", .int 0]),
   .assign (.attr (.name "self") "_u") (.meth (.name "curve") "get" [.str "u", .int 0]),
   .assign (.attr (.name "self") "_v") (.meth (.name "curve") "get" [.str "v", .int 0])]

theorem init_gets (C : Ctx) {me o : Nat} {h : Heap} {size : Int} {l : List (String × Val)} {c : CurveParams}
    (a : h[me]? = some (.inst "GOST34102012" [("_size", .int size), ("oid", .ref o)])) (d : CurveDict l c)
    {env : Env} (e0 : env "self" = some (.ref me)) (e1 : env "curve" = some (.dict l))
    (rest : List Stmt) :
    execs C (initGets ++ rest) env h = execs C rest env (h.set me (.inst "GOST34102012" [("_size", .int size), ("oid", .ref o),
      ("_p", .int (c.p.getD 1)), ("_a", .int (c.a.getD 0)), ("_b", .int (c.b.getD 0)), ("_e", .int (c.e.getD 0)),
      ("_d", .int (c.d.getD 0)), ("_m", .int (c.m.getD 1)), ("_q", .int (c.q.getD 1)), ("_x", .int (c.x.getD 0)),
      ("_y", .int (c.y.getD 0)), ("_u", .int (c.u.getD 0)), ("_v", .int (c.v.getD 0))])) := by
  unfold initGets
  rw [List.cons_append, List.cons_append, List.cons_append, List.cons_append, List.cons_append, List.cons_append,
    List.cons_append, List.cons_append, List.cons_append, List.cons_append, List.cons_append, List.nil_append]
  py [e0, e1, a, Streebog.dict_get, d.p, d.a, d.b, d.e, d.d, d.m, d.q, d.x, d.y, d.u, d.v, get_int, List.set_set]

/-- What a constructor does. -/
def InitResult (o : Out Val) (me : Nat) (oid : String) (h : Heap) (r : Res Sig) : Prop :=
  match r with
  | .ok s => ∃ h' c, o = ok .none h' ∧ Keeps [me] h h' ∧ h.length ≤ c ∧ SigCell s me c h' ∧ Streebog.OidAt oid c h'
  | .error e => ∃ h', o = fail (exc e) h' ∧ Keeps [me] h h'

theorem init_ok (L n : Nat) {me : Nat} {h : Heap} (o : h[me]? = some (.inst "GOST34102012" [])) (mode : Int)
    {l : List (String × Val)} {c : CurveParams} (d : CurveDict l c) (dp : Deep n (c.p.getD 1)) :
    InitResult (call package L (n + 3) "GOST34102012.__init__" [.ref me, .int mode, .dict l] h) me (sigOid mode) h
      (Sig.init mode c) := by
  rw [call_succ Fn.GOST34102012.__init__, run_body h rfl rfl]
  have e : GOST34102012.m___init__.body =
      .expr (.meth (.name "self") "_set_size" [.name "mode"]) ::
      .if_ (.cmp .eq (.name "mode") (.glob "Signature.MODE_256"))
        [.assign (.attr (.name "self") "oid") (.new "ObjectIdentifier" [.str
            "1.2.643.7.1.1.1.1"])]
        [.assign (.attr (.name "self") "oid") (.new "ObjectIdentifier" [.str
            "1.2.643.7.1.1.1.2"])] ::
      (initGets ++
        [.expr (.meth (.name "self") "_edvards_to_canonical" []),
         .if_ (.not (.meth (.name "self") "_check_curve" []))
          [.raise "GOSTSignatureError" "GOSTSignatureError: invalid parameters of the elliptic curve"]
          []]) := rfl
  rw [e]
  clear e
  generalize hend : (initGets ++
        [.expr (.meth (.name "self") "_edvards_to_canonical" []),
         .if_ (.not (.meth (.name "self") "_check_curve" []))
          [.raise "GOSTSignatureError" "GOSTSignatureError: invalid parameters of the elliptic curve"]
          []]) = fin
  have hme := get_lt o
  obtain ⟨h1, f1, k1, o1⟩ := set_size_ok L (n + 1) o mode
  have start : ∃ h2, execs (ctx L (n + 2)) (.expr (.meth (.name "self") "_set_size" [.name "mode"]) ::
      .if_ (.cmp .eq (.name "mode") (.glob "Signature.MODE_256"))
        [.assign (.attr (.name "self") "oid") (.new "ObjectIdentifier" [.str
            "1.2.643.7.1.1.1.1"])]
        [.assign (.attr (.name "self") "oid") (.new "ObjectIdentifier" [.str
            "1.2.643.7.1.1.1.2"])] :: fin)
      (((Env.empty.set "self" (.ref me)).set "mode" (.int mode)).set "curve" (.dict l)) h =
      execs (ctx L (n + 2)) fin (((Env.empty.set "self" (.ref me)).set "mode" (.int mode)).set "curve" (.dict l)) h2 ∧
      Keeps [me] h h2 ∧ h2[me]? = some (.inst "GOST34102012" [("_size", .int ((if mode = mode256 then 32 else 64 : Nat) : Int)),
        ("oid", .ref h1.length)]) ∧ Streebog.OidAt (sigOid mode) h1.length h2 := by
    have hm1 := get_lt o1
    by_cases hm : mode = mode256
    · have hm' : (mode == 1) = true := by simp [hm, mode256]
      unfold sigOid
      rw [if_pos hm] at o1 ⊢
      py [o, f1, cmp_eq_int, hm']
      upd (get_mono o1 _) with H e k hl
      rw [if_pos hm]
      refine ⟨H, rfl, (k1.add _).trans k, e, ?_⟩
      exact k.get (get_last _ _) (by simp; omega)
    · have hm' : (mode == 1) = false := by simpa [mode256] using hm
      unfold sigOid
      rw [if_neg hm] at o1 ⊢
      py [o, f1, cmp_eq_int, hm']
      upd (get_mono o1 _) with H e k hl
      rw [if_neg hm]
      refine ⟨H, rfl, (k1.add _).trans k, e, ?_⟩
      exact k.get (get_last _ _) (by simp; omega)
  obtain ⟨h2, f2, k2, o2, id2⟩ := start
  rw [f2, ← hend, init_gets _ o2 d (by py []) (by py [])]
  have hc : h.length ≤ h1.length := k1.length
  generalize h1.length = c1 at *
  generalize h3e : List.set h2 me _ = h3
  obtain ⟨o3, k3, l3⟩ := set_step h3e o2
  have id3 : Streebog.OidAt (sigOid mode) c1 h3 := k3.get id2 (by simp; omega)
  have a3 : SigCell (rawSig mode c) me c1 h3 := o3
  have k := k2.trans k3
  have f4 := edvards_ok L n a3 dp
  have em : Sig.init mode c = (do
      let s ← (rawSig mode c).edvardsToCanonical
      if !(← s.checkCurve) then
        .error (.signatureError "GOSTSignatureError: invalid parameters of the elliptic curve")
      else pure s) := rfl
  rw [em]
  generalize (rawSig mode c).edvardsToCanonical = res at f4 ⊢
  unfold atEnd
  cases res with
  | error x =>
    obtain ⟨h4, f4, k4⟩ := f4
    rw [error_bind]
    py [o3, f4]
    exact ⟨h4, rfl, k.trans k4⟩
  | ok s =>
    obtain ⟨h4, f4, k4, a4⟩ := f4
    have f5 := check_curve_ok L n a4
    have o4 := a4
    unfold SigCell at o4
    rw [ok_bind]
    generalize s.checkCurve = res at f5 ⊢
    unfold boolOut at f5
    cases res with
    | error x =>
      rw [error_bind]
      py [o3, f4, o4, f5]
      exact ⟨h4, rfl, k.trans k4⟩
    | ok b =>
      rw [ok_bind]
      cases b with
      | false =>
        py [o3, f4, o4, f5, Bool.not_false]
        exact ⟨h4, rfl, k.trans k4⟩
      | true =>
        py [o3, f4, o4, f5, Bool.not_true]
        exact ⟨h4, c1, rfl, k.trans k4, hc, a4, k4.get id3 (by simp; omega)⟩

/-- What the function `new` does. -/
def NewResult (o : Out Val) (oid : String) (h : Heap) (r : Res Sig) : Prop :=
  match r with
  | .ok s => ∃ h' me c, o = ok (.ref me) h' ∧ Ext h h' ∧ h.length ≤ me ∧ h.length ≤ c ∧ SigCell s me c h' ∧
      Streebog.OidAt oid c h'
  | .error e => ∃ h', o = fail (exc e) h' ∧ Ext h h'

theorem new_ok (L n : Nat) (h : Heap) (mode : Int) {l : List (String × Val)} {c : CurveParams} (d : CurveDict l c)
    (dp : Deep n (c.p.getD 1)) :
    NewResult (call package L (n + 4) "Signature.new" [.int mode, .dict l] h) (sigOid mode) h (Sig.new mode c) := by
  rw [call_succ Fn.Signature.new, run_body h rfl rfl]
  unfold Signature.f_new Sig.new
  have c1 : cmpop .notIn (.int mode) (.tuple [.int 1, .int 2]) h = ok (.bool (!(mode == 1 || mode == 2))) h := by
    unfold cmpop
    simp only [valIn, valEq]
    cases mode == 1 <;> cases mode == 2 <;> rfl
  by_cases hm : mode ≠ mode256 ∧ mode ≠ mode512
  · rw [if_pos hm]
    have hb : (mode == 1 || mode == 2) = false := by simpa [mode256, mode512] using hm
    rw [hb] at c1
    unfold atEnd
    py [c1, Bool.not_false]
    exact ⟨h, rfl, .refl h⟩
  · rw [if_neg hm]
    have hb : (mode == 1 || mode == 2) = true := by
      rw [Bool.or_eq_true]
      by_cases h1 : mode = mode256
      · exact Or.inl (by simp [h1, mode256])
      · by_cases h2 : mode = mode512
        · exact Or.inr (by simp [h2, mode512])
        · exact absurd ⟨h1, h2⟩ hm
    rw [hb] at c1
    unfold atEnd
    py [c1, Bool.not_true]
    unfold instantiate
    py []
    have f := init_ok L n (get_last h (.inst "GOST34102012" [])) mode d dp
    have x := (Ext.refl h).add [.inst "GOST34102012" []]
    have hn : ∀ {h'}, Keeps [h.length] (h ++ [Obj.inst "GOST34102012" []]) h' → Ext h h' := fun k =>
      ((x.keeps []).then k (by simp)).ext
    generalize Sig.init mode c = res at f ⊢
    cases res with
    | error x =>
      obtain ⟨h', f, k⟩ := f
      py [f]
      exact ⟨h', rfl, hn k⟩
    | ok s =>
      obtain ⟨h', c, f, k, hc, a, i⟩ := f
      py [f]
      exact ⟨h', h.length, c, rfl, hn k, Nat.le_refl _, Nat.le_trans x.length hc, a, i⟩

/-- `sign` without a random number. -/
theorem sign_default (L n : Nat) (me : Nat) (kv dv : Val) (h : Heap) :
    call package L (n + 1) "GOST34102012.sign" [.ref me, kv, dv] h =
      call package L (n + 1) "GOST34102012.sign" [.ref me, kv, dv, .ref h.length] (h ++ [.bytearray []]) := by
  rw [call_succ Fn.GOST34102012.sign, call_succ Fn.GOST34102012.sign]
  have b : bindParams (ctx L n) GOST34102012.m_sign [.ref me, kv, dv] h =
      ok [.ref me, kv, dv, .ref h.length] (h ++ [Obj.bytearray []]) := by
    have e : evals (ctx L n) .empty [.builtin "bytearray" [.bytes []]] h = ok [.ref h.length] (h ++ [Obj.bytearray []]) := by
      py []
    have l1 : ([Val.ref me, kv, dv].length = GOST34102012.m_sign.params.length) = False := eq_false (show ¬ 3 = 4 by decide)
    have l2 : ([Val.ref me, kv, dv].length < GOST34102012.m_sign.params.length ∧
        GOST34102012.m_sign.params.length - [Val.ref me, kv, dv].length ≤ GOST34102012.m_sign.defaults.length) = True :=
      eq_true (show 3 < 4 ∧ 4 - 3 ≤ 1 by decide)
    simp only [bindParams, l1, l2, if_true, if_false]
    exact congrArg (andThen · fun vs h => ok ([.ref me, kv, dv] ++ vs) h) e
  rw [run, run, b, bindParams_exact _ _ _ _ rfl, andThen_ok]

end SigSrc
end Gost.Src
