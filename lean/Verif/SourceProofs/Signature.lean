import Verif.SourceProofs.HashNew
import Verif.SourceProofs.Pbkdf
import Verif.Model.Signature
import Verif.Model.Depth

/-! `gost_34_10_2012.py`. -/

namespace Gost.Src

open Streebog (OidAt Other cmp_notIn)

namespace SigSrc

open Sig (gcdexLim invertLim invert)

theorem arith_mod (a b : Int) (hb : b ≠ 0) : arith .mod a b = .ok (a.fmod b) := by
  simp only [arith, if_neg hb]

theorem arith_mod_zero (a : Int) : arith .mod a 0 = .error .zeroDiv := (rfl)

theorem arith_floordiv (a b : Int) (hb : b ≠ 0) : arith .floordiv a b = .ok (a.fdiv b) := by
  simp only [arith, if_neg hb]

/-- `gcdex`. -/
theorem gcdex_ok (L : Nat) : ∀ (n : Nat) (v m : Int) (r : Int × Int × Int) (h : Heap), gcdexLim n v m = some r →
    call package L n "GOST34102012._invert.gcdex" [.int v, .int m] h = ok (.tuple [.int r.1, .int r.2.1, .int r.2.2]) h := by
  intro n
  induction n with
  | zero => intro v m r h e; cases e
  | succ n ih =>
    intro v m r h e
    rw [call_succ Fn.GOST34102012._invert.gcdex, run_body h rfl rfl]
    rw [gcdexLim] at e
    unfold GOST34102012.m__invert_gcdex atEnd
    by_cases hm : m = 0
    · rw [if_pos hm] at e
      injection e with e
      subst hm e
      py [decide_true]
    · rw [if_neg hm] at e
      have hm' : (m = 0) = False := by simp [hm]
      cases e2 : gcdexLim n m (v.fmod m) with
      | none => rw [e2] at e; cases e
      | some r2 =>
        obtain ⟨g, x, y⟩ := r2
        rw [e2] at e
        injection e with e
        subst e
        have f := ih m (v.fmod m) _ h e2
        py [hm', decide_false, arith_mod _ _ hm, f, arith_floordiv _ _ hm]

/-- `_invert`. -/
theorem invert_ok (L n : Nat) {v m r : Int} (e : invertLim n v m = some r) (h : Heap) :
    call package L (n + 1) "GOST34102012._invert" [.int v, .int m] h = ok (.int r) h := by
  rw [call_succ Fn.GOST34102012._invert, run_body h rfl rfl]
  unfold GOST34102012.m__invert atEnd
  unfold invertLim at e
  cases e2 : gcdexLim n v m with
  | none => rw [e2] at e; cases e
  | some r2 =>
    rw [e2] at e
    injection e with e
    subst e
    have f := gcdex_ok L n v m r2 h e2
    by_cases hr : r2.2.1 < 0
    · have hr' : (r2.2.1 < 0) = True := by simp [hr]
      py [f, hr', decide_true]
    · have hr' : (r2.2.1 < 0) = False := by simp [hr]
      py [f, hr', decide_false]

/-- The attributes of a signature object. -/
def sigAttrs (s : Sig) (o : Nat) : List (String × Val) :=
  [("_size", .int s.size), ("oid", .ref o), ("_p", .int s.p), ("_a", .int s.a), ("_b", .int s.b), ("_e", .int s.e),
   ("_d", .int s.d), ("_m", .int s.m), ("_q", .int s.q), ("_x", .int s.x), ("_y", .int s.y), ("_u", .int s.u),
   ("_v", .int s.v)]

/-- Cell `me` of the memory is the object of the state `s`; `o` is its object identifier. -/
def SigCell (s : Sig) (me o : Nat) (h : Heap) : Prop := h[me]? = some (.inst "GOST34102012" (sigAttrs s o))

theorem SigCell.mono {s : Sig} {me o : Nat} {h : Heap} (a : SigCell s me o h) (l : Heap) : SigCell s me o (h ++ l) :=
  get_mono a l

/-- Calls with depth `n` are enough for the inversions modulo `m`. -/
def Deep (n : Nat) (m : Int) : Prop := ∀ v, invertLim n v m = some (invert v m)

/-- The two comparisons of `_add`. -/
theorem compare_ints (L n : Nat) (x y : Int) (k : Nat) (h : Heap) {env : Env} {ex ey : Expr} {es : Expr}
    (e1 : ∀ h', Ext h h' → eval (ctx L (n + 1)) env ex h' = ok (.int x) h')
    (e2 : ∀ h', Ext h h' → eval (ctx L (n + 1)) env ey h' = ok (.int y) h')
    (e3 : ∀ h', Ext h h' → eval (ctx L (n + 1)) env es h' = ok (.int k) h') :
    ∃ l, eval (ctx L (n + 1)) env (.call "Utils.compare" [.call "Utils.int_to_bytearray" [ex, es],
      .call "Utils.int_to_bytearray" [ey, es]]) h = ok (.bool (compare (intToBytes x k) (intToBytes y k))) (h ++ l) := by
  obtain ⟨r1, l1, f1, _, b1⟩ := (int_to_bytearray_ok L n x k h).elim
  obtain ⟨r2, l2, f2, _, b2⟩ := (int_to_bytearray_ok L n y k (h ++ l1)).elim
  obtain ⟨h', f3, l3, rfl⟩ := compare_ok L n (bytesOf_mono b1 l2) b2
  refine ⟨l1 ++ l2 ++ l3, ?_⟩
  have x0 := Ext.refl h
  have x1 := x0.add l1
  py [e1 _ x0, e3 _ x0, f1, e2 _ x1, e3 _ x1, f2, f3]
  simp

/-- `_add`. -/
theorem add_ok (L n : Nat) {s : Sig} {me o : Nat} {h : Heap} (a : SigCell s me o h) (hp : s.p ≠ 0) (d : Deep n s.p)
    (x1 x2 y1 y2 : Int) :
    ∃ l, call package L (n + 2) "GOST34102012._add" [.ref me, .int x1, .int x2, .int y1, .int y2] h =
      ok (.tuple [.int (s.add x1 x2 y1 y2).1, .int (s.add x1 x2 y1 y2).2]) (h ++ l) := by
  rw [call_succ Fn.GOST34102012._add, run_body h rfl rfl]
  unfold GOST34102012.m__add atEnd Sig.add
  generalize henv : ((((Env.empty.set "self" (.ref me)).set "x_1" (.int x1)).set "x_2" (.int x2)).set "y_1" (.int y1)).set "y_2" (.int y2) = env
  have e0 : env "self" = some (.ref me) := by rw [← henv]; py []
  have e1 : env "x_1" = some (.int x1) := by rw [← henv]; py []
  have e2 : env "x_2" = some (.int x2) := by rw [← henv]; py []
  have e3 : env "y_1" = some (.int y1) := by rw [← henv]; py []
  have e4 : env "y_2" = some (.int y2) := by rw [← henv]; py []
  clear henv
  unfold SigCell sigAttrs at a
  have hs : ∀ (env : Env), env "self" = some (.ref me) → ∀ h', Ext h h' →
      eval (ctx L (n + 1)) env (.attr (.name "self") "_size") h' = ok (.int s.size) h' := by
    rintro env e h' ⟨l, rfl⟩
    py [e, get_mono a l]
  obtain ⟨l1, f1⟩ := compare_ints L n x1 x2 s.size h (env := env) (ex := .name "x_1") (ey := .name "x_2")
    (es := .attr (.name "self") "_size") (fun h' _ => by py [e1]) (fun h' _ => by py [e2]) (hs env e0)
  rw [execs_assign f1]
  obtain ⟨l2, f2⟩ := compare_ints L n y1 y2 s.size (h ++ l1) (env := env.set "compare_x" _) (ex := .name "y_1") (ey := .name "y_2")
    (es := .attr (.name "self") "_size") (fun h' _ => by py [e3]) (fun h' _ => by py [e4])
    (fun h' x => hs _ (by py [e0]) h' (((Ext.refl h).add l1).trans x))
  rw [execs_assign f2]
  have a' := get_mono (get_mono a l1) l2
  refine ⟨l1 ++ l2, ?_⟩
  rw [← List.append_assoc]
  have fi : ∀ v, call package L (n + 1) "GOST34102012._invert" [.int v, .int s.p] (h ++ l1 ++ l2) =
      ok (.int (invert v s.p)) (h ++ l1 ++ l2) := fun v => invert_ok L n (d v) _
  clear f1 f2 hs
  generalize compare (intToBytes x1 s.size) (intToBytes x2 s.size) = c1
  generalize compare (intToBytes y1 s.size) (intToBytes y2 s.size) = c2
  have hm := fun v => arith_mod v s.p hp
  cases c1 with
  | false => py [e0, e1, e2, e3, e4, a', fi, hm, Bool.false_and]
  | true =>
    cases c2 with
    | false => py [e0, e1, e2, e3, e4, a', fi, hm, Bool.true_and]
    | true => py [e0, e1, e2, e3, e4, a', fi, hm, Bool.true_and]

theorem while_turn {c : Env → Heap → Out Val} {b : Env → Heap → Out Flow} {n : Nat} {env env' : Env} {h h1 h' : Heap} {v : Val}
    (hc : c env h = ok v h1) (ht : truth v = some true) (hb : b env h1 = ok (.next env') h') :
    whileLoop c b (n + 1) env h = whileLoop c b n env' h' := by
  rw [whileLoop, hc, andThen_ok, ht]
  simp only
  rw [hb, thenRun_next]

theorem while_stop {c : Env → Heap → Out Val} {b : Env → Heap → Out Flow} {n : Nat} {env : Env} {h h1 : Heap} {v : Val}
    (hc : c env h = ok v h1) (ht : truth v = some false) :
    whileLoop c b (n + 1) env h = ok (.next env) h1 := by
  rw [whileLoop, hc, andThen_ok, ht]

theorem while_fail {c : Env → Heap → Out Val} {b : Env → Heap → Out Flow} {n : Nat} {env : Env} {h h1 h' : Heap} {v : Val}
    {e : Exc} (hc : c env h = ok v h1) (ht : truth v = some true) (hb : b env h1 = fail e h') :
    whileLoop c b (n + 1) env h = fail e h' := by
  rw [whileLoop, hc, andThen_ok, ht]
  simp only
  rw [hb, thenRun_fail]

/-- The body of the loop of `_mul_point`. -/
def mulBody : List Stmt :=
  [.assign (.name "bit") (.bin .band (.name "_bits.value") (.int 1)),
   .if_ (.cmp .eq (.name "bit") (.int 1))
      [.assign (.names ["x_next", "y_next"]) (.meth (.name "self") "_add" [.name "x_next",
          .name "x_prev", .name "y_next", .name "y_prev"])]
      [],
   .assign (.names ["x_prev", "y_prev"]) (.meth (.name "self") "_add" [.name "x_prev",
       .name "x_prev", .name "y_prev", .name "y_prev"]),
   .assign (.name "_bits.value") (.bin .shr (.name "_bits.value") (.int 1))]

theorem arith_shr_one (v : Int) : arith .shr v 1 = .ok (v.fdiv 2) := (rfl)

theorem intAnd_one (v : Int) : intAnd v 1 = v.fmod 2 := by
  rw [Int.fmod_eq_emod_of_nonneg _ (by decide)]
  cases v with
  | ofNat m =>
    show ((m &&& 1 : Nat) : Int) = _
    rw [Nat.and_one_is_mod]
    rfl
  | negSucc m =>
    show ((1 ^^^ (1 &&& m) : Nat) : Int) = _
    rw [Nat.and_comm, Nat.and_one_is_mod]
    rcases Nat.mod_two_eq_zero_or_one m with e | e
    · rw [e, Int.negSucc_eq]
      show (1 : Int) = _
      omega
    · rw [e, Int.negSucc_eq]
      show (0 : Int) = _
      omega

structure MulEnv (env : Env) (me : Nat) (value : Int) (next prev : Int × Int) : Prop where
  me : env "self" = some (.ref me)
  value : env "_bits.value" = some (.int value)
  xn : env "x_next" = some (.int next.1)
  yn : env "y_next" = some (.int next.2)
  xp : env "x_prev" = some (.int prev.1)
  yp : env "y_prev" = some (.int prev.2)

theorem mul_body (L n : Nat) {s : Sig} {me o : Nat} {h : Heap} (a : SigCell s me o h) (hp : s.p ≠ 0) (d : Deep n s.p)
    {env : Env} {value : Int} {next prev : Int × Int} (m : MulEnv env me value next prev) :
    ∃ env' l, execs (ctx L (n + 2)) mulBody env h = ok (.next env') (h ++ l) ∧
      MulEnv env' me (value.fdiv 2) (if value.fmod 2 = 1 then s.add next.1 prev.1 next.2 prev.2 else next)
        (s.add prev.1 prev.1 prev.2 prev.2) := by
  obtain ⟨m0, m1, m2, m3, m4, m5⟩ := m
  have hb := intAnd_one value
  by_cases hv : value.fmod 2 = 1
  · obtain ⟨l1, f1⟩ := add_ok L n a hp d next.1 prev.1 next.2 prev.2
    obtain ⟨l2, f2⟩ := add_ok L n (a.mono l1) hp d prev.1 prev.1 prev.2 prev.2
    have hv' : (value.fmod 2 = 1) = True := by simp [hv]
    have a1 := a
    have a2 := a.mono l1
    unfold SigCell sigAttrs at a1 a2
    rw [if_pos hv]
    py [mulBody, m0, m1, m2, m3, m4, m5, hb, hv', decide_true, a1, f1, a2, f2, arith_shr_one]
    refine ⟨_, l1 ++ l2, by rw [← List.append_assoc], ?_⟩
    constructor <;> py [m0]
  · obtain ⟨l2, f2⟩ := add_ok L n a hp d prev.1 prev.1 prev.2 prev.2
    have hv' : (value.fmod 2 = 1) = False := by simp [hv]
    have a1 := a
    unfold SigCell sigAttrs at a1
    rw [if_neg hv]
    py [mulBody, m0, m1, m2, m3, m4, m5, hb, hv', decide_false, a1, f2, arith_shr_one]
    refine ⟨_, l2, rfl, ?_⟩
    constructor <;> py [m0, m2, m3]

/-- The loop of `_mul_point`. -/
theorem mul_loop (L n : Nat) {s : Sig} {me o : Nat} (hp : s.p ≠ 0) (d : Deep n s.p) :
    ∀ (F : Nat) (value : Int) (next prev : Int × Int) (env : Env) (h : Heap), SigCell s me o h →
      MulEnv env me value next prev →
    match s.mulLoop F value next prev with
    | some r => ∃ env' l, whileLoop (fun env h => eval (ctx L (n + 2)) env (.name "_bits.value") h)
        (fun env h => execs (ctx L (n + 2)) mulBody env h) (F + 1) env h = ok (.next env') (h ++ l) ∧
        env' "x_next" = some (.int r.1) ∧ env' "y_next" = some (.int r.2)
    | none => ∃ l, whileLoop (fun env h => eval (ctx L (n + 2)) env (.name "_bits.value") h)
        (fun env h => execs (ctx L (n + 2)) mulBody env h) (F + 1) env h = fail .fuel (h ++ l) := by
  intro F
  have ht : ∀ {v : Int}, v ≠ 0 → truth (.int v) = some true := fun h => by simp [truth, h]
  induction F with
  | zero =>
    intro value next prev env h a m
    have c : eval (ctx L (n + 2)) env (.name "_bits.value") h = ok (.int value) h := by py [m.value]
    rw [Sig.mulLoop]
    by_cases hv : value = 0
    · subst hv
      rw [if_pos rfl]
      exact ⟨env, [], by rw [while_stop c rfl]; simp, m.xn, m.yn⟩
    · rw [if_neg hv]
      obtain ⟨env', l, f, m'⟩ := mul_body L n a hp d m
      exact ⟨l, by rw [while_turn c (ht hv) f]; rfl⟩
  | succ F ih =>
    intro value next prev env h a m
    have c : eval (ctx L (n + 2)) env (.name "_bits.value") h = ok (.int value) h := by py [m.value]
    rw [Sig.mulLoop]
    by_cases hv : value = 0
    · subst hv
      rw [if_pos rfl]
      exact ⟨env, [], by rw [while_stop c rfl]; simp, m.xn, m.yn⟩
    · rw [if_neg hv]
      obtain ⟨env', l, f, m'⟩ := mul_body L n a hp d m
      have := ih _ _ _ env' (h ++ l) (a.mono l) m'
      simp only
      generalize s.mulLoop F _ _ _ = res at this ⊢
      rw [while_turn c (ht hv) f]
      cases res with
      | none =>
        obtain ⟨l', g⟩ := this
        exact ⟨l ++ l', by rw [g, List.append_assoc]⟩
      | some r =>
        obtain ⟨env2, l', g, g1, g2⟩ := this
        exact ⟨env2, l ++ l', by rw [g, List.append_assoc], g1, g2⟩

/-- The number of a result which a loop may not reach. -/
def PointResult (o : Out Val) (h : Heap) (r : Option (Int × Int)) : Prop :=
  match r with
  | some r => ∃ l, o = ok (.tuple [.int r.1, .int r.2]) (h ++ l)
  | none => ∃ l, o = fail .fuel (h ++ l)

/-- `_mul_point`, with the point. -/
theorem mul_point_ok (F n : Nat) {s : Sig} {me o : Nat} {h : Heap} (a : SigCell s me o h) (hp : s.p ≠ 0) (d : Deep n s.p)
    (k x y : Int) :
    PointResult (call package (F + 1) (n + 3) "GOST34102012._mul_point" [.ref me, .int k, .int x, .int y] h) h
      (s.mulPoint F k x y) := by
  rw [call_succ Fn.GOST34102012._mul_point, run_body h rfl rfl]
  unfold GOST34102012.m__mul_point atEnd Sig.mulPoint
  have a1 := a
  unfold SigCell sigAttrs at a1
  have key : ∀ (env : Env) (start : Int × Int), env "self" = some (.ref me) → env "mul_value" = some (.int (k - 1)) →
      env "x_prev" = some (.int start.1) → env "y_prev" = some (.int start.2) →
      PointResult (andThen (execs (ctx (F + 1) (n + 2)) [.assign (.name "x_next") (.name "x_prev"),
        .assign (.name "y_next") (.name "y_prev"), .assign (.name "_bits.value") (.name "mul_value"),
        .while_ (.name "_bits.value") mulBody, .ret (.tuple [.name "x_next", .name "y_next"])] env h) fun r h =>
          match r with
          | .ret v => ok v h
          | .next _ => ok .none h) h (s.mulLoop F (k - 1) start start) := by
    intro env start e0 e1 e2 e3
    have := mul_loop (F + 1) n hp d F (k - 1) start start (((env.set "x_next" (.int start.1)).set "y_next" (.int start.2)).set
      "_bits.value" (.int (k - 1))) h a (by constructor <;> py [e0, e1, e2, e3])
    generalize s.mulLoop F (k - 1) start start = res at this ⊢
    cases res with
    | none =>
      obtain ⟨l, g⟩ := this
      py [e1, e2, e3]
      rw [ctx_loops, g]
      py []
      exact ⟨l, rfl⟩
    | some r =>
      obtain ⟨env2, l, g, g1, g2⟩ := this
      py [e1, e2, e3]
      rw [ctx_loops, g]
      py [g1, g2]
      exact ⟨l, rfl⟩
  rw [execs_assign (v := .int (k - 1)) (h' := h) (by py []), execs]
  generalize henv : ((((Env.empty.set "self" (.ref me)).set "mul_value" (.int k)).set "x_op" (.int x)).set "y_op"
        (.int y)).set "mul_value" (.int (k - 1)) = env
  have e0 : env "self" = some (.ref me) := by rw [← henv]; py []
  have e1 : env "mul_value" = some (.int (k - 1)) := by rw [← henv]; py []
  have e2 : env "x_op" = some (.int x) := by rw [← henv]; py []
  have e3 : env "y_op" = some (.int y) := by rw [← henv]; py []
  have pre : exec (ctx (F + 1) (n + 2)) (.if_ (.and (.cmp .gt (.name "x_op") (.int 0)) (.cmp .gt (.name "y_op") (.int 0)))
        [.assign (.name "x_prev") (.name "x_op"),
         .assign (.name "y_prev") (.name "y_op")]
        [.assign (.name "x_prev") (.attr (.name "self") "_x"),
         .assign (.name "y_prev") (.attr (.name "self") "_y")]) env h =
      ok (.next ((env.set "x_prev" (.int (if x > 0 ∧ y > 0 then (x, y) else (s.x, s.y)).1)).set "y_prev"
        (.int (if x > 0 ∧ y > 0 then (x, y) else (s.x, s.y)).2))) h := by
    by_cases hx : x > 0
    · have hx' : (x > 0) = True := by simp [hx]
      by_cases hy : y > 0
      · have hy' : (y > 0) = True := by simp [hy]
        rw [if_pos ⟨hx, hy⟩]
        py [e0, e2, e3, hx', hy', decide_true]
      · have hy' : (y > 0) = False := by simp at hy; simp [hy]
        rw [if_neg (fun c => hy c.2)]
        py [e0, e2, e3, hx', hy', decide_true, decide_false, a1]
    · have hx' : (x > 0) = False := by simp at hx; simp [hx]
      rw [if_neg (fun c => hx c.1)]
      py [e0, e2, e3, hx', decide_false, a1]
  rw [pre, thenRun_next]
  exact key _ _ (by py [e0]) (by py [e1]) (by py []) (by py [])

/-- `_mul_point`, with the base point. -/
theorem mul_point_default (L n : Nat) (me : Nat) (k : Int) (h : Heap) :
    call package L (n + 1) "GOST34102012._mul_point" [.ref me, .int k] h =
      call package L (n + 1) "GOST34102012._mul_point" [.ref me, .int k, .int (-1), .int (-1)] h := by
  rw [call_succ Fn.GOST34102012._mul_point, call_succ Fn.GOST34102012._mul_point,
    run_body (args := [.ref me, .int k, .int (-1), .int (-1)]) h rfl rfl]
  rfl

theorem mul_base_ok (F n : Nat) {s : Sig} {me o : Nat} {h : Heap} (a : SigCell s me o h) (hp : s.p ≠ 0) (d : Deep n s.p)
    (k : Int) :
    PointResult (call package (F + 1) (n + 3) "GOST34102012._mul_point" [.ref me, .int k] h) h (s.mulPoint F k) := by
  rw [mul_point_default]
  exact mul_point_ok F n a hp d k (-1) (-1)

/-- What a method does which returns bytes: of the memory only the cells `W` change. `none` is a loop which has not
ended. -/
def BytesResult (W : List Nat) (o : Out Val) (h : Heap) (r : Option (Res Bytes)) : Prop :=
  match r with
  | some (.ok b) => ∃ h' v, o = ok (.ref v) h' ∧ Keeps W h h' ∧ h.length ≤ v ∧ bytesOf (.ref v) h' = some b
  | some (.error e) => ∃ h', o = fail (exc e) h' ∧ Keeps W h h'
  | none => ∃ h', o = fail .fuel h' ∧ Keeps W h h'

theorem checkValue_cases (v : Val) (h : Heap) (k : Nat) :
    (checkValue (pyVal v h) k = false) ∨ (checkValue (pyVal v h) k = true ∧ ∃ b, bytesOf v h = some b ∧ b.length = k) := by
  unfold checkValue
  rw [pyVal_data]
  cases bytesOf v h with
  | none => exact Or.inl rfl
  | some b =>
    by_cases hb : b.length = k
    · exact Or.inr ⟨by simp [hb], b, rfl, hb⟩
    · exact Or.inl (by simp [hb])

/-- `public_key_generate`. -/
theorem public_key_ok (F n : Nat) {s : Sig} {me o : Nat} {h : Heap} (a : SigCell s me o h) (hp : s.p ≠ 0) (d : Deep n s.p)
    (kv : Val) :
    BytesResult [] (call package (F + 1) (n + 4) "GOST34102012.public_key_generate" [.ref me, kv] h) h
      (s.publicKeyGenerate F (pyVal kv h)) := by
  rw [call_succ Fn.GOST34102012.public_key_generate, run_body h rfl rfl]
  unfold GOST34102012.m_public_key_generate atEnd Sig.publicKeyGenerate
  have a1 := a
  unfold SigCell sigAttrs at a1
  have f := check_value_ok (F + 1) (n + 2) kv s.size h
  rcases checkValue_cases kv h s.size with hc | ⟨hc, b, hb, hl⟩
  · rw [hc] at f ⊢
    rw [if_pos (show (!false) = true from rfl)]
    py [a1, f, Bool.not_false]
    exact ⟨h, rfl, .refl _ _⟩
  · rw [hc] at f ⊢
    rw [if_neg (by decide), pyVal_data, hb, Option.getD_some]
    have g := bytearray_to_int_ok (F + 1) (n + 2) hb
    have m := mul_base_ok F n a hp d (bytesToInt b)
    simp only
    generalize s.mulPoint F (bytesToInt b) = res at m ⊢
    cases res with
    | none =>
      obtain ⟨l, m⟩ := m
      py [a1, f, Bool.not_true, g, m]
      exact ⟨_, rfl, ((Ext.refl h).add l).keeps _⟩
    | some r =>
      obtain ⟨l, m⟩ := m
      have a2 := get_mono a1 l
      obtain ⟨r1, l1, f1, hr1, b1⟩ := (int_to_bytearray_ok (F + 1) (n + 2) r.1 s.size (h ++ l)).elim
      have a3 := get_mono a2 l1
      obtain ⟨r2, l2, f2, hr2, b2⟩ := (int_to_bytearray_ok (F + 1) (n + 2) r.2 s.size (h ++ l ++ l1)).elim
      py [a1, f, Bool.not_true, g, m, a2, f1, a3, f2, bytesOf_mono b1 l2, b2]
      refine ⟨_, _, rfl, ((((Ext.refl h).add l).add l1).add l2).add _ |>.keeps _, ?_, bytesOf_last _ _⟩
      simp only [List.length_append]
      omega

/-- `compare_to_zero(int_to_bytearray(x, self._size))`. -/
theorem zero_int (L n : Nat) (x : Int) (k : Nat) (h : Heap) {env : Env} {ex es : Expr}
    (e1 : eval (ctx L (n + 1)) env ex h = ok (.int x) h) (e3 : eval (ctx L (n + 1)) env es h = ok (.int k) h) :
    ∃ l, eval (ctx L (n + 1)) env (.call "Utils.compare_to_zero" [.call "Utils.int_to_bytearray" [ex, es]]) h =
      ok (.bool (compareToZero (intToBytes x k))) (h ++ l) := by
  obtain ⟨r1, l1, f1, _, b1⟩ := (int_to_bytearray_ok L n x k h).elim
  obtain ⟨h', f3, l3, rfl⟩ := compare_to_zero_ok L n b1
  refine ⟨l1 ++ l3, ?_⟩
  py [e1, e3, f1, f3]
  simp

/-- `_set_e`. -/
theorem set_e_ok (L n : Nat) {s : Sig} {me o : Nat} {h : Heap} (a : SigCell s me o h) (hq : s.q ≠ 0) {v : Val} {b : Bytes}
    (hb : bytesOf v h = some b) :
    ∃ l, call package L (n + 2) "GOST34102012._set_e" [.ref me, v] h = ok (.int (s.setE b)) (h ++ l) := by
  rw [call_succ Fn.GOST34102012._set_e, run_body h rfl rfl]
  unfold GOST34102012.m__set_e atEnd Sig.setE
  have a1 := a
  unfold SigCell sigAttrs at a1
  have g := bytearray_to_int_ok L n hb
  have hm := fun v => arith_mod v s.q hq
  rw [execs_assign (v := .int ((bytesToInt b : Int).fmod s.q)) (h' := h) (by py [a1, g, hm])]
  obtain ⟨l, f⟩ := zero_int L n ((bytesToInt b : Int).fmod s.q) s.size h
    (env := ((Env.empty.set "self" (.ref me)).set "digest" v).set "result" (.int ((bytesToInt b : Int).fmod s.q)))
    (ex := .name "result") (es := .attr (.name "self") "_size") (by py []) (by py [a1])
  refine ⟨l, ?_⟩
  generalize (bytesToInt b : Int).fmod s.q = x at f ⊢
  rw [execs, exec, f]
  simp only
  cases compareToZero (intToBytes x s.size) with
  | true => py []
  | false => py []

/-- `_get_r_s`. -/
theorem get_r_s_ok (L n : Nat) {s : Sig} {me o : Nat} {h : Heap} (a : SigCell s me o h) {v : Val} {b : Bytes}
    (hb : bytesOf v h = some b) :
    ∃ l, call package L (n + 2) "GOST34102012._get_r_s" [.ref me, v] h =
      ok (.tuple [.int (bytesToInt (pyUpto b s.size)), .int (bytesToInt (pyFrom b s.size))]) (h ++ l) := by
  rw [call_succ Fn.GOST34102012._get_r_s, run_body h rfl rfl]
  unfold GOST34102012.m__get_r_s atEnd
  have a1 := a
  unfold SigCell sigAttrs at a1
  obtain ⟨w1, l1, f1, b1⟩ := getSlice_bytes hb none (some (s.size : Int))
  have a2 := get_mono a1 l1
  obtain ⟨w2, l2, f2, b2⟩ := getSlice_bytes (bytesOf_mono hb l1) (some (s.size : Int)) none
  have g1 := bytearray_to_int_ok L n b1
  have g2 := bytearray_to_int_ok L n b2
  refine ⟨l1 ++ l2, ?_⟩
  py [a1, f1, g1, a2, f2, g2]
  simp [cut]

/-- `_verify_step_1`. -/
theorem verify_step_1_ok (L n : Nat) {s : Sig} {me o : Nat} {h : Heap} (a : SigCell s me o h) (r g : Int) :
    call package L (n + 1) "GOST34102012._verify_step_1" [.ref me, .int r, .int g] h = ok (.bool (s.verifyStep1 r g)) h := by
  rw [call_succ Fn.GOST34102012._verify_step_1, run_body h rfl rfl]
  unfold GOST34102012.m__verify_step_1 atEnd Sig.verifyStep1
  have a1 := a
  unfold SigCell sigAttrs at a1
  have tf : ∀ p : Prop, p = True ∨ p = False := fun p => by by_cases hp : p <;> simp [hp]
  rcases tf (r ≤ 0) with h1 | h1 <;> rcases tf (r ≥ s.q) with h2 | h2 <;> rcases tf (g ≤ 0) with h3 | h3 <;>
    rcases tf (g ≥ s.q) with h4 | h4 <;>
    py [a1, h1, h2, h3, h4, decide_true, decide_false, Bool.or_true, Bool.or_false, Bool.not_true, Bool.not_false]

theorem gcdexLim_succ : ∀ (n : Nat) (v m : Int) (r : Int × Int × Int), gcdexLim n v m = some r →
    gcdexLim (n + 1) v m = some r
  | 0, _, _, _, e => by cases e
  | n + 1, v, m, r, e => by
    rw [gcdexLim] at e ⊢
    by_cases hm : m = 0
    · rw [if_pos hm] at e ⊢
      exact e
    · rw [if_neg hm] at e ⊢
      cases e2 : gcdexLim n m (v.fmod m) with
      | none => rw [e2] at e; cases e
      | some r2 =>
        rw [e2] at e
        rw [gcdexLim_succ n _ _ _ e2]
        exact e

theorem Deep.succ {n : Nat} {m : Int} (d : Deep n m) : Deep (n + 1) m := by
  intro v
  have e := d v
  unfold invertLim at e ⊢
  cases e2 : gcdexLim n v m with
  | none => rw [e2] at e; cases e
  | some r =>
    rw [gcdexLim_succ n v m r e2]
    rw [e2] at e
    exact e

/-- What a method does which returns a truth value. -/
def BoolResult (o : Out Val) (h : Heap) (r : Option (Res Bool)) : Prop :=
  match r with
  | some (.ok b) => ∃ l, o = ok (.bool b) (h ++ l)
  | some (.error e) => ∃ l, o = fail (exc e) (h ++ l)
  | none => ∃ l, o = fail .fuel (h ++ l)

theorem BoolResult.mono {o : Out Val} {h l : Heap} {r : Option (Res Bool)} (b : BoolResult o (h ++ l) r) : BoolResult o h r := by
  unfold BoolResult at b ⊢
  match r, b with
  | some (.ok _), ⟨l', e⟩ => exact ⟨l ++ l', by rw [e, List.append_assoc]⟩
  | some (.error _), ⟨l', e⟩ => exact ⟨l ++ l', by rw [e, List.append_assoc]⟩
  | none, ⟨l', e⟩ => exact ⟨l ++ l', by rw [e, List.append_assoc]⟩

/-- The end of `verify`. -/
def verifyEnd : List Stmt :=
  [.assign (.name "sign_e") (.meth (.name "self") "_set_e" [.name "digest"]),
   .assign (.name "sign_v") (.meth (.name "self") "_invert" [.name "sign_e", .attr (.name
       "self") "_q"]),
   .assign (.name "sign_z_1") (.bin .mod (.bin .mul (.name "sign_s") (.name "sign_v")) (.attr
       (.name "self") "_q")),
   .assign (.name "sign_z_2") (.bin .sub (.attr (.name "self") "_q") (.bin .mod (.bin .mul
       (.name "sign_r") (.name "sign_v")) (.attr (.name "self") "_q"))),
   .assign (.name "sign_p") (.meth (.name "self") "_mul_point" [.name "sign_z_1"]),
   .assign (.name "sign_q") (.meth (.name "self") "_mul_point" [.name "sign_z_2", .index (.name
       "public_key") (.int 0), .index (.name "public_key") (.int 1)]),
   .assign (.name "sign_c") (.meth (.name "self") "_add" [.index (.name "sign_p") (.int 0),
       .index (.name "sign_q") (.int 0), .index (.name "sign_p") (.int 1), .index (.name
       "sign_q") (.int 1)]),
   .assign (.name "sign_r_check") (.bin .mod (.index (.name "sign_c") (.int 0)) (.attr (.name
       "self") "_q")),
   .ret (.call "Utils.compare" [.call "Utils.int_to_bytearray" [.name "sign_r_check", .attr
       (.name "self") "_size"], .call "Utils.int_to_bytearray" [.name "sign_r", .attr (.name
       "self") "_size"]])]

theorem verify_end (F n : Nat) {s : Sig} {me o : Nat} {h : Heap} (a : SigCell s me o h) (hp : s.p ≠ 0) (hq : s.q ≠ 0)
    (d : Deep n s.p) (dq : Deep n s.q) {env : Env} {dv : Val} {digest : Bytes} (hb : bytesOf dv h = some digest)
    {r g x y : Int} (e0 : env "self" = some (.ref me)) (e1 : env "digest" = some dv)
    (e2 : env "public_key" = some (.tuple [.int x, .int y])) (e3 : env "sign_r" = some (.int r))
    (e4 : env "sign_s" = some (.int g)) :
    BoolResult (atEnd (execs (ctx (F + 1) (n + 3)) verifyEnd env h)) h
      ((do
        let e := s.setE digest
        let v := invert e s.q
        let z1 := (g * v).fmod s.q
        let z2 := s.q - (r * v).fmod s.q
        let p ← s.mulPoint F z1
        let q ← s.mulPoint F z2 x y
        let c := s.add p.1 q.1 p.2 q.2
        let rCheck := c.1.fmod s.q
        some (compare (intToBytes rCheck s.size) (intToBytes r s.size)) : Option Bool).map .ok) := by
  have a0 := a
  unfold SigCell sigAttrs at a0
  have hm := fun v => arith_mod v s.q hq
  obtain ⟨l, f⟩ := set_e_ok (F + 1) (n + 1) a hq hb
  have a1 := get_mono a0 l
  have f2 := invert_ok (F + 1) (n + 2) (dq.succ.succ (s.setE digest)) (h ++ l)
  have m := mul_base_ok F n (a.mono l) hp d ((g * invert (s.setE digest) s.q).fmod s.q)
  simp only
  generalize s.mulPoint F ((g * invert (s.setE digest) s.q).fmod s.q) = res at m ⊢
  unfold atEnd
  cases res with
  | none =>
    obtain ⟨l2, m⟩ := m
    py [verifyEnd, e0, e1, e2, e3, e4, a0, f, a1, f2, hm, m]
    exact ⟨l ++ l2, by simp⟩
  | some p =>
    obtain ⟨l2, m⟩ := m
    have a2 := get_mono a1 l2
    have m2 := mul_point_ok F n ((a.mono l).mono l2) hp d (s.q - (r * invert (s.setE digest) s.q).fmod s.q) x y
    rw [Option.bind_eq_bind, Option.bind_some]
    generalize s.mulPoint F (s.q - (r * invert (s.setE digest) s.q).fmod s.q) x y = res at m2 ⊢
    cases res with
    | none =>
      obtain ⟨l3, m2⟩ := m2
      py [verifyEnd, e0, e1, e2, e3, e4, a0, f, a1, f2, hm, m, a2, m2]
      exact ⟨l ++ l2 ++ l3, by simp⟩
    | some q =>
      obtain ⟨l3, m2⟩ := m2
      have a3 := get_mono a2 l3
      obtain ⟨l4, f4⟩ := add_ok (F + 1) (n + 1) (((a.mono l).mono l2).mono l3) hp d.succ p.1 q.1 p.2 q.2
      have a4 := get_mono a3 l4
      obtain ⟨r1, l5, f5, _, b5⟩ := (int_to_bytearray_ok (F + 1) (n + 2) ((s.add p.1 q.1 p.2 q.2).1.fmod s.q) s.size
        (h ++ l ++ l2 ++ l3 ++ l4)).elim
      have a5 := get_mono a4 l5
      obtain ⟨r2, l6, f6, _, b6⟩ := (int_to_bytearray_ok (F + 1) (n + 2) r s.size (h ++ l ++ l2 ++ l3 ++ l4 ++ l5)).elim
      obtain ⟨h', f7, l7, rfl⟩ := compare_ok (F + 1) (n + 2) (bytesOf_mono b5 l6) b6
      py [verifyEnd, e0, e1, e2, e3, e4, a0, f, a1, f2, hm, m, a2, m2, a3, f4, a4, f5, a5, f6, f7]
      exact ⟨l ++ l2 ++ l3 ++ l4 ++ l5 ++ l6 ++ l7, by simp⟩

/-- `verify` after the checks of the arguments. -/
def verifyMid : List Stmt :=
  .assign (.name "public_key") (.tuple [.call "Utils.bytearray_to_int" [.slice (.name
      "public_key") none (some (.attr (.name "self") "_size"))], .call
      "Utils.bytearray_to_int" [.slice (.name "public_key") (some (.attr (.name "self")
      "_size")) none]]) ::
  .assign (.names ["sign_r", "sign_s"]) (.meth (.name "self") "_get_r_s" [.name "signature"]) ::
  .if_ (.not (.meth (.name "self") "_verify_step_1" [.name "sign_r", .name "sign_s"]))
      [.ret (.bool false)]
      [] ::
  verifyEnd

theorem verify_mid (F n : Nat) {s : Sig} {me o : Nat} {h : Heap} (a : SigCell s me o h) (hp : s.p ≠ 0) (hq : s.q ≠ 0)
    (d : Deep n s.p) (dq : Deep n s.q) {env : Env} {kv dv gv : Val} {key digest sign : Bytes} (hk : bytesOf kv h = some key)
    (hd : bytesOf dv h = some digest) (hs : bytesOf gv h = some sign) (e0 : env "self" = some (.ref me))
    (e1 : env "digest" = some dv) (e2 : env "public_key" = some kv) (e3 : env "signature" = some gv) :
    BoolResult (atEnd (execs (ctx (F + 1) (n + 3)) verifyMid env h)) h ((s.verifyBytes F key digest sign).map .ok) := by
  have a0 := a
  unfold SigCell sigAttrs at a0
  obtain ⟨w1, l1, f1, b1⟩ := getSlice_bytes hk none (some (s.size : Int))
  have a1 := get_mono a0 l1
  obtain ⟨w2, l2, f2, b2⟩ := getSlice_bytes (bytesOf_mono hk l1) (some (s.size : Int)) none
  have a2 := get_mono a1 l2
  have g1 := bytearray_to_int_ok (F + 1) (n + 2) b1
  have g2 := bytearray_to_int_ok (F + 1) (n + 2) b2
  obtain ⟨l3, f3⟩ := get_r_s_ok (F + 1) (n + 1) ((a.mono l1).mono l2) (bytesOf_mono (bytesOf_mono hs l1) l2)
  have a3 := get_mono a2 l3
  have c := verify_step_1_ok (F + 1) (n + 2) (((a.mono l1).mono l2).mono l3) (bytesToInt (pyUpto sign s.size))
    (bytesToInt (pyFrom sign s.size))
  have hd' := bytesOf_mono (bytesOf_mono (bytesOf_mono hd l1) l2) l3
  have x : Ext h (h ++ l1 ++ l2 ++ l3) := ((((Ext.refl h).add l1).add l2).add l3)
  unfold Sig.verifyBytes verifyMid
  generalize hfin : verifyEnd = fin
  cases hc : s.verifyStep1 (bytesToInt (pyUpto sign s.size)) (bytesToInt (pyFrom sign s.size)) with
  | false =>
    rw [hc] at c
    rw [if_pos (by rw [hc]; rfl)]
    unfold atEnd
    py [e0, e2, e3, a0, f1, g1, a1, f2, g2, a2, f3, a3, c, Bool.not_false]
    exact ⟨l1 ++ l2 ++ l3, by simp⟩
  | true =>
    rw [hc] at c
    rw [if_neg (by rw [hc]; decide)]
    py [e0, e2, e3, a0, f1, g1, a1, f2, g2, a2, f3, a3, c, Bool.not_true]
    rw [← hfin]
    exact (verify_end F n (((a.mono l1).mono l2).mono l3) hp hq d dq hd' (by py [e0]) (by py [e1]) (by py []; rfl)
      (by py []) (by py [])).mono.mono.mono

/-- `verify`. -/
theorem verify_ok (F n : Nat) {s : Sig} {me o : Nat} {h : Heap} (a : SigCell s me o h) (hp : s.p ≠ 0) (hq : s.q ≠ 0)
    (d : Deep n s.p) (dq : Deep n s.q) (kv dv gv : Val) :
    BoolResult (call package (F + 1) (n + 4) "GOST34102012.verify" [.ref me, kv, dv, gv] h) h
      (s.verify F (pyVal kv h) (pyVal dv h) (pyVal gv h)) := by
  rw [call_succ Fn.GOST34102012.verify, run_body h rfl rfl]
  have e : GOST34102012.m_verify.body =
      .if_ (.not (.call "Utils.check_value" [.name "public_key", .bin .mul (.attr (.name "self")
        "_size") (.int 2)]))
        [.raise "GOSTSignatureError" "GOSTSignatureError: invalid public key value"]
        [] ::
      .if_ (.not (.call "Utils.check_value" [.name "signature", .bin .mul (.attr (.name "self")
         "_size") (.int 2)]))
        [.raise "GOSTSignatureError" "GOSTSignatureError: invalid signature value"]
        [] ::
      .if_ (.not (.call "Utils.check_value" [.name "digest", .attr (.name "self") "_size"]))
        [.raise "GOSTSignatureError" "GOSTSignatureError: invalid digest value"]
        [] :: verifyMid := rfl
  rw [e]
  clear e
  generalize hmid : verifyMid = mid
  have a0 := a
  unfold SigCell sigAttrs at a0
  have f1 := check_value_ok (F + 1) (n + 2) kv (s.size * 2) h
  have f2 := check_value_ok (F + 1) (n + 2) gv (s.size * 2) h
  have f3 := check_value_ok (F + 1) (n + 2) dv s.size h
  have em : arith .mul (s.size : Int) 2 = .ok ((s.size * 2 : Nat) : Int) := arith_mul_nat s.size 2
  unfold Sig.verify
  rcases checkValue_cases kv h (s.size * 2) with hc | ⟨hc, b1, hb1, hl1⟩
  · rw [hc] at f1 ⊢
    rw [if_pos (show (!false) = true from rfl)]
    unfold atEnd
    py [a0, em, f1, Bool.not_false]
    exact ⟨[], by simp [exc]⟩
  · rw [hc] at f1 ⊢
    rw [if_neg (by decide)]
    rcases checkValue_cases gv h (s.size * 2) with hc | ⟨hc, b2, hb2, hl2⟩
    · rw [hc] at f2 ⊢
      rw [if_pos (show (!false) = true from rfl)]
      unfold atEnd
      py [a0, em, f1, f2, Bool.not_true, Bool.not_false]
      exact ⟨[], by simp [exc]⟩
    · rw [hc] at f2 ⊢
      rw [if_neg (by decide)]
      rcases checkValue_cases dv h s.size with hc | ⟨hc, b3, hb3, hl3⟩
      · rw [hc] at f3 ⊢
        rw [if_pos (show (!false) = true from rfl)]
        unfold atEnd
        py [a0, em, f1, f2, f3, Bool.not_true, Bool.not_false]
        exact ⟨[], by simp [exc]⟩
      · rw [hc] at f3 ⊢
        rw [if_neg (by decide), pyVal_data, pyVal_data, pyVal_data, hb1, hb2, hb3]
        py [a0, em, f1, f2, f3, Bool.not_true]
        rw [← hmid]
        exact verify_mid F n a hp hq d dq hb1 hb3 hb2 (by py []) (by py []) (by py []) (by py [])

/-- The next `m` random byte strings are `rand 0`, `rand 1`, ..., of `size` bytes. -/
def Source (rand : Nat → Bytes) (m size : Nat) (h : Heap) : Prop :=
  (∃ l, h[0]? = some (.list ((List.range m).map (fun i => Val.bytes (rand i)) ++ l))) ∧ ∀ i, i < m → (rand i).length = size

theorem Source.mono {rand : Nat → Bytes} {m size : Nat} {h : Heap} (r : Source rand m size h) (l : Heap) :
    Source rand m size (h ++ l) := by
  obtain ⟨⟨k, e⟩, hl⟩ := r
  exact ⟨⟨k, get_mono e l⟩, hl⟩

theorem urandom_step (C : Ctx) {rand : Nat → Bytes} {m size : Nat} {h : Heap} (r : Source rand (m + 1) size h) :
    ∃ h', applyBuiltin C "os.urandom" [.int size] h = ok (.bytes (rand 0)) h' ∧ Keeps [0] h h' ∧ h'.length = h.length ∧
      Source (fun i => rand (i + 1)) m size h' := by
  obtain ⟨⟨l, e⟩, hl⟩ := r
  rw [List.range_succ_eq_map, List.map_cons, List.cons_append, List.map_map] at e
  refine ⟨h.set 0 (.list ((List.range m).map (fun i => Val.bytes (rand (i + 1))) ++ l)), ?_, PbkdfSrc.keeps_setList e, by simp, ?_⟩
  · show builtin "os.urandom" [.int size] h = _
    have hb' : ((rand 0).length : Int) = size := by
      have := hl 0 (by omega)
      omega
    simp only [builtin, e, if_pos hb']
    rfl
  · refine ⟨⟨l, ?_⟩, fun i hi => hl (i + 1) (by omega)⟩
    rw [List.getElem?_set_self (by
      have := get_lt e
      omega)]

/-- The body of the loop of `_get_rand_k`. -/
def randBody : List Stmt :=
  [.assign (.name "rand_k") (.builtin "bytearray" [.builtin "os.urandom" [.attr (.name "self") "_size"]])]

def randCond : Expr := .cmp .ge (.call "Utils.bytearray_to_int" [.name "rand_k"]) (.attr (.name "self") "_q")

theorem rand_draw (L n : Nat) {s : Sig} {me o : Nat} {h : Heap} (a : SigCell s me o h) {rand : Nat → Bytes} {m : Nat}
    (r : Source rand (m + 1) s.size h) {env : Env} (e0 : env "self" = some (.ref me)) :
    ∃ h' v, (∀ rest, execs (ctx L n) (.assign (.name "rand_k") (.builtin "bytearray" [.builtin "os.urandom"
        [.attr (.name "self") "_size"]]) :: rest) env h = execs (ctx L n) rest (env.set "rand_k" (.ref v)) h') ∧
      Keeps [0] h h' ∧ h.length ≤ v ∧ bytesOf (.ref v) h' = some (rand 0) ∧ SigCell s me o h' ∧
      Source (fun i => rand (i + 1)) m s.size h' := by
  have a0 := a
  unfold SigCell sigAttrs at a0
  have hme : me ≠ 0 := by
    rintro rfl
    obtain ⟨⟨l, e⟩, _⟩ := r
    rw [a0] at e
    injection e with e
    cases e
  obtain ⟨h', f, k, hl, r'⟩ := urandom_step (ctx L n) r
  refine ⟨h' ++ [.bytearray (rand 0)], h'.length, fun rest => ?_, k.add _, by omega, bytesOf_last _ _, ?_, r'.mono _⟩
  · py [e0, a0, f]
  · exact get_mono (k.get a (by simpa using hme)) _

theorem rand_loop (L n : Nat) {s : Sig} {me o : Nat} : ∀ (F : Nat) (rand : Nat → Bytes) (env : Env) (h : Heap) (v : Nat),
    SigCell s me o h → Source (fun i => rand (i + 1)) (F + 1) s.size h → env "self" = some (.ref me) →
    env "rand_k" = some (.ref v) → bytesOf (.ref v) h = some (rand 0) →
    match s.getRandK F rand with
    | some b => ∃ env' h' v', whileLoop (fun env h => eval (ctx L (n + 1)) env randCond h)
        (fun env h => execs (ctx L (n + 1)) randBody env h) (F + 1) env h = ok (.next env') h' ∧ Keeps [0] h h' ∧
        env' "rand_k" = some (.ref v') ∧ (v' = v ∨ h.length ≤ v') ∧ bytesOf (.ref v') h' = some b
    | none => ∃ h', whileLoop (fun env h => eval (ctx L (n + 1)) env randCond h)
        (fun env h => execs (ctx L (n + 1)) randBody env h) (F + 1) env h = fail .fuel h' ∧ Keeps [0] h h' := by
  intro F
  induction F with
  | zero =>
    intro rand env h v a r e0 e1 b
    have a0 := a
    unfold SigCell sigAttrs at a0
    have g := bytearray_to_int_ok L n b
    rw [Sig.getRandK]
    have c : eval (ctx L (n + 1)) env randCond h = ok (.bool (decide ((bytesToInt (rand 0) : Int) ≥ s.q))) h := by
      py [randCond, e0, e1, g, a0]
    by_cases hq : (bytesToInt (rand 0) : Int) < s.q
    · rw [if_pos hq]
      rw [decide_eq_false (by omega)] at c
      exact ⟨env, h, v, while_stop c rfl, .refl _ _, e1, Or.inl rfl, b⟩
    · rw [if_neg hq]
      rw [decide_eq_true (by omega)] at c
      obtain ⟨h', w, f, k, hw, b', a', r'⟩ := rand_draw L (n + 1) a r e0
      have f' : execs (ctx L (n + 1)) randBody env h = ok (.next (env.set "rand_k" (.ref w))) h' := by
        unfold randBody
        rw [f]
        py []
      exact ⟨h', by rw [while_turn c rfl f']; rfl, k⟩
  | succ F ih =>
    intro rand env h v a r e0 e1 b
    have a0 := a
    unfold SigCell sigAttrs at a0
    have g := bytearray_to_int_ok L n b
    rw [Sig.getRandK]
    have c : eval (ctx L (n + 1)) env randCond h = ok (.bool (decide ((bytesToInt (rand 0) : Int) ≥ s.q))) h := by
      py [randCond, e0, e1, g, a0]
    by_cases hq : (bytesToInt (rand 0) : Int) < s.q
    · rw [if_pos hq]
      rw [decide_eq_false (by omega)] at c
      exact ⟨env, h, v, while_stop c rfl, .refl _ _, e1, Or.inl rfl, b⟩
    · rw [if_neg hq]
      rw [decide_eq_true (by omega)] at c
      obtain ⟨h', w, f, k, hw, b', a', r'⟩ := rand_draw L (n + 1) a r e0
      have f' : execs (ctx L (n + 1)) randBody env h = ok (.next (env.set "rand_k" (.ref w))) h' := by
        unfold randBody
        rw [f]
        py []
      rw [while_turn c rfl f']
      have := ih (fun i => rand (i + 1)) (env.set "rand_k" (.ref w)) h' w a' r' (by py [e0]) (by py []) b'
      generalize s.getRandK F (fun i => rand (i + 1)) = res at this ⊢
      cases res with
      | none =>
        obtain ⟨h2, f2, k2⟩ := this
        exact ⟨h2, f2, k.trans k2⟩
      | some x =>
        obtain ⟨env2, h2, v2, f2, k2, g1, g2, g3⟩ := this
        refine ⟨env2, h2, v2, f2, k.trans k2, g1, Or.inr ?_, g3⟩
        have := k.length
        omega

/-- `_get_rand_k`. -/
theorem get_rand_k_ok (F n : Nat) {s : Sig} {me o : Nat} {h : Heap} (a : SigCell s me o h) {rand : Nat → Bytes}
    (r : Source rand (F + 2) s.size h) :
    match s.getRandK F rand with
    | some b => ∃ h' v, call package (F + 1) (n + 2) "GOST34102012._get_rand_k" [.ref me] h = ok (.ref v) h' ∧
        Keeps [0] h h' ∧ h.length ≤ v ∧ bytesOf (.ref v) h' = some b
    | none => ∃ h', call package (F + 1) (n + 2) "GOST34102012._get_rand_k" [.ref me] h = fail .fuel h' ∧
        Keeps [0] h h' := by
  rw [call_succ Fn.GOST34102012._get_rand_k, run_body h rfl rfl]
  have e : GOST34102012.m__get_rand_k.body =
      .assign (.name "rand_k") (.builtin "bytearray" [.builtin "os.urandom" [.attr (.name "self")
        "_size"]]) :: [.while_ randCond randBody, .ret (.name "rand_k")] := rfl
  rw [e]
  obtain ⟨h', w, f, k, hw, b', a', r'⟩ := rand_draw (F + 1) (n + 1) (env := Env.empty.set "self" (.ref me)) a r (by py [])
  rw [f]
  have := rand_loop (F + 1) n F rand ((Env.empty.set "self" (.ref me)).set "rand_k" (.ref w)) h' w a' r' (by py []) (by py []) b'
  unfold atEnd
  rw [execs, exec, ctx_loops]
  generalize s.getRandK F rand = res at this ⊢
  cases res with
  | none =>
    obtain ⟨h2, f2, k2⟩ := this
    exact ⟨h2, by rw [f2]; py [], k.trans k2⟩
  | some x =>
    obtain ⟨env2, h2, v2, f2, k2, g1, g2, g3⟩ := this
    refine ⟨h2, v2, by rw [f2]; py [g1], k.trans k2, ?_, g3⟩
    have := k.length
    omega

/-! `sign`. -/

def innerBody : List Stmt :=
  [.assign (.name "sign_k") (.call "Utils.bytearray_to_int" [.name "rand_k"]),
   .assign (.name "sign_c") (.meth (.name "self") "_mul_point" [.name "sign_k"]),
   .assign (.name "sign_r") (.bin .mod (.index (.name "sign_c") (.int 0)) (.attr (.name
       "self") "_q"))]

def innerCond : Expr :=
  .call "Utils.compare_to_zero" [.call "Utils.int_to_bytearray" [.name "sign_r", .attr (.name "self") "_size"]]

structure SignEnv (env : Env) (me : Nat) (rkv kv : Val) (e : Int) : Prop where
  me : env "self" = some (.ref me)
  rand : env "rand_k" = some rkv
  key : env "private_key" = some kv
  e : env "sign_e" = some (.int e)

theorem inner_body (F n : Nat) {s : Sig} {me o : Nat} {h : Heap} (a : SigCell s me o h) (hp : s.p ≠ 0) (hq : s.q ≠ 0)
    (d : Deep n s.p) {env : Env} {rkv kv : Val} {e : Int} {rk : Bytes} (m : SignEnv env me rkv kv e)
    (hr : bytesOf rkv h = some rk) :
    match s.mulPoint F (bytesToInt rk) with
    | some c => ∃ env' l, execs (ctx (F + 1) (n + 3)) innerBody env h = ok (.next env') (h ++ l) ∧ SignEnv env' me rkv kv e ∧
        env' "sign_r" = some (.int (c.1.fmod s.q)) ∧ env' "sign_k" = some (.int (bytesToInt rk))
    | none => ∃ l, execs (ctx (F + 1) (n + 3)) innerBody env h = fail .fuel (h ++ l) := by
  have a0 := a
  unfold SigCell sigAttrs at a0
  have g := bytearray_to_int_ok (F + 1) (n + 2) hr
  have hm := fun v => arith_mod v s.q hq
  have f := mul_base_ok F n a hp d (bytesToInt rk)
  generalize s.mulPoint F (bytesToInt rk) = res at f ⊢
  cases res with
  | none =>
    obtain ⟨l, f⟩ := f
    exact ⟨l, by py [innerBody, m.me, m.rand, g, a0, f]⟩
  | some c =>
    obtain ⟨l, f⟩ := f
    have a1 := get_mono a0 l
    refine ⟨((env.set "sign_k" (.int (bytesToInt rk))).set "sign_c" (.tuple [.int c.1, .int c.2])).set "sign_r"
      (.int (c.1.fmod s.q)), l, by py [innerBody, m.me, m.rand, g, a0, f, a1, hm], ?_, by py [], by py []⟩
    constructor
    · py [m.me]
    · py [m.rand]
    · py [m.key]
    · py [m.e]

theorem inner_loop (F n : Nat) {s : Sig} {me o : Nat} (hp : s.p ≠ 0) (hq : s.q ≠ 0)
    (d : Deep n s.p) {rkv kv : Val} {e : Int} {rk : Bytes} : ∀ (N : Nat) (r : Int) (env : Env) (h : Heap),
    SigCell s me o h → SignEnv env me rkv kv e → bytesOf rkv h = some rk → env "sign_r" = some (.int r) →
    (compareToZero (intToBytes r s.size) = true ∨ env "sign_k" = some (.int (bytesToInt rk))) →
    match s.signInner F (bytesToInt rk) N r with
    | some r' => ∃ env' l, whileLoop (fun env h => eval (ctx (F + 1) (n + 3)) env innerCond h)
        (fun env h => execs (ctx (F + 1) (n + 3)) innerBody env h) (N + 1) env h = ok (.next env') (h ++ l) ∧
        SignEnv env' me rkv kv e ∧ env' "sign_r" = some (.int r') ∧ env' "sign_k" = some (.int (bytesToInt rk))
    | none => ∃ l, whileLoop (fun env h => eval (ctx (F + 1) (n + 3)) env innerCond h)
        (fun env h => execs (ctx (F + 1) (n + 3)) innerBody env h) (N + 1) env h = fail .fuel (h ++ l) := by
  intro N
  induction N with
  | zero =>
    intro r env h a m hr e1 hk
    have a0 := a
    unfold SigCell sigAttrs at a0
    obtain ⟨l, c⟩ := zero_int (F + 1) (n + 2) r s.size h (env := env) (ex := .name "sign_r")
      (es := .attr (.name "self") "_size") (by py [e1]) (by py [m.me, a0])
    rw [Sig.signInner]
    cases hz : compareToZero (intToBytes r s.size) with
    | false =>
      rw [hz] at c hk
      rw [if_pos (show (!false) = true from rfl)]
      exact ⟨env, l, while_stop c rfl, m, e1, hk.resolve_left (by decide)⟩
    | true =>
      rw [hz] at c
      rw [if_neg (by decide)]
      have f := inner_body F n (a.mono l) hp hq d m (bytesOf_mono hr l)
      generalize s.mulPoint F (bytesToInt rk) = res at f
      cases res with
      | none =>
        obtain ⟨l2, f⟩ := f
        exact ⟨l ++ l2, by rw [while_fail c rfl f, List.append_assoc]⟩
      | some x =>
        obtain ⟨env', l2, f, m', g1, g2⟩ := f
        exact ⟨l ++ l2, by rw [while_turn c rfl f, List.append_assoc]; rfl⟩
  | succ N ih =>
    intro r env h a m hr e1 hk
    have a0 := a
    unfold SigCell sigAttrs at a0
    obtain ⟨l, c⟩ := zero_int (F + 1) (n + 2) r s.size h (env := env) (ex := .name "sign_r")
      (es := .attr (.name "self") "_size") (by py [e1]) (by py [m.me, a0])
    rw [Sig.signInner]
    cases hz : compareToZero (intToBytes r s.size) with
    | false =>
      rw [hz] at c hk
      rw [if_pos (show (!false) = true from rfl)]
      exact ⟨env, l, while_stop c rfl, m, e1, hk.resolve_left (by decide)⟩
    | true =>
      rw [hz] at c
      rw [if_neg (by decide)]
      have f := inner_body F n (a.mono l) hp hq d m (bytesOf_mono hr l)
      generalize s.mulPoint F (bytesToInt rk) = res at f ⊢
      cases res with
      | none =>
        obtain ⟨l2, f⟩ := f
        exact ⟨l ++ l2, by rw [while_fail c rfl f, List.append_assoc]⟩
      | some x =>
        obtain ⟨env', l2, f, m', g1, g2⟩ := f
        rw [while_turn c rfl f]
        have := ih (x.1.fmod s.q) env' (h ++ l ++ l2) ((a.mono l).mono l2) m' (bytesOf_mono (bytesOf_mono hr l) l2) g1 (Or.inr g2)
        simp only
        generalize s.signInner F (bytesToInt rk) N (x.1.fmod s.q) = res at this ⊢
        cases res with
        | none =>
          obtain ⟨l3, f3⟩ := this
          exact ⟨l ++ l2 ++ l3, by rw [f3]; simp⟩
        | some x =>
          obtain ⟨env3, l3, f3, g⟩ := this
          exact ⟨env3, l ++ l2 ++ l3, by rw [f3]; simp, g⟩

theorem zero_bytes (k : Nat) : compareToZero (intToBytes 0 k) = true := by
  have e : intToBytes 0 k = (List.range k).reverse.map fun _ => (0 : UInt8) := by simp [intToBytes]
  have f : ∀ l : List Nat, (l.map fun _ => (0 : UInt8)).foldl (fun acc x => acc + (x ^^^ 0).toNat) 0 = 0 := by
    intro l
    induction l with
    | nil => rfl
    | cons x l ih => simpa using ih
  rw [e]
  unfold compareToZero
  rw [f]
  rfl

def outerBody : List Stmt :=
  [.while_ innerCond innerBody,
   .assign (.name "sign_s") (.bin .mod (.bin .add (.bin .mul (.name "sign_r") (.call
       "Utils.bytearray_to_int" [.name "private_key"])) (.bin .mul (.name "sign_k") (.name
       "sign_e"))) (.attr (.name "self") "_q"))]

def outerCond : Expr :=
  .call "Utils.compare_to_zero" [.call "Utils.int_to_bytearray" [.name "sign_s", .attr (.name "self") "_size"]]

theorem outer_body (F n : Nat) {s : Sig} {me o : Nat} {h : Heap} (a : SigCell s me o h) (hp : s.p ≠ 0) (hq : s.q ≠ 0)
    (d : Deep n s.p) {env : Env} {rkv kv : Val} {e : Int} {rk key : Bytes} (m : SignEnv env me rkv kv e)
    (hr : bytesOf rkv h = some rk) (hk : bytesOf kv h = some key) {r : Int} (e1 : env "sign_r" = some (.int r))
    (hz : compareToZero (intToBytes r s.size) = true ∨ env "sign_k" = some (.int (bytesToInt rk))) :
    match s.signInner F (bytesToInt rk) F r with
    | some r' => ∃ env' l, execs (ctx (F + 1) (n + 3)) outerBody env h = ok (.next env') (h ++ l) ∧ SignEnv env' me rkv kv e ∧
        env' "sign_r" = some (.int r') ∧ env' "sign_k" = some (.int (bytesToInt rk)) ∧
        env' "sign_s" = some (.int ((r' * bytesToInt key + bytesToInt rk * e).fmod s.q))
    | none => ∃ l, execs (ctx (F + 1) (n + 3)) outerBody env h = fail .fuel (h ++ l) := by
  have f := inner_loop F n hp hq d F r env h a m hr e1 hz
  unfold outerBody
  rw [execs, exec, ctx_loops]
  generalize s.signInner F (bytesToInt rk) F r = res at f ⊢
  cases res with
  | none =>
    obtain ⟨l, f⟩ := f
    exact ⟨l, by rw [f]; py []⟩
  | some r' =>
    obtain ⟨env', l, f, m', g1, g2⟩ := f
    have a0 := a.mono l
    unfold SigCell sigAttrs at a0
    have g := bytearray_to_int_ok (F + 1) (n + 2) (bytesOf_mono hk l)
    have hm := fun v => arith_mod v s.q hq
    refine ⟨env'.set "sign_s" (.int ((r' * bytesToInt key + bytesToInt rk * e).fmod s.q)), l,
      by rw [f, thenRun_next]; py [m'.me, m'.key, m'.e, g1, g2, a0, g, hm], ?_, by py [g1], by py [g2], by py []⟩
    constructor
    · py [m'.me]
    · py [m'.rand]
    · py [m'.key]
    · py [m'.e]

theorem outer_loop (F n : Nat) {s : Sig} {me o : Nat} (hp : s.p ≠ 0) (hq : s.q ≠ 0)
    (d : Deep n s.p) {rkv kv : Val} {e : Int} {rk key : Bytes} : ∀ (N : Nat) (r g : Int) (env : Env) (h : Heap),
    SigCell s me o h → SignEnv env me rkv kv e → bytesOf rkv h = some rk → bytesOf kv h = some key →
    env "sign_r" = some (.int r) → env "sign_s" = some (.int g) →
    (compareToZero (intToBytes r s.size) = true ∨ env "sign_k" = some (.int (bytesToInt rk))) →
    match s.signOuter F (bytesToInt key) e (bytesToInt rk) N r g with
    | some x => ∃ env' l, whileLoop (fun env h => eval (ctx (F + 1) (n + 3)) env outerCond h)
        (fun env h => execs (ctx (F + 1) (n + 3)) outerBody env h) (N + 1) env h = ok (.next env') (h ++ l) ∧
        SignEnv env' me rkv kv e ∧ env' "sign_r" = some (.int x.1) ∧ env' "sign_s" = some (.int x.2)
    | none => ∃ l, whileLoop (fun env h => eval (ctx (F + 1) (n + 3)) env outerCond h)
        (fun env h => execs (ctx (F + 1) (n + 3)) outerBody env h) (N + 1) env h = fail .fuel (h ++ l) := by
  intro N
  induction N with
  | zero =>
    intro r g env h a m hr hk e1 e2 hz
    have a0 := a
    unfold SigCell sigAttrs at a0
    obtain ⟨l, c⟩ := zero_int (F + 1) (n + 2) g s.size h (env := env) (ex := .name "sign_s")
      (es := .attr (.name "self") "_size") (by py [e2]) (by py [m.me, a0])
    rw [Sig.signOuter]
    cases hg : compareToZero (intToBytes g s.size) with
    | false =>
      rw [hg] at c
      rw [if_pos (show (!false) = true from rfl)]
      exact ⟨env, l, while_stop c rfl, m, e1, e2⟩
    | true =>
      rw [hg] at c
      rw [if_neg (by decide)]
      have f := outer_body F n (a.mono l) hp hq d m (bytesOf_mono hr l) (bytesOf_mono hk l) e1 hz
      generalize s.signInner F (bytesToInt rk) F r = res at f
      cases res with
      | none =>
        obtain ⟨l2, f⟩ := f
        exact ⟨l ++ l2, by rw [while_fail c rfl f, List.append_assoc]⟩
      | some x =>
        obtain ⟨env', l2, f, m', g1, g2, g3⟩ := f
        exact ⟨l ++ l2, by rw [while_turn c rfl f, List.append_assoc]; rfl⟩
  | succ N ih =>
    intro r g env h a m hr hk e1 e2 hz
    have a0 := a
    unfold SigCell sigAttrs at a0
    obtain ⟨l, c⟩ := zero_int (F + 1) (n + 2) g s.size h (env := env) (ex := .name "sign_s")
      (es := .attr (.name "self") "_size") (by py [e2]) (by py [m.me, a0])
    rw [Sig.signOuter]
    cases hg : compareToZero (intToBytes g s.size) with
    | false =>
      rw [hg] at c
      rw [if_pos (show (!false) = true from rfl)]
      exact ⟨env, l, while_stop c rfl, m, e1, e2⟩
    | true =>
      rw [hg] at c
      rw [if_neg (by decide)]
      have f := outer_body F n (a.mono l) hp hq d m (bytesOf_mono hr l) (bytesOf_mono hk l) e1 hz
      generalize s.signInner F (bytesToInt rk) F r = res at f ⊢
      cases res with
      | none =>
        obtain ⟨l2, f⟩ := f
        exact ⟨l ++ l2, by rw [while_fail c rfl f, List.append_assoc]⟩
      | some x =>
        obtain ⟨env', l2, f, m', g1, g2, g3⟩ := f
        rw [while_turn c rfl f]
        have := ih x _ env' (h ++ l ++ l2) ((a.mono l).mono l2) m' (bytesOf_mono (bytesOf_mono hr l) l2)
          (bytesOf_mono (bytesOf_mono hk l) l2) g1 g3 (Or.inr g2)
        simp only
        generalize s.signOuter F (bytesToInt key) e (bytesToInt rk) N x
          ((x * bytesToInt key + bytesToInt rk * e).fmod s.q) = res at this ⊢
        cases res with
        | none =>
          obtain ⟨l3, f3⟩ := this
          exact ⟨l ++ l2 ++ l3, by rw [f3]; simp⟩
        | some x =>
          obtain ⟨env3, l3, f3, g⟩ := this
          exact ⟨env3, l ++ l2 ++ l3, by rw [f3]; simp, g⟩

/-- `sign` when the random number is known. -/
def signEnd : List Stmt :=
  [.if_ (.not (.builtin "isbytes" [.name "rand_k"]))
      [.assign (.name "private_key") (.call "Utils.zero_fill" [.name "private_key"]),
       .raise "GOSTSignatureError" "GOSTSignatureError: invalid random value"]
      [],
   .if_ (.cmp .ge (.call "Utils.bytearray_to_int" [.name "rand_k"]) (.attr (.name "self") "_q"))
      [.assign (.name "private_key") (.call "Utils.zero_fill" [.name "private_key"]),
       .raise "GOSTSignatureError" "GOSTSignatureError: invalid random value"]
      [],
   .while_ outerCond outerBody,
   .assign (.name "result") (.bin .add (.call "Utils.int_to_bytearray" [.name "sign_r", .attr
       (.name "self") "_size"]) (.call "Utils.int_to_bytearray" [.name "sign_s", .attr (.name
       "self") "_size"])),
   .assign (.name "private_key") (.call "Utils.zero_fill" [.name "private_key"]),
   .ret (.name "result")]

theorem sign_end (F n : Nat) {s : Sig} {me o : Nat} {h : Heap} (a : SigCell s me o h) (hp : s.p ≠ 0) (hq : s.q ≠ 0)
    (d : Deep n s.p) {env : Env} {rkv kv : Val} {e : Int} {key : Bytes} (m : SignEnv env me rkv kv e)
    (hk : bytesOf kv h = some key) (e1 : env "sign_r" = some (.int 0)) (e2 : env "sign_s" = some (.int 0)) :
    BytesResult [] (atEnd (execs (ctx (F + 1) (n + 3)) signEnd env h)) h
      (match bytesOf rkv h with
      | none => some (.error (.signatureError "GOSTSignatureError: invalid random value"))
      | some rk =>
        if (bytesToInt rk : Int) ≥ s.q then
          some (.error (.signatureError "GOSTSignatureError: invalid random value"))
        else do
          let (r, sg) ← s.signOuter F (bytesToInt key) e (bytesToInt rk) F 0 0
          some (.ok (intToBytes r s.size ++ intToBytes sg s.size))) := by
  have a0 := a
  unfold SigCell sigAttrs at a0
  obtain ⟨w0, l0, f0, _, _⟩ := (zero_fill_ok (F + 1) (n + 2) hk).elim
  unfold signEnd atEnd
  cases hr : bytesOf rkv h with
  | none =>
    py [m.rand, m.key, hr, f0, Option.isSome_none, Bool.not_false]
    exact ⟨_, rfl, ((Ext.refl h).add l0).keeps _⟩
  | some rk =>
    have g := bytearray_to_int_ok (F + 1) (n + 2) hr
    simp only
    have tf : ∀ p : Prop, p = True ∨ p = False := fun p => by by_cases hp : p <;> simp [hp]
    generalize hrest : Stmt.while_ outerCond outerBody = rest
    by_cases hge : (bytesToInt rk : Int) ≥ s.q
    · rw [if_pos hge]
      have hge' : ((bytesToInt rk : Int) ≥ s.q) = True := by simp [hge]
      py [m.me, m.rand, m.key, hr, f0, a0, g, hge', decide_true, Option.isSome_some, Bool.not_true]
      exact ⟨_, rfl, ((Ext.refl h).add l0).keeps _⟩
    · rw [if_neg hge]
      have hge' : ((bytesToInt rk : Int) ≥ s.q) = False := by simp [hge]
      py [m.me, m.rand, m.key, hr, f0, a0, g, hge', decide_false, Option.isSome_some, Bool.not_true]
      rw [← hrest, exec, ctx_loops]
      have f := outer_loop F n hp hq d F 0 0 env h a m hr hk e1 e2 (Or.inl (zero_bytes _))
      generalize s.signOuter F (bytesToInt key) e (bytesToInt rk) F 0 0 = res at f ⊢
      cases res with
      | none =>
        obtain ⟨l, f⟩ := f
        rw [f]
        py []
        exact ⟨_, rfl, ((Ext.refl h).add l).keeps _⟩
      | some x =>
        obtain ⟨env', l, f, m', g1, g2⟩ := f
        have a1 := get_mono a0 l
        obtain ⟨r1, l1, f1, hr1, b1⟩ := (int_to_bytearray_ok (F + 1) (n + 2) x.1 s.size (h ++ l)).elim
        have a2 := get_mono a1 l1
        obtain ⟨r2, l2, f2, hr2, b2⟩ := (int_to_bytearray_ok (F + 1) (n + 2) x.2 s.size (h ++ l ++ l1)).elim
        obtain ⟨r3, l3, f3, _, _⟩ := (zero_fill_ok (F + 1) (n + 2) (bytesOf_mono (bytesOf_mono (bytesOf_mono (bytesOf_mono hk l)
          l1) l2) [.bytearray (intToBytes x.1 s.size ++ intToBytes x.2 s.size)])).elim
        rw [f, thenRun_next]
        py [m'.me, m'.key, g1, g2, a1, f1, a2, f2, bytesOf_mono b1 l2, b2, f3]
        refine ⟨_, _, rfl, (((((Ext.refl h).add l).add l1).add l2).add _).add l3 |>.keeps _, ?_,
          bytesOf_mono (bytesOf_last _ _) l3⟩
        simp only [List.length_append]
        omega

theorem BytesResult.after {W : List Nat} {o : Out Val} {h h1 : Heap} {r : Option (Res Bytes)} (k : Keeps W h h1)
    (b : BytesResult [] o h1 r) : BytesResult W o h r := by
  have hk : ∀ {h'}, Keeps [] h1 h' → Keeps W h h' := fun k' => k.then k' (by simp)
  unfold BytesResult at b ⊢
  match r, b with
  | some (.ok _), ⟨h', v, e, k', hv, hb⟩ => exact ⟨h', v, e, hk k', Nat.le_trans k.length hv, hb⟩
  | some (.error _), ⟨h', e, k'⟩ => exact ⟨h', e, hk k'⟩
  | none, ⟨h', e, k'⟩ => exact ⟨h', e, hk k'⟩

theorem BytesResult.before {W : List Nat} {o : Out Val} {h h1 : Heap} {r : Option (Res Bytes)} (x : Ext h h1)
    (b : BytesResult W o h1 r) : BytesResult W o h r := by
  have hk : ∀ {h'}, Keeps W h1 h' → Keeps W h h' := fun k' => (x.keeps W).trans k'
  unfold BytesResult at b ⊢
  match r, b with
  | some (.ok _), ⟨h', v, e, k', hv, hb⟩ => exact ⟨h', v, e, hk k', Nat.le_trans x.length hv, hb⟩
  | some (.error _), ⟨h', e, k'⟩ => exact ⟨h', e, hk k'⟩
  | none, ⟨h', e, k'⟩ => exact ⟨h', e, hk k'⟩

theorem bytesOf_old {v : Val} {h : Heap} (k : ∀ w, v = .ref w → w < h.length) (l : Heap) : bytesOf v (h ++ l) = bytesOf v h := by
  cases v with
  | ref w => simp only [bytesOf, List.getElem?_append_left (k w rfl)]
  | _ => rfl

theorem pyVal_empty (v : Val) (h : Heap) : (bytesOf v h == some []) = (pyVal v h).isEmpty := by
  have e : (pyVal v h).isEmpty = match (pyVal v h).data? with | some b => b.isEmpty | none => false := by
    cases pyVal v h <;> rfl
  rw [e, pyVal_data]
  cases bytesOf v h with
  | none => rfl
  | some b => cases b <;> rfl

/-- `sign`. The random source is read only when the random number is the empty byte string. -/
theorem sign_ok (F n : Nat) {s : Sig} {me o : Nat} {h : Heap} (a : SigCell s me o h) (hp : s.p ≠ 0) (hq : s.q ≠ 0)
    (d : Deep n s.p) (kv dv rv : Val) (hv : ∀ w, rv = .ref w → w < h.length) (rand : Nat → Bytes)
    (src : (pyVal rv h).isEmpty = true → Source rand (F + 2) s.size h) :
    BytesResult (if (pyVal rv h).isEmpty then [0] else [])
      (call package (F + 1) (n + 4) "GOST34102012.sign" [.ref me, kv, dv, rv] h) h
      (s.sign F rand (pyVal kv h) (pyVal dv h) (pyVal rv h)) := by
  rw [call_succ Fn.GOST34102012.sign, run_body h rfl rfl]
  have e : GOST34102012.m_sign.body =
      .if_ (.not (.call "Utils.check_value" [.name "private_key", .attr (.name "self") "_size"]))
        [.raise "GOSTSignatureError" "GOSTSignatureError: invalid private key value"]
        [] ::
      .if_ (.not (.call "Utils.check_value" [.name "digest", .attr (.name "self") "_size"]))
        [.raise "GOSTSignatureError" "GOSTSignatureError: invalid digest value"]
        [] ::
      .assign (.name "sign_e") (.meth (.name "self") "_set_e" [.name "digest"]) ::
      .assign (.name "sign_r") (.int 0) ::
      .assign (.name "sign_s") (.int 0) ::
      .assign (.name "sign_k") (.int 0) ::
      .if_ (.cmp .eq (.name "rand_k") (.builtin "bytearray" [.bytes []]))
        [.assign (.name "rand_k") (.meth (.name "self") "_get_rand_k" [])]
        [] :: signEnd := rfl
  rw [e]
  clear e
  generalize hend : signEnd = fin
  have a0 := a
  unfold SigCell sigAttrs at a0
  have f1 := check_value_ok (F + 1) (n + 2) kv s.size h
  have f2 := check_value_ok (F + 1) (n + 2) dv s.size h
  unfold Sig.sign
  generalize hW : (if (pyVal rv h).isEmpty = true then [0] else []) = W
  rcases checkValue_cases kv h s.size with hc | ⟨hc, key, hk, hl1⟩
  · rw [hc] at f1 ⊢
    rw [if_pos (show (!false) = true from rfl)]
    unfold atEnd
    py [a0, f1, Bool.not_false]
    exact ⟨h, rfl, .refl _ _⟩
  rw [hc] at f1 ⊢
  rw [if_neg (by decide)]
  rcases checkValue_cases dv h s.size with hc | ⟨hc, dig, hd, hl2⟩
  · rw [hc] at f2 ⊢
    rw [if_pos (show (!false) = true from rfl)]
    unfold atEnd
    py [a0, f1, f2, Bool.not_false, Bool.not_true]
    exact ⟨h, rfl, .refl _ _⟩
  rw [hc] at f2 ⊢
  rw [if_neg (by decide), pyVal_data, pyVal_data, hk, hd, Option.getD_some, Option.getD_some]
  obtain ⟨l, f3⟩ := set_e_ok (F + 1) (n + 1) a hq hd
  have a1 := get_mono a0 l
  have hv' := (bytesOf_old hv (l ++ [.bytearray []])).symm
  rw [← List.append_assoc] at hv'
  have emp := pyVal_empty rv h
  rw [hv'] at emp
  simp only
  cases hem : (pyVal rv h).isEmpty with
  | false =>
    rw [hem] at emp
    have hW : W = [] := by rw [← hW, hem]; rfl
    subst hW
    rw [if_neg (by decide), Option.bind_eq_bind, Option.bind_some]
    rw [pyVal_data, hv']
    py [a0, f1, f2, f3, a1, emp, bytesOf_last, Bool.not_true]
    rw [← hend]
    have := sign_end F n ((a.mono l).mono [.bytearray []]) hp hq d (rkv := rv) (kv := kv) (e := s.setE dig)
      (env := ((((((((Env.empty.set "self" (.ref me)).set "private_key" kv).set "digest" dv).set "rand_k" rv).set "sign_e"
        (.int (s.setE dig))).set "sign_r" (.int 0)).set "sign_s" (.int 0)).set "sign_k" (.int 0)))
      (by constructor <;> py []) (bytesOf_mono (bytesOf_mono hk l) _) (by py []) (by py [])
    exact BytesResult.after (((Ext.refl h).add l).add _ |>.keeps _) this
  | true =>
    rw [hem] at emp
    have hW : W = [0] := by rw [← hW, hem]; rfl
    subst hW
    rw [if_pos rfl]
    have g := get_rand_k_ok F (n + 1) ((a.mono l).mono [.bytearray []]) (((src hem).mono l).mono _)
    have a2 := get_mono a1 [.bytearray []]
    have hme : me ≠ 0 := by
      rintro rfl
      obtain ⟨⟨l, e⟩, _⟩ := src hem
      rw [a0] at e
      injection e with e
      cases e
    have k0 : Keeps [0] h (h ++ l ++ [.bytearray []]) := ((Ext.refl h).add l).add _ |>.keeps _
    generalize s.getRandK F rand = res at g ⊢
    cases res with
    | none =>
      obtain ⟨h', g, k⟩ := g
      py [a0, f1, f2, f3, a1, a2, emp, bytesOf_last, Bool.not_true, g]
      unfold atEnd
      py []
      exact ⟨h', rfl, k0.trans k⟩
    | some b =>
      obtain ⟨h', v, g, k, hvl, hb⟩ := g
      rw [Option.map_some, Option.bind_eq_bind, Option.bind_some]
      py [a0, f1, f2, f3, a1, a2, emp, bytesOf_last, Bool.not_true, g]
      rw [← hend]
      have := sign_end F n (k.get a2 (by simpa using hme)) hp hq d (rkv := .ref v) (kv := kv) (e := s.setE dig)
        (env := ((((((((Env.empty.set "self" (.ref me)).set "private_key" kv).set "digest" dv).set "rand_k" rv).set "sign_e"
          (.int (s.setE dig))).set "sign_r" (.int 0)).set "sign_s" (.int 0)).set "sign_k" (.int 0)).set "rand_k" (.ref v))
        (by constructor <;> py []) (k.bytes (bytesOf_mono (bytesOf_mono hk l) _)) (by py []) (by py [])
      rw [hb] at this
      exact BytesResult.after (k0.trans k) this

end SigSrc
end Gost.Src
