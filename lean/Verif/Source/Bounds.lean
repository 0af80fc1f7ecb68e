import Verif.Source.Semantics

/-! The bounds of the semantics: what a program does within some bounds for the turns of loops and the depth of calls, it
does within all larger bounds. -/

namespace Gost.Src

/-- The first outcome is that of an exhausted bound, or it is the second one. -/
def Less {α : Type} (o p : Out α) : Prop := o.1 = .error .fuel ∨ o = p

theorem Less.refl {α : Type} (o : Out α) : Less o o := Or.inr rfl

theorem Less.andThen {α β : Type} {o p : Out α} {f g : α → Heap → Out β} (a : Less o p) (b : ∀ x h, Less (f x h) (g x h)) :
    Less (Src.andThen o f) (Src.andThen p g) := by
  rcases a with a | rfl
  · obtain ⟨o, h⟩ := o
    cases a
    exact Or.inl rfl
  · obtain ⟨o, h⟩ := o
    cases o with
    | ok x => exact b x h
    | error e => exact .refl _

theorem Less.thenRun {o p : Out Flow} {f g : Env → Heap → Out Flow} (a : Less o p) (b : ∀ x h, Less (f x h) (g x h)) :
    Less (Src.thenRun o f) (Src.thenRun p g) := by
  rcases a with a | rfl
  · obtain ⟨o, h⟩ := o
    cases a
    exact Or.inl rfl
  · obtain ⟨o, h⟩ := o
    cases o with
    | ok x => cases x with
      | next env => exact b env h
      | ret v => exact .refl _
    | error e => exact .refl _

/-- Surroundings with larger bounds. -/
structure Ctx.Less (C D : Ctx) : Prop where
  call : ∀ f vs h, Src.Less (C.call f vs h) (D.call f vs h)
  loops : C.loops ≤ D.loops
  globals : C.globals = D.globals
  method : C.method = D.method
  property : C.property = D.property
  copy : C.copy = D.copy

variable {C D : Ctx}

theorem getAttr_less (c : C.Less D) (v : Val) (a : String) (h : Heap) : Less (getAttr C v a h) (getAttr D v a h) := by
  unfold getAttr
  rw [c.property]
  split
  · split
    · split
      · exact c.call _ _ _
      · exact .refl _
    · exact .refl _
  · exact .refl _

theorem callMeth_less (c : C.Less D) (v : Val) (m : String) (args : List Val) (h : Heap) :
    Less (callMeth C v m args h) (callMeth D v m args h) := by
  unfold callMeth
  rw [c.method]
  split
  · split
    · split
      · exact c.call _ _ _
      · exact .refl _
    · exact .refl _
  · exact .refl _

theorem instantiate_less (c : C.Less D) (cls : String) (args : List Val) (h : Heap) :
    Less (instantiate C cls args h) (instantiate D cls args h) := by
  unfold instantiate
  rw [c.method]
  split
  · exact (c.call _ _ _).andThen fun _ _ => .refl _
  · exact .refl _

theorem applyBuiltin_less (c : C.Less D) (f : String) (args : List Val) (h : Heap) :
    Less (applyBuiltin C f args h) (applyBuiltin D f args h) := by
  unfold applyBuiltin
  rw [c.copy]
  exact .refl _

theorem evalComp_less {f g : Val → Heap → Out Val} (n : ∀ v h, Less (f v h) (g v h)) (l : List Val) :
    ∀ h, Less (evalComp f l h) (evalComp g l h) := by
  induction l with
  | nil => exact fun h => .refl _
  | cons v l ih =>
    intro h
    unfold evalComp
    exact (n v h).andThen fun _ h => (ih h).andThen fun _ _ => .refl _

mutual

theorem eval_less (c : C.Less D) : (e : Expr) → ∀ env h, Less (eval C env e h) (eval D env e h)
  | .none, _, _ => .refl _
  | .bool _, _, _ => .refl _
  | .int _, _, _ => .refl _
  | .str _, _, _ => .refl _
  | .bytes _, _, _ => .refl _
  | .name _, _, _ => .refl _
  | .glob x, _, _ => by
    unfold eval
    rw [c.globals]
    exact .refl _
  | .attr e a, env, h => by
    unfold eval
    exact (eval_less c e env h).andThen fun v h => getAttr_less c v a h
  | .bin op a b, env, h => by
    unfold eval
    exact (eval_less c a env h).andThen fun _ h => (eval_less c b env h).andThen fun _ _ => .refl _
  | .cmp op a b, env, h => by
    unfold eval
    exact (eval_less c a env h).andThen fun _ h => (eval_less c b env h).andThen fun _ _ => .refl _
  | .and a b, env, h => by
    unfold eval
    refine (eval_less c a env h).andThen fun x h => ?_
    split
    · exact eval_less c b env h
    · exact .refl _
    · exact .refl _
  | .or a b, env, h => by
    unfold eval
    refine (eval_less c a env h).andThen fun x h => ?_
    split
    · exact .refl _
    · exact eval_less c b env h
    · exact .refl _
  | .not a, env, h => by
    unfold eval
    exact (eval_less c a env h).andThen fun _ _ => .refl _
  | .neg a, env, h => by
    unfold eval
    exact (eval_less c a env h).andThen fun _ _ => .refl _
  | .index e i, env, h => by
    unfold eval
    exact (eval_less c e env h).andThen fun _ h => (eval_less c i env h).andThen fun _ _ => .refl _
  | .slice e lo hi, env, h => by
    unfold eval
    exact (eval_less c e env h).andThen fun _ h => (evalOpt_less c lo env h).andThen fun _ h =>
      (evalOpt_less c hi env h).andThen fun _ _ => .refl _
  | .tuple es, env, h => by
    unfold eval
    exact (evals_less c es env h).andThen fun _ _ => .refl _
  | .list es, env, h => by
    unfold eval
    exact (evals_less c es env h).andThen fun _ _ => .refl _
  | .comp elt x iter, env, h => by
    unfold eval
    refine (eval_less c iter env h).andThen fun v h => ?_
    split
    · exact (evalComp_less (fun w h => eval_less c elt (env.set x w) h) _ h).andThen fun _ _ => .refl _
    · exact .refl _
  | .builtin f args, env, h => by
    unfold eval
    exact (evals_less c args env h).andThen fun vs h => applyBuiltin_less c f vs h
  | .call f args, env, h => by
    unfold eval
    exact (evals_less c args env h).andThen fun vs h => c.call f vs h
  | .meth e m args, env, h => by
    unfold eval
    exact (eval_less c e env h).andThen fun v h => (evals_less c args env h).andThen fun vs h => callMeth_less c v m vs h
  | .new cls args, env, h => by
    unfold eval
    exact (evals_less c args env h).andThen fun vs h => instantiate_less c cls vs h

theorem evals_less (c : C.Less D) : (es : List Expr) → ∀ env h, Less (evals C env es h) (evals D env es h)
  | [], _, _ => .refl _
  | e :: es, env, h => by
    unfold evals
    exact (eval_less c e env h).andThen fun _ h => (evals_less c es env h).andThen fun _ _ => .refl _

theorem evalOpt_less (c : C.Less D) : (e : Option Expr) → ∀ env h, Less (evalOpt C env e h) (evalOpt D env e h)
  | .none, _, _ => .refl _
  | some e, env, h => by
    unfold evalOpt
    exact (eval_less c e env h).andThen fun _ _ => .refl _

end

theorem assignAttrs_less (c : C.Less D) (env : Env) (xs : List (Expr × String)) :
    ∀ vs h, Less (assign.assignAttrs C env xs vs h) (assign.assignAttrs D env xs vs h) := by
  induction xs with
  | nil => intro vs h; cases vs <;> exact .refl _
  | cons x xs ih =>
    intro vs h
    cases vs with
    | nil => exact .refl _
    | cons v vs =>
      unfold assign.assignAttrs
      exact (eval_less c x.1 env h).andThen fun _ _ => (Less.refl _).andThen fun _ h => ih vs h

theorem assign_less (c : C.Less D) (env : Env) (t : Target) (v : Val) (h : Heap) :
    Less (assign C env t v h) (assign D env t v h) := by
  cases t with
  | name x => exact .refl _
  | attr e a =>
    unfold assign
    exact (eval_less c e env h).andThen fun _ _ => .refl _
  | index e i =>
    unfold assign
    exact (eval_less c e env h).andThen fun _ h => (eval_less c i env h).andThen fun _ _ => .refl _
  | slice e lo hi =>
    unfold assign
    exact (eval_less c e env h).andThen fun _ h => (evalOpt_less c lo env h).andThen fun _ h =>
      (evalOpt_less c hi env h).andThen fun _ _ => .refl _
  | names xs => exact .refl _
  | attrs xs =>
    cases e : elems v h with
    | none => simp only [assign, e]; exact .refl _
    | some vs => simp only [assign, e]; exact assignAttrs_less c env xs vs h

theorem forLoop_less (x : String) {f g : Env → Heap → Out Flow} (n : ∀ env h, Less (f env h) (g env h)) (l : List Val) :
    ∀ env h, Less (forLoop x f l env h) (forLoop x g l env h) := by
  induction l with
  | nil => exact fun _ _ => .refl _
  | cons v l ih =>
    intro env h
    unfold forLoop
    exact (n _ h).thenRun fun env h => ih env h

theorem whileLoop_less {cf cg : Env → Heap → Out Val} {f g : Env → Heap → Out Flow}
    (nc : ∀ env h, Less (cf env h) (cg env h)) (n : ∀ env h, Less (f env h) (g env h)) (L : Nat) :
    ∀ M, L ≤ M → ∀ env h, Less (whileLoop cf f L env h) (whileLoop cg g M env h) := by
  induction L with
  | zero => exact fun _ _ _ _ => Or.inl rfl
  | succ L ih =>
    intro M hM env h
    obtain ⟨M, rfl⟩ : ∃ k, M = k + 1 := ⟨M - 1, by omega⟩
    unfold whileLoop
    refine (nc env h).andThen fun v h => ?_
    split
    · exact (n env h).thenRun fun env h => ih M (by omega) env h
    · exact .refl _
    · exact .refl _

mutual

theorem exec_less (c : C.Less D) : (s : Stmt) → ∀ env h, Less (exec C s env h) (exec D s env h)
  | .pass, _, _ => .refl _
  | .assign t e, env, h => by
    unfold exec
    exact (eval_less c e env h).andThen fun v h => assign_less c env t v h
  | .expr e, env, h => by
    unfold exec
    exact (eval_less c e env h).andThen fun _ _ => .refl _
  | .ret e, env, h => by
    unfold exec
    exact (eval_less c e env h).andThen fun _ _ => .refl _
  | .if_ a t e, env, h => by
    unfold exec
    refine (eval_less c a env h).andThen fun v h => ?_
    split
    · exact execs_less c t env h
    · exact execs_less c e env h
    · exact .refl _
  | .for_ x iter body, env, h => by
    unfold exec
    refine (eval_less c iter env h).andThen fun v h => ?_
    split
    · exact forLoop_less x (fun env h => execs_less c body env h) _ env h
    · exact .refl _
  | .while_ a body, env, h => by
    unfold exec
    exact whileLoop_less (fun env h => eval_less c a env h) (fun env h => execs_less c body env h) _ _ c.loops env h
  | .raise _ _, _, _ => .refl _
  | .tryValueError body handler, env, h => by
    unfold exec
    rcases execs_less c body env h with e | e
    · generalize execs C body env h = o at e
      obtain ⟨o, k⟩ := o
      cases e
      exact Or.inl rfl
    · rw [e]
      generalize execs D body env h = o
      obtain ⟨o, k⟩ := o
      cases o with
      | ok x => exact .refl _
      | error e =>
        cases e <;> first | exact execs_less c handler env k | exact .refl _

theorem execs_less (c : C.Less D) : (ss : List Stmt) → ∀ env h, Less (execs C ss env h) (execs D ss env h)
  | [], _, _ => .refl _
  | s :: ss, env, h => by
    unfold execs
    exact (exec_less c s env h).thenRun fun env h => execs_less c ss env h

end

theorem run_less (c : C.Less D) (d : FunDef) (args : List Val) (h : Heap) : Less (run C d args h) (run D d args h) := by
  have hb : Less (bindParams C d args h) (bindParams D d args h) := by
    unfold bindParams
    split
    · exact .refl _
    · simp only
      split
      · exact (evals_less c _ _ h).andThen fun _ _ => .refl _
      · exact .refl _
  unfold run
  refine hb.andThen fun vs h => ?_
  split
  · exact (execs_less c d.body _ h).andThen fun _ _ => .refl _
  · exact .refl _

theorem call_less (P : Program) {L M : Nat} (hL : L ≤ M) (n : Nat) : ∀ m, n ≤ m → ∀ f args h,
    Less (call P L n f args h) (call P M m f args h) := by
  induction n with
  | zero => exact fun _ _ _ _ _ => Or.inl rfl
  | succ n ih =>
    intro m hm f args h
    obtain ⟨m, rfl⟩ : ∃ k, m = k + 1 := ⟨m - 1, by omega⟩
    unfold call
    split
    · refine run_less ?_ _ args h
      exact ⟨fun f vs h => ih m (by omega) f vs h, hL, rfl, rfl, rfl, rfl⟩
    · exact .refl _

end Gost.Src
