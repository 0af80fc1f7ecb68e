import Verif.Source.Semantics

/-! A check of the text of functions: every name is assigned before it is used, on all paths; every name of a module
exists; calls have a number of arguments which the called function takes; `raise` names one of given exceptions. What the
check accepts does not raise the exceptions in question, whatever the arguments and the memory are. -/

namespace Gost.Src

/-! ### The check -/

/-- A number for a string, to tell different strings apart quickly. -/
def key (s : String) : Nat := s.toByteArray.data.toList.foldl (fun n c => 256 * n + c.toNat) 0

/-- Equality of strings. -/
def same (a b : String) : Bool := key a == key b && a == b

theorem same_iff {a b : String} : same a b = true ↔ a = b := by
  unfold same
  constructor
  · intro h
    simp at h
    exact h.2
  · rintro rfl
    simp

/-- What a function may do. -/
structure Rules where
  /-- It may use this name of a module. -/
  glob : String → Bool
  /-- It may call this function with so many arguments. -/
  can : String → Nat → Bool
  /-- It may call this method with so many arguments, the object not counted. -/
  meth : String → Nat → Bool
  /-- It may use this property. -/
  prop : String → Bool
  /-- It may make an object of this class with so many arguments. -/
  init : String → Nat → Bool
  /-- It may raise this. -/
  raises : String → String → Bool

/-- A name which certainly has a value. -/
def has (ds : List String) (x : String) : Bool := ds.any (same x)

mutual

/-- An expression, `ds` being the variables which have a value. -/
def okE (R : Rules) (ds : List String) : Expr → Bool
  | .none => true
  | .bool _ => true
  | .int _ => true
  | .str _ => true
  | .bytes _ => true
  | .name x => has ds x
  | .glob x => R.glob x
  | .attr e a => okE R ds e && R.prop a
  | .bin _ a b => okE R ds a && okE R ds b
  | .cmp _ a b => okE R ds a && okE R ds b
  | .and a b => okE R ds a && okE R ds b
  | .or a b => okE R ds a && okE R ds b
  | .not a => okE R ds a
  | .neg a => okE R ds a
  | .index e i => okE R ds e && okE R ds i
  | .slice e lo hi => okE R ds e && okO R ds lo && okO R ds hi
  | .tuple es => okEs R ds es
  | .list es => okEs R ds es
  | .comp elt x iter => okE R ds iter && okE R (x :: ds) elt
  | .builtin _ args => okEs R ds args
  | .call f args => okEs R ds args && R.can f args.length
  | .meth e m args => okE R ds e && okEs R ds args && R.meth m args.length
  | .new cls args => okEs R ds args && R.init cls args.length

def okEs (R : Rules) (ds : List String) : List Expr → Bool
  | [] => true
  | e :: es => okE R ds e && okEs R ds es

def okO (R : Rules) (ds : List String) : Option Expr → Bool
  | .none => true
  | some e => okE R ds e

end

/-- A target of an assignment. -/
def okT (R : Rules) (ds : List String) : Target → Bool
  | .name _ => true
  | .attr e _ => okE R ds e
  | .index e i => okE R ds e && okE R ds i
  | .slice e lo hi => okE R ds e && okO R ds lo && okO R ds hi
  | .names _ => true
  | .attrs xs => xs.all fun p => okE R ds p.1

/-- The variables which have a value after an assignment. -/
def addT (ds : List String) : Target → List String
  | .name x => if has ds x then ds else x :: ds
  | .names xs => xs.reverse ++ ds
  | _ => ds

/-- Where two paths meet. `none`: the path is never left. -/
def meet : Option (List String) → Option (List String) → Option (List String)
  | none, r => r
  | r, none => r
  | some a, some b => some (a.filter (has b))

/-- A loop which has at least one turn: over `range(k)` with a number `k`. -/
def turns : Expr → Bool
  | .builtin f [.int k] => same f "range" && decide (0 < k)
  | _ => false

mutual

/-- A statement: `none` if it is refused, otherwise the variables which have a value afterwards (`some none` if the
statement never ends normally). -/
def okS (R : Rules) (ds : List String) : Stmt → Option (Option (List String))
  | .pass => some (some ds)
  | .assign t e => if okE R ds e && okT R ds t then some (some (addT ds t)) else none
  | .expr e => if okE R ds e then some (some ds) else none
  | .ret e => if okE R ds e then some none else none
  | .if_ c t e =>
    if okE R ds c then
      match okSs R ds t, okSs R ds e with
      | some a, some b => some (meet a b)
      | _, _ => none
    else none
  | .for_ x iter body =>
    if okE R ds iter then
      match okSs R (x :: ds) body with
      | some r => some (if turns iter then r else some ds)
      | none => none
    else none
  | .while_ c body => if okE R ds c && (okSs R ds body).isSome then some (some ds) else none
  | .raise cls msg => if R.raises cls msg then some none else none
  | .tryValueError body handler =>
    match okSs R ds body, okSs R ds handler with
    | some a, some b => some (meet a b)
    | _, _ => none

def okSs (R : Rules) (ds : List String) : List Stmt → Option (Option (List String))
  | [] => some (some ds)
  | s :: ss =>
    match okS R ds s with
    | some (some ds') => okSs R ds' ss
    | some none => some none
    | none => none

end

/-- A function. -/
def okF (R : Rules) (d : FunDef) : Bool := okEs R [] d.defaults && (okSs R d.params d.body).isSome

/-- The function takes so many arguments. -/
def accepts (d : FunDef) (k : Nat) : Bool :=
  k == d.params.length || (decide (k < d.params.length) && decide (d.params.length - k ≤ d.defaults.length))

/-! ### What the check is good for -/

/-- The exceptions which are not raised. -/
def Clean {α : Type} (bad : Exc → Prop) (o : Out α) : Prop := ∀ e, o.1 = .error e → ¬ bad e

/-- The exceptions which operations raise. -/
def plain : Exc → Bool
  | .raised _ _ | .name | .type => false
  | _ => true

/-- An outcome with such exceptions only. -/
def Plain {α : Type} (o : Out α) : Prop := ∀ e, o.1 = .error e → plain e = true

theorem Plain.ok {α : Type} (a : α) (h : Heap) : Plain (ok a h) := fun _ e => by cases e

theorem Plain.fail {α : Type} {e : Exc} (p : plain e = true) (h : Heap) : Plain (fail e h : Out α) :=
  fun e' h' => by cases h'; exact p

theorem Plain.alloc (o : Obj) (h : Heap) : Plain (alloc o h) := Plain.ok _ _

theorem Plain.andThen {α β : Type} {o : Out α} {f : α → Heap → Out β} (p : Plain o) (q : ∀ a h, Plain (f a h)) :
    Plain (andThen o f) := by
  obtain ⟨r, h⟩ := o
  cases r with
  | ok a => exact q a h
  | error e => exact fun e' h' => by cases h'; exact p e rfl

theorem arith_plain {op : BinOp} {a b : Int} {e : Exc} (h : arith op a b = .error e) : plain e = true := by
  unfold arith at h
  split at h <;> try (split at h) <;> first | cases h; rfl | cases h
  all_goals first | cases h; rfl | cases h

macro "plain" : tactic =>
  `(tactic| repeat' first
    | exact Plain.ok _ _
    | exact Plain.fail rfl _
    | exact Plain.alloc _ _
    | split)

theorem binop_plain (op : BinOp) (a b : Val) (h : Heap) : Plain (binop op a b h) := by
  unfold binop
  split
  · split
    · exact .ok _ _
    · rename_i e he
      exact .fail (arith_plain he) _
  · plain

theorem cmpop_plain (op : CmpOp) (a b : Val) (h : Heap) : Plain (cmpop op a b h) := by
  unfold cmpop
  plain

theorem getItem_plain (v i : Val) (h : Heap) : Plain (getItem v i h) := by
  unfold getItem
  plain

theorem getSlice_plain (v : Val) (lo hi : Option Int) (h : Heap) : Plain (getSlice v lo hi h) := by
  unfold getSlice
  plain

theorem setItem_plain (v i x : Val) (h : Heap) : Plain (setItem v i x h) := by
  unfold setItem
  plain

theorem setSlice_plain (v : Val) (lo hi : Option Int) (x : Val) (h : Heap) : Plain (setSlice v lo hi x h) := by
  unfold setSlice
  plain

theorem setAttr_plain (v : Val) (a : String) (x : Val) (h : Heap) : Plain (setAttr v a x h) := by
  unfold setAttr
  plain

theorem listBytearray_plain (l : List Val) (h : Heap) : Plain (listBytearray l h) := by
  unfold listBytearray
  plain

theorem newBytearray_plain (v : Val) (h : Heap) : Plain (newBytearray v h) := by
  unfold newBytearray
  repeat' first
    | exact Plain.fail rfl _
    | exact Plain.alloc _ _
    | exact listBytearray_plain _ _
    | split

theorem pyLen_plain (v : Val) (h : Heap) : Plain (pyLen v h) := by
  unfold pyLen
  plain

theorem toBytes_plain (x n : Int) (order : String) (h : Heap) : Plain (toBytes x n order h) := by
  unfold toBytes
  plain

theorem builtin_plain (f : String) (args : List Val) (h : Heap) : Plain (builtin f args h) := by
  unfold builtin
  repeat' first
    | exact Plain.ok _ _
    | exact Plain.fail rfl _
    | exact Plain.alloc _ _
    | exact pyLen_plain _ _
    | exact newBytearray_plain _ _
    | exact toBytes_plain _ _ _ _
    | split

theorem builtinMeth_plain (v : Val) (m : String) (args : List Val) (h : Heap) : Plain (builtinMeth v m args h) := by
  unfold builtinMeth
  repeat' first
    | exact Plain.ok _ _
    | exact Plain.fail rfl _
    | exact Plain.alloc _ _
    | exact toBytes_plain _ _ _ _
    | split

theorem evalComp_plain {f : Val → Heap → Out Val} (n : ∀ v h, Plain (f v h)) (l : List Val) :
    ∀ h, Plain (evalComp f l h) := by
  induction l with
  | nil => exact fun h => .ok _ _
  | cons v l ih =>
    intro h
    unfold evalComp
    exact (n v h).andThen fun _ h => (ih h).andThen fun _ _ => .ok _ _

theorem copyVal_plain (n : Nat) : ∀ v h, Plain (copyVal n v h) := by
  induction n with
  | zero => exact fun _ _ => .fail rfl _
  | succ n ih =>
    intro v h
    cases v with
    | ref r =>
      simp only [copyVal]
      split
      · exact .alloc _ _
      · exact (evalComp_plain ih _ h).andThen fun _ _ => .alloc _ _
      · exact (evalComp_plain ih _ h).andThen fun _ _ => .alloc _ _
      · exact .fail rfl _
    | _ => exact .ok _ _

/-- The surroundings do what the rules say. -/
structure Fits (R : Rules) (bad : Exc → Prop) (C : Ctx) : Prop where
  plain : ∀ e, plain e = true → ¬ bad e
  raises : ∀ cls msg, R.raises cls msg = true → ¬ bad (.raised cls msg)
  glob : ∀ x, R.glob x = true → (C.globals x).isSome = true
  call : ∀ f vs h, R.can f vs.length = true → Clean bad (C.call f vs h)
  meth : ∀ m k, R.meth m k = true → ∀ c f st, C.method c m = some (f, st) → R.can f (if st then k else k + 1) = true
  prop : ∀ a, R.prop a = true → ∀ c f, C.property c a = some f → R.can f 1 = true
  init : ∀ c k, R.init c k = true → ∀ f st, C.method c "__init__" = some (f, st) → R.can f (k + 1) = true
  copy : ∀ v h, Clean bad (C.copy v h)

section

variable {R : Rules} {bad : Exc → Prop} {C : Ctx}

theorem Fits.of (c : Fits R bad C) {α : Type} {o : Out α} (p : Plain o) : Clean bad o :=
  fun e h => c.plain e (p e h)

theorem Clean.ok {α : Type} (a : α) (h : Heap) : Clean bad (ok a h) := fun _ e => by cases e

theorem Clean.andThen {α β : Type} {o : Out α} {f : α → Heap → Out β} (p : Clean bad o)
    (q : ∀ a h, Clean bad (f a h)) : Clean bad (andThen o f) := by
  obtain ⟨r, h⟩ := o
  cases r with
  | ok a => exact q a h
  | error e => exact fun e' h' => by cases h'; exact p e rfl

/-- As `Clean.andThen`, with what the value is known to be. -/
theorem Clean.andThen' {α β : Type} {o : Out α} {f : α → Heap → Out β} (p : Clean bad o)
    (q : ∀ a h, o = (.ok a, h) → Clean bad (f a h)) : Clean bad (Src.andThen o f) := by
  obtain ⟨r, h⟩ := o
  cases r with
  | ok a => exact q a h rfl
  | error e => exact fun e' h' => by cases h'; exact p e rfl

theorem getAttr_clean (c : Fits R bad C) (v : Val) {a : String} (r : R.prop a = true) (h : Heap) :
    Clean bad (getAttr C v a h) := by
  unfold getAttr
  split
  · split
    · split
      · rename_i f e
        exact c.call _ _ _ (c.prop a r _ f e)
      · split
        · exact .ok _ _
        · exact c.of (.fail rfl _)
    · exact c.of (.fail rfl _)
  · exact c.of (.fail rfl _)

theorem callMeth_clean (c : Fits R bad C) (v : Val) {m : String} (args : List Val) (r : R.meth m args.length = true)
    (h : Heap) : Clean bad (callMeth C v m args h) := by
  unfold callMeth
  split
  · split
    · split
      · rename_i f st e
        have := c.meth m _ r _ f st e
        cases st with
        | true => exact c.call _ _ _ this
        | false => exact c.call _ _ _ this
      · exact c.of (.fail rfl _)
    · exact c.of (builtinMeth_plain _ _ _ _)
  · exact c.of (builtinMeth_plain _ _ _ _)

theorem instantiate_clean (c : Fits R bad C) (cls : String) (args : List Val) (r : R.init cls args.length = true)
    (h : Heap) : Clean bad (instantiate C cls args h) := by
  unfold instantiate
  split
  · rename_i f st e
    exact (c.call _ _ _ (c.init cls _ r f st e)).andThen fun _ _ => .ok _ _
  · exact c.of (.fail rfl _)

theorem applyBuiltin_clean (c : Fits R bad C) (f : String) (args : List Val) (h : Heap) :
    Clean bad (applyBuiltin C f args h) := by
  unfold applyBuiltin
  split
  · exact c.copy _ _
  · exact c.of (builtin_plain _ _ _)

theorem evalComp_clean {f : Val → Heap → Out Val} (n : ∀ v h, Clean bad (f v h)) (l : List Val) :
    ∀ h, Clean bad (evalComp f l h) := by
  induction l with
  | nil => exact fun h => .ok _ _
  | cons v l ih =>
    intro h
    unfold evalComp
    exact (n v h).andThen fun _ h => (ih h).andThen fun _ _ => .ok _ _

/-- The variables have values. -/
def Has (ds : List String) (env : Env) : Prop := ∀ x ∈ ds, (env x).isSome = true

theorem has_mem {ds : List String} {x : String} : has ds x = true ↔ x ∈ ds := by
  unfold has
  rw [List.any_eq_true]
  constructor
  · rintro ⟨y, h, e⟩
    rw [same_iff.mp e]
    exact h
  · exact fun h => ⟨x, h, same_iff.mpr rfl⟩

theorem Has.set {ds : List String} {env : Env} (a : Has ds env) (x : String) (v : Val) : Has (x :: ds) (env.set x v) := by
  intro y hy
  unfold Env.set
  split
  · rfl
  · rename_i e
    exact a y ((List.mem_cons.mp hy).resolve_left e)

theorem Has.mono {ds es : List String} {env : Env} (a : Has ds env) (h : ∀ x ∈ es, x ∈ ds) : Has es env :=
  fun x hx => a x (h x hx)

theorem evals_length {env : Env} (es : List Expr) :
    ∀ {h : Heap} {vs : List Val} {h' : Heap}, evals C env es h = (.ok vs, h') → vs.length = es.length := by
  induction es with
  | nil => intro h vs h' e; cases e; rfl
  | cons x es ih =>
    intro h vs h' e
    unfold evals at e
    generalize eval C env x h = o at e
    obtain ⟨r, k⟩ := o
    cases r with
    | error => cases e
    | ok a =>
      replace e : andThen (evals C env es k) (fun vs h => Src.ok (a :: vs) h) = (.ok vs, h') := e
      cases e2 : evals C env es k with
      | mk r k' =>
        rw [e2] at e
        cases r with
        | error => cases e
        | ok bs =>
          cases e
          rw [List.length_cons, List.length_cons, ih e2]

mutual

theorem eval_clean (c : Fits R bad C) {ds : List String} : (e : Expr) → okE R ds e = true → ∀ {env}, Has ds env → ∀ h,
    Clean bad (eval C env e h)
  | .none, _, _, _, _ => .ok _ _
  | .bool _, _, _, _, _ => .ok _ _
  | .int _, _, _, _, _ => .ok _ _
  | .str _, _, _, _, _ => .ok _ _
  | .bytes _, _, _, _, _ => .ok _ _
  | .name x, r, env, a, h => by
    unfold eval
    have := a x (has_mem.mp (by simpa only [okE] using r))
    split
    · exact .ok _ _
    · rename_i e
      rw [e] at this
      cases this
  | .glob x, r, env, a, h => by
    unfold eval
    have := c.glob x (by simpa only [okE] using r)
    split
    · exact .ok _ _
    · rename_i e
      rw [e] at this
      cases this
  | .attr e a, r, env, i, h => by
    simp only [okE, Bool.and_eq_true] at r
    unfold eval
    exact (eval_clean c e r.1 i h).andThen fun v h => getAttr_clean c v r.2 h
  | .bin op a b, r, env, i, h => by
    simp only [okE, Bool.and_eq_true] at r
    unfold eval
    exact (eval_clean c a r.1 i h).andThen fun _ h => (eval_clean c b r.2 i h).andThen fun _ _ => c.of (binop_plain _ _ _ _)
  | .cmp op a b, r, env, i, h => by
    simp only [okE, Bool.and_eq_true] at r
    unfold eval
    exact (eval_clean c a r.1 i h).andThen fun _ h => (eval_clean c b r.2 i h).andThen fun _ _ => c.of (cmpop_plain _ _ _ _)
  | .and a b, r, env, i, h => by
    simp only [okE, Bool.and_eq_true] at r
    unfold eval
    refine (eval_clean c a r.1 i h).andThen fun x h => ?_
    split
    · exact eval_clean c b r.2 i h
    · exact .ok _ _
    · exact c.of (.fail rfl _)
  | .or a b, r, env, i, h => by
    simp only [okE, Bool.and_eq_true] at r
    unfold eval
    refine (eval_clean c a r.1 i h).andThen fun x h => ?_
    split
    · exact .ok _ _
    · exact eval_clean c b r.2 i h
    · exact c.of (.fail rfl _)
  | .not a, r, env, i, h => by
    simp only [okE] at r
    unfold eval
    refine (eval_clean c a r i h).andThen fun x h => ?_
    split
    · exact .ok _ _
    · exact c.of (.fail rfl _)
  | .neg a, r, env, i, h => by
    simp only [okE] at r
    unfold eval
    refine (eval_clean c a r i h).andThen fun x h => ?_
    split
    · exact .ok _ _
    · exact c.of (.fail rfl _)
  | .index e j, r, env, i, h => by
    simp only [okE, Bool.and_eq_true] at r
    unfold eval
    exact (eval_clean c e r.1 i h).andThen fun _ h => (eval_clean c j r.2 i h).andThen fun _ _ => c.of (getItem_plain _ _ _)
  | .slice e lo hi, r, env, i, h => by
    simp only [okE, Bool.and_eq_true] at r
    unfold eval
    exact (eval_clean c e r.1.1 i h).andThen fun _ h => (evalOpt_clean c lo r.1.2 i h).andThen fun _ h =>
      (evalOpt_clean c hi r.2 i h).andThen fun _ _ => c.of (getSlice_plain _ _ _ _)
  | .tuple es, r, env, i, h => by
    simp only [okE] at r
    unfold eval
    exact (evals_clean c es r i h).andThen fun _ _ => .ok _ _
  | .list es, r, env, i, h => by
    simp only [okE] at r
    unfold eval
    exact (evals_clean c es r i h).andThen fun _ _ => .ok _ _
  | .comp elt x iter, r, env, i, h => by
    simp only [okE, Bool.and_eq_true] at r
    unfold eval
    refine (eval_clean c iter r.1 i h).andThen fun v h => ?_
    split
    · exact (evalComp_clean (fun w h => eval_clean c elt r.2 (i.set x w) h) _ h).andThen fun _ _ => .ok _ _
    · exact c.of (.fail rfl _)
  | .builtin f args, r, env, i, h => by
    simp only [okE] at r
    unfold eval
    exact (evals_clean c args r i h).andThen fun vs h => applyBuiltin_clean c f vs h
  | .call f args, r, env, i, h => by
    simp only [okE, Bool.and_eq_true] at r
    unfold eval
    exact (evals_clean c args r.1 i h).andThen' fun vs h e => c.call f vs h (by rw [evals_length args e]; exact r.2)
  | .meth e m args, r, env, i, h => by
    simp only [okE, Bool.and_eq_true] at r
    unfold eval
    exact (eval_clean c e r.1.1 i h).andThen fun v h => (evals_clean c args r.1.2 i h).andThen' fun vs h e =>
      callMeth_clean c v vs (by rw [evals_length args e]; exact r.2) h
  | .new cls args, r, env, i, h => by
    simp only [okE, Bool.and_eq_true] at r
    unfold eval
    exact (evals_clean c args r.1 i h).andThen' fun vs h e =>
      instantiate_clean c cls vs (by rw [evals_length args e]; exact r.2) h

theorem evals_clean (c : Fits R bad C) {ds : List String} : (es : List Expr) → okEs R ds es = true →
    ∀ {env}, Has ds env → ∀ h, Clean bad (evals C env es h)
  | [], _, _, _, _ => .ok _ _
  | e :: es, r, env, i, h => by
    simp only [okEs, Bool.and_eq_true] at r
    unfold evals
    exact (eval_clean c e r.1 i h).andThen fun _ h => (evals_clean c es r.2 i h).andThen fun _ _ => .ok _ _

theorem evalOpt_clean (c : Fits R bad C) {ds : List String} : (e : Option Expr) → okO R ds e = true →
    ∀ {env}, Has ds env → ∀ h, Clean bad (evalOpt C env e h)
  | .none, _, _, _, _ => .ok _ _
  | some e, r, env, i, h => by
    simp only [okO] at r
    unfold evalOpt
    refine (eval_clean c e r i h).andThen fun x h => ?_
    split
    · exact .ok _ _
    · exact c.of (.fail rfl _)

end

/-- An outcome of a statement: no bad exception, and after a normal end the variables have values. -/
def Fine (bad : Exc → Prop) (r : Option (List String)) (o : Out Flow) : Prop :=
  match o.1 with
  | .error e => ¬ bad e
  | .ok (.ret _) => True
  | .ok (.next env) => ∃ ds, r = some ds ∧ Has ds env

theorem Fine.next {ds : List String} {env : Env} (a : Has ds env) (h : Heap) : Fine bad (some ds) (ok (.next env) h) :=
  ⟨ds, rfl, a⟩

theorem Clean.fine {α : Type} {o : Out α} {f : α → Heap → Out Flow} {r : Option (List String)} (p : Clean bad o)
    (q : ∀ a h, Fine bad r (f a h)) : Fine bad r (Src.andThen o f) := by
  obtain ⟨x, h⟩ := o
  cases x with
  | ok a => exact q a h
  | error e => exact p e rfl

theorem Clean.fine' {α : Type} {o : Out α} {f : α → Heap → Out Flow} {r : Option (List String)} (p : Clean bad o)
    (q : ∀ a h, o = (.ok a, h) → Fine bad r (f a h)) : Fine bad r (Src.andThen o f) := by
  obtain ⟨x, h⟩ := o
  cases x with
  | ok a => exact q a h rfl
  | error e => exact p e rfl

theorem Fits.fail (c : Fits R bad C) {e : Exc} (p : Src.plain e = true) (r : Option (List String)) (h : Heap) :
    Fine bad r (Src.fail e h) := c.plain e p

theorem Fine.thenRun {r r' : Option (List String)} {o : Out Flow} {f : Env → Heap → Out Flow} (p : Fine bad r o)
    (q : ∀ ds env h, r = some ds → Has ds env → Fine bad r' (f env h)) : Fine bad r' (thenRun o f) := by
  obtain ⟨x, h⟩ := o
  cases x with
  | error e => exact p
  | ok fl =>
    cases fl with
    | ret v => trivial
    | next env =>
      obtain ⟨ds, e, a⟩ := p
      exact q ds env h e a

theorem setNames_has (xs : List String) : ∀ {vs : List Val} {env env' : Env} {ds : List String},
    Has ds env → setNames xs vs env = some env' → Has (xs.reverse ++ ds) env' := by
  induction xs with
  | nil =>
    intro vs env env' ds a e
    cases vs with
    | nil => cases e; exact a
    | cons => cases e
  | cons x xs ih =>
    intro vs env env' ds a e
    cases vs with
    | nil => cases e
    | cons v vs =>
      rw [List.reverse_cons, List.append_assoc]
      exact ih (a.set x v) e

theorem assignAttrs_fine (c : Fits R bad C) {ds : List String} {env : Env} (a : Has ds env) (xs : List (Expr × String))
    (r : xs.all (fun p => okE R ds p.1) = true) :
    ∀ vs h, Fine bad (some ds) (assign.assignAttrs C env xs vs h) := by
  induction xs with
  | nil => intro vs h; cases vs with
    | nil => exact .next a h
    | cons => exact c.fail rfl _ _
  | cons x xs ih =>
    intro vs h
    simp only [List.all_cons, Bool.and_eq_true] at r
    cases vs with
    | nil => exact c.fail rfl _ _
    | cons v vs =>
      unfold assign.assignAttrs
      exact (eval_clean c x.1 r.1 a h).fine fun _ _ => (c.of (setAttr_plain _ _ _ _)).fine fun _ h => ih r.2 vs h

theorem assign_fine (c : Fits R bad C) {ds : List String} {env : Env} (a : Has ds env) (t : Target)
    (r : okT R ds t = true) (v : Val) (h : Heap) : Fine bad (some (addT ds t)) (assign C env t v h) := by
  cases t with
  | name x =>
    refine .next ?_ h
    simp only [addT]
    split
    · exact (a.set x v).mono fun y hy => List.mem_cons_of_mem _ hy
    · exact a.set x v
  | attr e b =>
    simp only [okT] at r
    unfold assign
    exact (eval_clean c e r a h).fine fun _ _ => (c.of (setAttr_plain _ _ _ _)).fine fun _ h => .next a h
  | index e i =>
    simp only [okT, Bool.and_eq_true] at r
    unfold assign
    exact (eval_clean c e r.1 a h).fine fun _ h => (eval_clean c i r.2 a h).fine fun _ _ =>
      (c.of (setItem_plain _ _ _ _)).fine fun _ h => .next a h
  | slice e lo hi =>
    simp only [okT, Bool.and_eq_true] at r
    unfold assign
    exact (eval_clean c e r.1.1 a h).fine fun _ h => (evalOpt_clean c lo r.1.2 a h).fine fun _ h =>
      (evalOpt_clean c hi r.2 a h).fine fun _ _ => (c.of (setSlice_plain _ _ _ _ _)).fine fun _ h => .next a h
  | names xs =>
    cases e : elems v h with
    | none => simp only [assign, e]; exact c.fail rfl _ _
    | some vs =>
      simp only [assign, e]
      split
      · rename_i env' e'
        exact .next (setNames_has xs a e') h
      · exact c.fail rfl _ _
  | attrs xs =>
    cases e : elems v h with
    | none => simp only [assign, e]; exact c.fail rfl _ _
    | some vs => simp only [assign, e]; exact assignAttrs_fine c a xs r vs h

theorem addT_mono (ds : List String) (t : Target) : ∀ x ∈ ds, x ∈ addT ds t := by
  intro x hx
  cases t with
  | name y =>
    simp only [addT]
    split
    · exact hx
    · exact List.mem_cons_of_mem _ hx
  | names xs => exact List.mem_append_right _ hx
  | _ => exact hx

/-- What held a value before still does. -/
def Up (ds : List String) (r : Option (List String)) : Prop := ∀ es, r = some es → ∀ x ∈ ds, x ∈ es

theorem meet_up {ds : List String} {r s : Option (List String)} (a : Up ds r) (b : Up ds s) : Up ds (meet r s) := by
  cases r with
  | none => cases s <;> exact b
  | some r =>
    cases s with
    | none => exact a
    | some s =>
      intro es e x hx
      cases e
      exact List.mem_filter.mpr ⟨a _ rfl x hx, has_mem.mpr (b _ rfl x hx)⟩

theorem Fine.meet_left {r s : Option (List String)} {o : Out Flow} (p : Fine bad r o) : Fine bad (meet r s) o := by
  obtain ⟨x, h⟩ := o
  cases x with
  | error e => exact p
  | ok fl =>
    cases fl with
    | ret v => trivial
    | next env =>
      obtain ⟨ds, rfl, a⟩ := p
      cases s with
      | none => exact ⟨ds, rfl, a⟩
      | some s => exact ⟨_, rfl, a.mono fun y hy => (List.mem_filter.mp hy).1⟩

theorem Fine.meet_right {r s : Option (List String)} {o : Out Flow} (p : Fine bad s o) : Fine bad (meet r s) o := by
  obtain ⟨x, h⟩ := o
  cases x with
  | error e => exact p
  | ok fl =>
    cases fl with
    | ret v => trivial
    | next env =>
      obtain ⟨ds, rfl, a⟩ := p
      cases r with
      | none => exact ⟨ds, rfl, a⟩
      | some r => exact ⟨_, rfl, a.mono fun y hy => has_mem.mp (List.mem_filter.mp hy).2⟩

theorem forLoop_fine {x : String} {ds : List String} {r : Option (List String)} (u : Up (x :: ds) r)
    {f : Env → Heap → Out Flow} (n : ∀ env h, Has (x :: ds) env → Fine bad r (f env h)) (l : List Val) :
    ∀ env h, Has ds env → Fine bad (some ds) (forLoop x f l env h) := by
  induction l with
  | nil => exact fun _ _ a => .next a _
  | cons v l ih =>
    intro env h a
    unfold forLoop
    exact (n _ h (a.set x v)).thenRun fun es env h e b => ih env h
      (b.mono fun y hy => u es e y (List.mem_cons_of_mem _ hy))

/-- The same with at least one turn. -/
theorem forLoop_turns {x : String} {ds : List String} {r : Option (List String)} (u : Up (x :: ds) r)
    {f : Env → Heap → Out Flow} (n : ∀ env h, Has (x :: ds) env → Fine bad r (f env h)) (l : List Val) (hl : l ≠ []) :
    ∀ env h, Has ds env → Fine bad r (forLoop x f l env h) := by
  induction l with
  | nil => exact absurd rfl hl
  | cons v l ih =>
    intro env h a
    unfold forLoop
    refine (n _ h (a.set x v)).thenRun fun es env h e b => ?_
    cases l with
    | nil => exact ⟨es, e, b⟩
    | cons w l => exact ih (by simp) env h (b.mono fun y hy => u es e y (List.mem_cons_of_mem _ hy))

theorem turns_elems {iter : Expr} (t : turns iter = true) {env : Env} {h h' : Heap} {v : Val} {l : List Val}
    (e : eval C env iter h = (.ok v, h')) (e' : elems v h' = some l) : l ≠ [] := by
  unfold turns at t
  split at t
  · rename_i f k
    simp only [Bool.and_eq_true, decide_eq_true_eq] at t
    obtain ⟨t1, t2⟩ := t
    rw [same_iff.mp t1] at e
    cases e
    replace e' : pyRange 0 k 1 = l := Option.some.inj e'
    rw [← e']
    intro e2
    have := congrArg List.length e2
    simp only [pyRange, List.length_map, List.length_range, List.length_nil] at this
    have h1 : (if (0 : Int) < 1 then (k - 0 + 1 - 1).fdiv 1 else (0 - k - 1 - 1).fdiv (-1)) = k := by
      rw [if_pos (by decide)]
      simp
    rw [h1] at this
    omega
  · cases t

theorem whileLoop_fine (c : Fits R bad C) {ds : List String} {r : Option (List String)} (u : Up ds r)
    {cf : Env → Heap → Out Val} {f : Env → Heap → Out Flow} (nc : ∀ env h, Has ds env → Clean bad (cf env h))
    (n : ∀ env h, Has ds env → Fine bad r (f env h)) (L : Nat) :
    ∀ env h, Has ds env → Fine bad (some ds) (whileLoop cf f L env h) := by
  induction L with
  | zero => exact fun _ _ _ => c.fail rfl _ _
  | succ L ih =>
    intro env h a
    unfold whileLoop
    refine (nc env h a).fine fun v h => ?_
    split
    · exact (n env h a).thenRun fun es env h e b => ih env h (b.mono fun y hy => u es e y hy)
    · exact .next a h
    · exact c.fail rfl _ _

mutual

theorem exec_fine (c : Fits R bad C) : (s : Stmt) → ∀ {ds r}, okS R ds s = some r →
    Up ds r ∧ ∀ {env}, Has ds env → ∀ h, Fine bad r (exec C s env h)
  | .pass, ds, r, k => by
    simp only [okS, Option.some.injEq] at k
    subst k
    exact ⟨fun es e x hx => by cases e; exact hx, fun a h => .next a h⟩
  | .assign t e, ds, r, k => by
    simp only [okS] at k
    split at k
    · rename_i k'
      simp only [Bool.and_eq_true] at k'
      cases k
      refine ⟨fun es e x hx => by cases e; exact addT_mono ds t x hx, fun a h => ?_⟩
      unfold exec
      exact (eval_clean c e k'.1 a h).fine fun v h => assign_fine c a t k'.2 v h
    · cases k
  | .expr e, ds, r, k => by
    simp only [okS] at k
    split at k
    · rename_i k'
      cases k
      refine ⟨fun es e x hx => by cases e; exact hx, fun a h => ?_⟩
      unfold exec
      exact (eval_clean c e k' a h).fine fun v h => .next a h
    · cases k
  | .ret e, ds, r, k => by
    simp only [okS] at k
    split at k
    · rename_i k'
      cases k
      refine ⟨fun es e x hx => (by cases e), fun a h => ?_⟩
      unfold exec
      exact (eval_clean c e k' a h).fine fun v h => trivial
    · cases k
  | .if_ b t e, ds, r, k => by
    simp only [okS] at k
    split at k
    · rename_i k'
      split at k
      · rename_i r1 r2 k1 k2
        cases k
        obtain ⟨u1, f1⟩ := execs_fine c t k1
        obtain ⟨u2, f2⟩ := execs_fine c e k2
        refine ⟨meet_up u1 u2, fun a h => ?_⟩
        unfold exec
        refine (eval_clean c b k' a h).fine fun v h => ?_
        split
        · exact (f1 a h).meet_left
        · exact (f2 a h).meet_right
        · exact c.fail rfl _ _
      · cases k
    · cases k
  | .for_ x iter body, ds, r, k => by
    simp only [okS] at k
    split at k
    · rename_i k'
      split at k
      · rename_i r' k2
        cases k
        obtain ⟨u, f⟩ := execs_fine c body k2
        constructor
        · split
          · exact fun es e y hy => u es e y (List.mem_cons_of_mem _ hy)
          · exact fun es e y hy => by cases e; exact hy
        · intro env a h
          unfold exec
          refine (eval_clean c iter k' a h).fine' fun v h e => ?_
          split
          · rename_i t
            split
            · rename_i l e'
              exact forLoop_turns u (fun env h b => f b h) _ (turns_elems t e e') _ h a
            · exact c.fail rfl _ _
          · split
            · exact forLoop_fine u (fun env h b => f b h) _ _ h a
            · exact c.fail rfl _ _
      · cases k
    · cases k
  | .while_ b body, ds, r, k => by
    simp only [okS] at k
    split at k
    · rename_i k'
      simp only [Bool.and_eq_true] at k'
      cases k
      refine ⟨fun es e x hx => by cases e; exact hx, fun a h => ?_⟩
      obtain ⟨r', k2⟩ := Option.isSome_iff_exists.mp k'.2
      obtain ⟨u, f⟩ := execs_fine c body k2
      unfold exec
      exact whileLoop_fine c u (fun env h i => eval_clean c b k'.1 i h) (fun env h i => f i h) _ _ h a
    · cases k
  | .raise cls msg, ds, r, k => by
    simp only [okS] at k
    split at k
    · rename_i k'
      cases k
      refine ⟨fun es e x hx => (by cases e), fun a h => ?_⟩
      unfold exec
      exact c.raises cls msg k'
    · cases k
  | .tryValueError body handler, ds, r, k => by
    simp only [okS] at k
    split at k
    · rename_i r1 r2 k1 k2
      cases k
      obtain ⟨u1, f1⟩ := execs_fine c body k1
      obtain ⟨u2, f2⟩ := execs_fine c handler k2
      refine ⟨meet_up u1 u2, fun {env} a h => ?_⟩
      unfold exec
      have q := f1 a h
      generalize execs C body env h = o at q
      obtain ⟨o, g⟩ := o
      cases o with
      | ok x => exact q.meet_left
      | error e =>
        cases e <;> first | exact (f2 a g).meet_right | exact q.meet_left
    · cases k

theorem execs_fine (c : Fits R bad C) : (ss : List Stmt) → ∀ {ds r}, okSs R ds ss = some r →
    Up ds r ∧ ∀ {env}, Has ds env → ∀ h, Fine bad r (execs C ss env h)
  | [], ds, r, k => by
    simp only [okSs, Option.some.injEq] at k
    subst k
    exact ⟨fun es e x hx => by cases e; exact hx, fun a h => .next a h⟩
  | s :: ss, ds, r, k => by
    simp only [okSs] at k
    split at k
    · rename_i es k1
      obtain ⟨u1, f1⟩ := exec_fine c s k1
      obtain ⟨u2, f2⟩ := execs_fine c ss k
      refine ⟨fun es e x hx => u2 _ e x (u1 _ rfl x hx), fun a h => ?_⟩
      unfold execs
      exact (f1 a h).thenRun fun es env h e b => by cases e; exact f2 b h
    · rename_i k1
      cases k
      obtain ⟨u1, f1⟩ := exec_fine c s k1
      refine ⟨u1, fun a h => ?_⟩
      unfold execs
      exact (f1 a h).thenRun fun es env h e b => by cases e
    · cases k

end

theorem run_clean (c : Fits R bad C) {d : FunDef} (k : okF R d = true) (args : List Val)
    (t : bad .type → accepts d args.length = true) (h : Heap) : Clean bad (run C d args h) := by
  simp only [okF, Bool.and_eq_true] at k
  have sub : ∀ n, okEs R [] (d.defaults.drop n) = true := by
    intro n
    have := k.1
    revert this
    generalize d.defaults = es
    intro k
    induction n generalizing es with
    | zero => exact k
    | succ n ih =>
      cases es with
      | nil => rfl
      | cons e es =>
        simp only [okEs, Bool.and_eq_true] at k
        exact ih es k.2
  have hb : Clean bad (bindParams C d args h) ∧ ∀ vs h', bindParams C d args h = (.ok vs, h') →
      bad .type → vs.length = d.params.length := by
    unfold bindParams
    split
    · rename_i e
      refine ⟨.ok _ _, fun vs h' e' _ => ?_⟩
      cases e'
      exact e
    · simp only
      split
      · rename_i e1 e2
        refine ⟨(evals_clean c _ (sub _) (fun _ hx => by cases hx) h).andThen fun _ _ => .ok _ _, fun vs h' e' _ => ?_⟩
        generalize hd : d.defaults.drop (d.defaults.length - (d.params.length - args.length)) = es at e'
        cases e3 : evals C .empty es h with
        | mk r k' =>
          rw [e3] at e'
          cases r with
          | error => cases e'
          | ok bs =>
            cases e'
            rw [List.length_append, evals_length es e3, ← hd, List.length_drop]
            omega
      · rename_i e1 e2
        refine ⟨fun e he hbad => ?_, fun vs h' e' => by cases e'⟩
        cases he
        have := t hbad
        simp only [accepts, Bool.or_eq_true, Bool.and_eq_true, beq_iff_eq, decide_eq_true_eq] at this
        exact this.elim e1 e2
  unfold run
  refine hb.1.andThen' fun vs h' e => ?_
  split
  · rename_i env e'
    obtain ⟨r, kr⟩ := Option.isSome_iff_exists.mp k.2
    have i : Has d.params env := by
      have := setNames_has d.params (ds := []) (env := .empty) (fun _ hx => by cases hx) e'
      exact this.mono fun x hx => List.mem_append_left _ (List.mem_reverse.mpr hx)
    have q := (execs_fine c d.body kr).2 i h'
    generalize execs C d.body env h' = o at q
    obtain ⟨o, g⟩ := o
    cases o with
    | error e => exact fun e2 h2 => by cases h2; exact q
    | ok fl => cases fl <;> exact .ok _ _
  · rename_i e'
    intro e2 he hbad
    cases he
    have hl := hb.2 vs h' e hbad
    clear e hb t
    revert e'
    generalize (Env.empty) = env
    generalize d.params = xs at hl
    induction xs generalizing vs env with
    | nil => cases vs with
      | nil => intro e'; cases e'
      | cons => cases hl
    | cons x xs ih => cases vs with
      | nil => cases hl
      | cons v vs => exact fun e' => ih vs _ (by simpa using hl) e'

end

/-- A program whose functions pass the check. -/
theorem call_clean (P : Program) (R : Rules) (bad : Exc → Prop)
    (hp : ∀ e, plain e = true → ¬ bad e)
    (hr : ∀ cls msg, R.raises cls msg = true → ¬ bad (.raised cls msg))
    (hg : ∀ x, R.glob x = true → (P.globals x).isSome = true)
    (hc : ∀ f k, R.can f k = true → ∃ d, P.fn f = some d ∧ okF R d = true ∧ (bad .type → accepts d k = true))
    (hm : ∀ m k, R.meth m k = true → ∀ c f st, P.method c m = some (f, st) →
      R.can f (if st then k else k + 1) = true)
    (ha : ∀ a, R.prop a = true → ∀ c f, P.property c a = some f → R.can f 1 = true)
    (hi : ∀ c k, R.init c k = true → ∀ f st, P.method c "__init__" = some (f, st) → R.can f (k + 1) = true)
    (L n : Nat) : ∀ f args h, R.can f args.length = true → Clean bad (call P L n f args h) := by
  induction n with
  | zero => exact fun _ _ _ _ e he => by cases he; exact hp _ rfl
  | succ n ih =>
    intro f args h k
    obtain ⟨d, e, k1, k2⟩ := hc f _ k
    unfold call
    rw [e]
    exact run_clean ⟨hp, hr, hg, fun f vs h k => ih f vs h k, hm, ha, hi,
      fun v h e he => hp e (copyVal_plain 10 v h e he)⟩ k1 args k2 h

end Gost.Src
