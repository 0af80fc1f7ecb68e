import Verif.Source.Semantics

/-! The semantics of `Verif.Source.Semantics` with a record of the path which is taken: the statements in the order in
which they are executed, the truth values on which `if`, `while`, `and` and `or` decide, the turns of loops and the
functions which are entered. Without the record it is the same semantics (`call_path`). -/

namespace Gost.Src

/-- A step of a path. -/
inductive Event where
  /-- A statement is executed. -/
  | stmt (s : Stmt)
  /-- A decision between two continuations. -/
  | test (b : Bool)
  /-- A turn of a loop or of a comprehension. -/
  | turn
  /-- A function of the package is entered. -/
  | enter (f : String)
  /-- A built-in function or method is applied. -/
  | use (f : String)

/-- An outcome with the path which led to it. -/
abbrev Path (α : Type) := Out α × List Event

/-- Continue if there was no exception. -/
def pThen {α β : Type} (o : Path α) (f : α → Heap → Path β) : Path β :=
  match o with
  | ((.ok a, h), l) => ((f a h).1, l ++ (f a h).2)
  | ((.error e, h), l) => ((.error e, h), l)

/-- An outcome without steps. -/
def quiet {α : Type} (o : Out α) : Path α := (o, [])

/-- A step, then the rest. -/
def note {α : Type} (e : Event) (o : Path α) : Path α := (o.1, e :: o.2)

/-- The surroundings of a function, as `Ctx`. -/
structure PCtx where
  call : String → List Val → Heap → Path Val
  loops : Nat
  globals : String → Option Val
  method : String → String → Option (String × Bool)
  property : String → String → Option String
  copy : Val → Heap → Out Val

/-- The same surroundings without the record. -/
def PCtx.plain (C : PCtx) : Ctx where
  call f args h := (C.call f args h).1
  loops := C.loops
  globals := C.globals
  method := C.method
  property := C.property
  copy := C.copy

/-- `v.a`. -/
def getAttrP (C : PCtx) (v : Val) (a : String) (h : Heap) : Path Val :=
  match v with
  | .ref r =>
    match h[r]? with
    | some (.inst c l) =>
      match C.property c a with
      | some f => C.call f [v] h
      | none =>
        match findAttr a l with
        | some x => quiet (ok x h)
        | none => quiet (fail .attribute h)
    | _ => quiet (fail .stuck h)
  | _ => quiet (fail .stuck h)

/-- `v.m(args)`. -/
def callMethP (C : PCtx) (v : Val) (m : String) (args : List Val) (h : Heap) : Path Val :=
  match v with
  | .ref r =>
    match h[r]? with
    | some (.inst c _) =>
      match C.method c m with
      | some (f, static) => C.call f (if static then args else v :: args) h
      | none => quiet (fail .attribute h)
    | _ => note (.use m) (quiet (builtinMeth v m args h))
  | v => note (.use m) (quiet (builtinMeth v m args h))

/-- An object of a class. -/
def instantiateP (C : PCtx) (cls : String) (args : List Val) (h : Heap) : Path Val :=
  match C.method cls "__init__" with
  | some (f, _) =>
    pThen (C.call f (.ref h.length :: args) (h ++ [.inst cls []])) fun _ h' => quiet (ok (.ref h.length) h')
  | none => quiet (fail .stuck h)

/-- A built-in function, `deepcopy` included. -/
def applyBuiltinP (C : PCtx) (f : String) (args : List Val) (h : Heap) : Path Val :=
  note (.use f) (quiet (match f, args with
  | "deepcopy", [v] => C.copy v h
  | f, args => builtin f args h))

/-- The elements of a comprehension. -/
def evalCompP (f : Val → Heap → Path Val) : List Val → Heap → Path (List Val)
  | [], h => quiet (ok [] h)
  | v :: vs, h => note .turn (pThen (f v h) fun w h => pThen (evalCompP f vs h) fun ws h => quiet (ok (w :: ws) h))

mutual

def evalP (C : PCtx) (env : Env) : Expr → Heap → Path Val
  | .none, h => quiet (ok .none h)
  | .bool b, h => quiet (ok (.bool b) h)
  | .int i, h => quiet (ok (.int i) h)
  | .str s, h => quiet (ok (.str s) h)
  | .bytes b, h => quiet (ok (.bytes b) h)
  | .name x, h => quiet
    (match env x with
    | some v => ok v h
    | none => fail .name h)
  | .glob x, h => quiet
    (match C.globals x with
    | some v => ok v h
    | none => fail .name h)
  | .attr e a, h => pThen (evalP C env e h) fun v h => getAttrP C v a h
  | .bin op a b, h =>
    pThen (evalP C env a h) fun x h => pThen (evalP C env b h) fun y h => quiet (binop op x y h)
  | .cmp op a b, h =>
    pThen (evalP C env a h) fun x h => pThen (evalP C env b h) fun y h => quiet (cmpop op x y h)
  | .and a b, h =>
    pThen (evalP C env a h) fun x h =>
      match truth x with
      | some true => note (.test true) (evalP C env b h)
      | some false => note (.test false) (quiet (ok x h))
      | none => quiet (fail .stuck h)
  | .or a b, h =>
    pThen (evalP C env a h) fun x h =>
      match truth x with
      | some true => note (.test true) (quiet (ok x h))
      | some false => note (.test false) (evalP C env b h)
      | none => quiet (fail .stuck h)
  | .not a, h =>
    pThen (evalP C env a h) fun x h => quiet
      (match truth x with
      | some b => ok (.bool (!b)) h
      | none => fail .stuck h)
  | .neg a, h =>
    pThen (evalP C env a h) fun x h => quiet
      (match x with
      | .int i => ok (.int (-i)) h
      | _ => fail .stuck h)
  | .index e i, h =>
    pThen (evalP C env e h) fun v h => pThen (evalP C env i h) fun j h => quiet (getItem v j h)
  | .slice e lo hi, h =>
    pThen (evalP C env e h) fun v h =>
      pThen (evalOptP C env lo h) fun lo h => pThen (evalOptP C env hi h) fun hi h =>
        quiet (getSlice v lo hi h)
  | .tuple es, h => pThen (evalsP C env es h) fun vs h => quiet (ok (.tuple vs) h)
  | .list es, h => pThen (evalsP C env es h) fun vs h => quiet (alloc (.list vs) h)
  | .comp elt x iter, h =>
    pThen (evalP C env iter h) fun v h =>
      match elems v h with
      | some l => pThen (evalCompP (fun w h => evalP C (env.set x w) elt h) l h) fun vs h =>
          quiet (alloc (.list vs) h)
      | none => quiet (fail .stuck h)
  | .builtin f args, h => pThen (evalsP C env args h) fun vs h => applyBuiltinP C f vs h
  | .call f args, h => pThen (evalsP C env args h) fun vs h => C.call f vs h
  | .meth e m args, h =>
    pThen (evalP C env e h) fun v h => pThen (evalsP C env args h) fun vs h => callMethP C v m vs h
  | .new cls args, h => pThen (evalsP C env args h) fun vs h => instantiateP C cls vs h

def evalsP (C : PCtx) (env : Env) : List Expr → Heap → Path (List Val)
  | [], h => quiet (ok [] h)
  | e :: es, h =>
    pThen (evalP C env e h) fun v h => pThen (evalsP C env es h) fun vs h => quiet (ok (v :: vs) h)

def evalOptP (C : PCtx) (env : Env) : Option Expr → Heap → Path (Option Int)
  | .none, h => quiet (ok none h)
  | some e, h =>
    pThen (evalP C env e h) fun v h => quiet
      (match v with
      | .int i => ok (some i) h
      | _ => fail .stuck h)

end

/-- Continue after a statement which did not return. -/
def pRun (o : Path Flow) (f : Env → Heap → Path Flow) : Path Flow :=
  match o with
  | ((.ok (.next env), h), l) => ((f env h).1, l ++ (f env h).2)
  | ((.ok (.ret v), h), l) => ((.ok (.ret v), h), l)
  | ((.error e, h), l) => ((.error e, h), l)

/-- `e_1.a_1, ..., e_n.a_n = v`. -/
def assignAttrsP (C : PCtx) (env : Env) : List (Expr × String) → List Val → Heap → Path Flow
  | [], [], h => quiet (ok (.next env) h)
  | (e, a) :: xs, v :: vs, h =>
    pThen (evalP C env e h) fun o h => pThen (quiet (setAttr o a v h)) fun _ h => assignAttrsP C env xs vs h
  | _, _, h => quiet (fail .value h)

/-- Assignment. -/
def assignP (C : PCtx) (env : Env) (t : Target) (v : Val) (h : Heap) : Path Flow :=
  match t with
  | .name x => quiet (ok (.next (env.set x v)) h)
  | .attr e a =>
    pThen (evalP C env e h) fun o h => pThen (quiet (setAttr o a v h)) fun _ h => quiet (ok (.next env) h)
  | .index e i =>
    pThen (evalP C env e h) fun o h => pThen (evalP C env i h) fun j h =>
      pThen (quiet (setItem o j v h)) fun _ h => quiet (ok (.next env) h)
  | .slice e lo hi =>
    pThen (evalP C env e h) fun o h =>
      pThen (evalOptP C env lo h) fun lo h => pThen (evalOptP C env hi h) fun hi h =>
        pThen (quiet (setSlice o lo hi v h)) fun _ h => quiet (ok (.next env) h)
  | .names xs =>
    match elems v h with
    | some vs =>
      match setNames xs vs env with
      | some env => quiet (ok (.next env) h)
      | none => quiet (fail .value h)
    | none => quiet (fail .stuck h)
  | .attrs xs =>
    match elems v h with
    | some vs => assignAttrsP C env xs vs h
    | none => quiet (fail .stuck h)

/-- A loop over given elements. -/
def forLoopP (x : String) (body : Env → Heap → Path Flow) : List Val → Env → Heap → Path Flow
  | [], env, h => quiet (ok (.next env) h)
  | v :: vs, env, h => note .turn (pRun (body (env.set x v) h) fun env h => forLoopP x body vs env h)

/-- A loop with at most `n` turns. -/
def whileLoopP (cond : Env → Heap → Path Val) (body : Env → Heap → Path Flow) :
    Nat → Env → Heap → Path Flow
  | 0, _, h => quiet (fail .fuel h)
  | n + 1, env, h =>
    pThen (cond env h) fun v h =>
      match truth v with
      | some true => note (.test true) (pRun (body env h) fun env h => whileLoopP cond body n env h)
      | some false => note (.test false) (quiet (ok (.next env) h))
      | none => quiet (fail .stuck h)

mutual

def execP (C : PCtx) (s : Stmt) (env : Env) (h : Heap) : Path Flow :=
  note (.stmt s) (match s with
  | .pass => quiet (ok (.next env) h)
  | .assign t e => pThen (evalP C env e h) fun v h => assignP C env t v h
  | .expr e => pThen (evalP C env e h) fun _ h => quiet (ok (.next env) h)
  | .ret e => pThen (evalP C env e h) fun v h => quiet (ok (.ret v) h)
  | .if_ c t e =>
    pThen (evalP C env c h) fun v h =>
      match truth v with
      | some true => note (.test true) (execsP C t env h)
      | some false => note (.test false) (execsP C e env h)
      | none => quiet (fail .stuck h)
  | .for_ x iter body =>
    pThen (evalP C env iter h) fun v h =>
      match elems v h with
      | some l => forLoopP x (fun env h => execsP C body env h) l env h
      | none => quiet (fail .stuck h)
  | .while_ c body =>
    whileLoopP (fun env h => evalP C env c h) (fun env h => execsP C body env h) C.loops env h
  | .raise cls msg => quiet (fail (.raised cls msg) h)
  | .tryValueError body handler =>
    match execsP C body env h with
    | ((.error .value, h), l) => ((execsP C handler env h).1, l ++ (execsP C handler env h).2)
    | o => o)

def execsP (C : PCtx) : List Stmt → Env → Heap → Path Flow
  | [], env, h => quiet (ok (.next env) h)
  | s :: ss, env, h => pRun (execP C s env h) fun env h => execsP C ss env h

end

/-- The parameters of a call. -/
def bindParamsP (C : PCtx) (d : FunDef) (args : List Val) (h : Heap) : Path (List Val) :=
  if args.length = d.params.length then quiet (ok args h)
  else
    if args.length < d.params.length ∧ d.params.length - args.length ≤ d.defaults.length then
      pThen (evalsP C .empty (d.defaults.drop (d.defaults.length - (d.params.length - args.length))) h) fun vs h =>
        quiet (ok (args ++ vs) h)
    else quiet (fail .type h)

/-- A call of a function. -/
def runP (C : PCtx) (d : FunDef) (args : List Val) (h : Heap) : Path Val :=
  pThen (bindParamsP C d args h) fun vs h =>
    match setNames d.params vs .empty with
    | some env =>
      pThen (execsP C d.body env h) fun r h => quiet
        (match r with
        | .ret v => ok v h
        | .next _ => ok .none h)
    | none => quiet (fail .type h)

/-- A function of the program by its name, with the path which it takes. -/
def path (P : Program) (L : Nat) : Nat → String → List Val → Heap → Path Val
  | 0, _, _, h => quiet (fail .fuel h)
  | n + 1, f, args, h =>
    note (.enter f) (match P.fn f with
    | some d =>
      runP { call := path P L n, loops := L, globals := P.globals, method := P.method,
             property := P.property, copy := copyVal 10 } d args h
    | none => quiet (fail .name h))

/-! ### Without the record -/

theorem pThen_fst {α β : Type} (o : Path α) (f : α → Heap → Path β) :
    (pThen o f).1 = andThen o.1 fun a h => (f a h).1 := by
  obtain ⟨⟨r, h⟩, l⟩ := o
  cases r <;> rfl

theorem pRun_fst (o : Path Flow) (f : Env → Heap → Path Flow) :
    (pRun o f).1 = thenRun o.1 fun a h => (f a h).1 := by
  obtain ⟨⟨r, h⟩, l⟩ := o
  cases r with
  | error e => rfl
  | ok r => cases r <;> rfl

theorem quiet_fst {α : Type} (o : Out α) : (quiet o).1 = o := rfl

theorem note_fst {α : Type} (e : Event) (o : Path α) : (note e o).1 = o.1 := rfl

theorem getAttrP_fst (C : PCtx) (v : Val) (a : String) (h : Heap) : (getAttrP C v a h).1 = getAttr C.plain v a h := by
  unfold getAttrP getAttr
  cases v <;> try rfl
  rename_i r
  simp only [PCtx.plain]
  generalize h[r]? = o
  rcases o with _ | o
  · rfl
  · cases o <;> try rfl
    rename_i c l
    simp only []
    cases C.property c a <;> simp only []
    cases findAttr a l <;> rfl

theorem callMethP_fst (C : PCtx) (v : Val) (m : String) (args : List Val) (h : Heap) :
    (callMethP C v m args h).1 = callMeth C.plain v m args h := by
  unfold callMethP callMeth
  cases v <;> try rfl
  rename_i r
  simp only [PCtx.plain]
  generalize h[r]? = o
  rcases o with _ | o
  · rfl
  · cases o <;> try rfl
    rename_i c l
    simp only []
    cases C.method c m <;> rfl

theorem instantiateP_fst (C : PCtx) (cls : String) (args : List Val) (h : Heap) :
    (instantiateP C cls args h).1 = instantiate C.plain cls args h := by
  unfold instantiateP instantiate
  simp only [PCtx.plain]
  cases C.method cls "__init__" with
  | none => rfl
  | some p => simp only [pThen_fst, quiet_fst]

theorem applyBuiltinP_fst (C : PCtx) (f : String) (args : List Val) (h : Heap) :
    (applyBuiltinP C f args h).1 = applyBuiltin C.plain f args h := rfl

theorem evalCompP_fst {f : Val → Heap → Path Val} {g : Val → Heap → Out Val} (e : ∀ v h, (f v h).1 = g v h)
    (l : List Val) : ∀ h, (evalCompP f l h).1 = evalComp g l h := by
  induction l with
  | nil => exact fun h => rfl
  | cons v l ih =>
    intro h
    simp only [evalCompP, evalComp, note_fst, pThen_fst, quiet_fst, e, ih]

mutual

theorem evalP_fst (C : PCtx) (env : Env) : (e : Expr) → ∀ h, (evalP C env e h).1 = eval C.plain env e h
  | .none => fun h => rfl
  | .bool b => fun h => rfl
  | .int i => fun h => rfl
  | .str s => fun h => rfl
  | .bytes b => fun h => rfl
  | .name x => fun h => rfl
  | .glob x => fun h => rfl
  | .attr e a => fun h => by
    simp only [evalP, eval, pThen_fst, evalP_fst C env e, getAttrP_fst]
  | .bin op a b => fun h => by
    simp only [evalP, eval, pThen_fst, quiet_fst, evalP_fst C env a, evalP_fst C env b]
  | .cmp op a b => fun h => by
    simp only [evalP, eval, pThen_fst, quiet_fst, evalP_fst C env a, evalP_fst C env b]
  | .and a b => fun h => by
    simp only [evalP, eval, pThen_fst, evalP_fst C env a]
    congr; funext x h
    generalize truth x = t
    rcases t with _ | _ | _ <;> simp only [note_fst, quiet_fst, evalP_fst C env b]
  | .or a b => fun h => by
    simp only [evalP, eval, pThen_fst, evalP_fst C env a]
    congr; funext x h
    generalize truth x = t
    rcases t with _ | _ | _ <;> simp only [note_fst, quiet_fst, evalP_fst C env b]
  | .not a => fun h => by
    simp only [evalP, eval, pThen_fst, quiet_fst, evalP_fst C env a]
    rfl
  | .neg a => fun h => by
    simp only [evalP, eval, pThen_fst, quiet_fst, evalP_fst C env a]
    rfl
  | .index e i => fun h => by
    simp only [evalP, eval, pThen_fst, quiet_fst, evalP_fst C env e, evalP_fst C env i]
  | .slice e lo hi => fun h => by
    simp only [evalP, eval, pThen_fst, quiet_fst, evalP_fst C env e, evalOptP_fst C env lo, evalOptP_fst C env hi]
  | .tuple es => fun h => by
    simp only [evalP, eval, pThen_fst, quiet_fst, evalsP_fst C env es]
  | .list es => fun h => by
    simp only [evalP, eval, pThen_fst, quiet_fst, evalsP_fst C env es]
  | .comp elt x iter => fun h => by
    simp only [evalP, eval, pThen_fst, evalP_fst C env iter]
    congr; funext v h
    generalize elems v h = o
    rcases o with _ | l
    · rfl
    · simp only [pThen_fst, quiet_fst]
      rw [evalCompP_fst (g := fun w h => eval C.plain (env.set x w) elt h) (fun w h => evalP_fst C (env.set x w) elt h)]
  | .builtin f args => fun h => by
    simp only [evalP, eval, pThen_fst, evalsP_fst C env args, applyBuiltinP_fst]
  | .call f args => fun h => by
    simp only [evalP, eval, pThen_fst, evalsP_fst C env args]
    rfl
  | .meth e m args => fun h => by
    simp only [evalP, eval, pThen_fst, evalP_fst C env e, evalsP_fst C env args, callMethP_fst]
  | .new cls args => fun h => by
    simp only [evalP, eval, pThen_fst, evalsP_fst C env args, instantiateP_fst]

theorem evalsP_fst (C : PCtx) (env : Env) : (es : List Expr) → ∀ h, (evalsP C env es h).1 = evals C.plain env es h
  | [] => fun h => rfl
  | e :: es => fun h => by
    simp only [evalsP, evals, pThen_fst, quiet_fst, evalP_fst C env e, evalsP_fst C env es]

theorem evalOptP_fst (C : PCtx) (env : Env) : (e : Option Expr) → ∀ h,
    (evalOptP C env e h).1 = evalOpt C.plain env e h
  | .none => fun h => rfl
  | some e => fun h => by
    simp only [evalOptP, evalOpt, pThen_fst, quiet_fst, evalP_fst C env e]
    rfl

end

theorem assignAttrsP_fst (C : PCtx) (env : Env) (xs : List (Expr × String)) : ∀ vs h,
    (assignAttrsP C env xs vs h).1 = assign.assignAttrs C.plain env xs vs h := by
  induction xs with
  | nil => intro vs h; cases vs <;> rfl
  | cons p xs ih =>
    intro vs h
    obtain ⟨e, a⟩ := p
    cases vs with
    | nil => rfl
    | cons v vs => simp only [assignAttrsP, assign.assignAttrs, pThen_fst, quiet_fst, evalP_fst, ih]

theorem assignP_fst (C : PCtx) (env : Env) (t : Target) (v : Val) (h : Heap) :
    (assignP C env t v h).1 = assign C.plain env t v h := by
  cases t with
  | name x => rfl
  | attr e a => simp only [assignP, assign, pThen_fst, quiet_fst, evalP_fst]
  | index e i => simp only [assignP, assign, pThen_fst, quiet_fst, evalP_fst]
  | slice e lo hi => simp only [assignP, assign, pThen_fst, quiet_fst, evalP_fst, evalOptP_fst]
  | names xs =>
    simp only [assignP, assign]
    generalize elems v h = o
    rcases o with _ | l
    · rfl
    · simp only []
      generalize setNames xs l env = o
      cases o <;> rfl
  | attrs xs =>
    simp only [assignP, assign]
    generalize elems v h = o
    rcases o with _ | l
    · rfl
    · exact assignAttrsP_fst ..

theorem forLoopP_fst {x : String} {f : Env → Heap → Path Flow} {g : Env → Heap → Out Flow}
    (e : ∀ env h, (f env h).1 = g env h) (l : List Val) : ∀ env h, (forLoopP x f l env h).1 = forLoop x g l env h := by
  induction l with
  | nil => exact fun _ _ => rfl
  | cons v l ih =>
    intro env h
    simp only [forLoopP, forLoop, note_fst, pRun_fst, e, ih]

theorem whileLoopP_fst {c : Env → Heap → Path Val} {d : Env → Heap → Out Val} {f : Env → Heap → Path Flow}
    {g : Env → Heap → Out Flow} (e : ∀ env h, (c env h).1 = d env h) (e' : ∀ env h, (f env h).1 = g env h) (n : Nat) :
    ∀ env h, (whileLoopP c f n env h).1 = whileLoop d g n env h := by
  induction n with
  | zero => exact fun _ _ => rfl
  | succ n ih =>
    intro env h
    simp only [whileLoopP, whileLoop, pThen_fst, e]
    congr; funext v h
    generalize truth v = t
    rcases t with _ | _ | _ <;> simp only [note_fst, quiet_fst, pRun_fst, e', ih]

mutual

theorem execP_fst (C : PCtx) : (s : Stmt) → ∀ env h, (execP C s env h).1 = exec C.plain s env h
  | .pass => fun env h => by simp only [execP, exec, note_fst, quiet_fst]
  | .assign t e => fun env h => by
    simp only [execP, exec, note_fst, pThen_fst, evalP_fst, assignP_fst]
  | .expr e => fun env h => by
    simp only [execP, exec, note_fst, pThen_fst, quiet_fst, evalP_fst]
  | .ret e => fun env h => by
    simp only [execP, exec, note_fst, pThen_fst, quiet_fst, evalP_fst]
  | .if_ c t e => fun env h => by
    simp only [execP, exec, note_fst, pThen_fst, evalP_fst]
    congr; funext v h
    generalize truth v = t
    rcases t with _ | _ | _ <;> simp only [note_fst, quiet_fst, execsP_fst C t, execsP_fst C e]
  | .for_ x iter body => fun env h => by
    simp only [execP, exec, note_fst, pThen_fst, evalP_fst]
    congr; funext v h
    generalize elems v h = o
    rcases o with _ | l
    · rfl
    · exact forLoopP_fst (fun env h => execsP_fst C body env h) ..
  | .while_ c body => fun env h => by
    simp only [execP, exec, note_fst]
    exact whileLoopP_fst (fun env h => evalP_fst C env c h) (fun env h => execsP_fst C body env h) ..
  | .raise cls msg => fun env h => by simp only [execP, exec, note_fst, quiet_fst]
  | .tryValueError body handler => fun env h => by
    simp only [execP, exec, note_fst]
    rw [← execsP_fst C body env h]
    obtain ⟨⟨r, h'⟩, l⟩ := execsP C body env h
    cases r with
    | ok r => rfl
    | error e => cases e <;> first | exact execsP_fst C handler env h' | rfl

theorem execsP_fst (C : PCtx) : (ss : List Stmt) → ∀ env h, (execsP C ss env h).1 = execs C.plain ss env h
  | [] => fun env h => by simp only [execsP, execs, quiet_fst]
  | s :: ss => fun env h => by
    simp only [execsP, execs, pRun_fst, execP_fst C s, execsP_fst C ss]

end

theorem runP_fst (C : PCtx) (d : FunDef) (args : List Val) (h : Heap) : (runP C d args h).1 = run C.plain d args h := by
  simp only [runP, run, pThen_fst]
  have e : (bindParamsP C d args h).1 = bindParams C.plain d args h := by
    unfold bindParamsP bindParams
    split
    · rfl
    · simp only []
      split
      · simp only [pThen_fst, quiet_fst, evalsP_fst]
      · rfl
  rw [e]
  congr; funext vs h
  generalize setNames d.params vs Env.empty = o
  rcases o with _ | env
  · rfl
  · simp only [pThen_fst, quiet_fst, execsP_fst]
    rfl

/-- Without the record of the path, a call is the call of `Verif.Source.Semantics`. -/
theorem call_path (P : Program) (L n : Nat) : ∀ f args h, (path P L n f args h).1 = call P L n f args h := by
  induction n with
  | zero => exact fun _ _ _ => rfl
  | succ n ih =>
    intro f args h
    simp only [path, call, note_fst]
    generalize P.fn f = o
    rcases o with _ | d
    · rfl
    · simp only []
      rw [runP_fst]
      congr
      simp only [PCtx.plain]
      congr
      funext f args h
      exact ih f args h

end Gost.Src
