import Verif.Source.IsolationOps

/-! Corresponding runs of expressions, statements and functions. -/

namespace Gost.Src

variable {π : Pairs} {h k : Heap}

theorem stuck_rel {α : Type} {A : Pairs → α → α → Prop} (r : HR π h k) : Rel A π h k (fail .stuck h) (fail .stuck k) :=
  .fail _ r

theorem builtin_other {f : String} (args : List Val) (h : Heap) (n : f ∉ ["len", "bytearray", "isbytes", "min", "range",
    "enumerate", "tuple", "int.from_bytes", "int", "hasattr", "pack>I", "os.urandom"]) :
    builtin f args h = fail .stuck h := by
  unfold builtin
  split <;> first | rfl | (exfalso; exact n (by decide))

theorem builtin_rel (r : HR π h k) (f : String) {l m : List Val} (t : VRs π l m) :
    Rel VR π h k (builtin f l h) (builtin f m k) := by
  by_cases n : f ∈ ["len", "bytearray", "isbytes", "min", "range", "enumerate", "tuple", "int.from_bytes", "int", "hasattr",
    "pack>I", "os.urandom"]
  rotate_left
  · rw [builtin_other l h n, builtin_other m k n]
    exact stuck_rel r
  simp only [List.mem_cons, List.not_mem_nil, or_false] at n
  rcases n with rfl | rfl | rfl | rfl | rfl | rfl | rfl | rfl | rfl | rfl | rfl | rfl
  · rcases t with _ | ⟨vw, _ | ⟨_, _⟩⟩ <;> try exact stuck_rel r
    simp only [builtin, pyLen]
    rcases elems_rel r vw with ⟨e1, e2⟩ | ⟨l, m, e1, e2, t⟩
    · simp only [e1, e2]
      exact stuck_rel r
    · simp only [e1, e2, t.length]
      exact .ok r (.int _)
  · rcases t with _ | ⟨vw, _ | ⟨_, _⟩⟩
    · exact .alloc r (.bytearray _)
    · exact newBytearray_rel r vw
    · exact stuck_rel r
  · rcases t with _ | ⟨vw, _ | ⟨_, _⟩⟩ <;> try exact stuck_rel r
    simp only [builtin, isBytes, bytesOf_rel r vw]
    exact .ok r (.bool _)
  · rcases t with _ | ⟨⟨⟩, _ | ⟨⟨⟩, _ | ⟨_, _⟩⟩⟩ <;> first | exact stuck_rel r | exact .ok r (.int _)
  · rcases t with _ | ⟨⟨⟩, _ | ⟨⟨⟩, _ | ⟨⟨⟩, _ | ⟨_, _⟩⟩⟩⟩ <;> first
      | exact stuck_rel r
      | exact .ok r (.tuple (range_rel _ _ _))
      | (simp only [builtin]
         split
         · exact .fail _ r
         · exact .ok r (.tuple (range_rel _ _ _)))
  · rcases t with _ | ⟨vw, _ | ⟨_, _⟩⟩ <;> try exact stuck_rel r
    simp only [builtin]
    rcases elems_rel r vw with ⟨e1, e2⟩ | ⟨l, m, e1, e2, t⟩
    · simp only [e1, e2]
      exact stuck_rel r
    · simp only [e1, e2]
      exact .ok r (.tuple (enumerated_rel t _))
  · rcases t with _ | ⟨vw, _ | ⟨_, _⟩⟩ <;> try exact stuck_rel r
    simp only [builtin]
    rcases elems_rel r vw with ⟨e1, e2⟩ | ⟨l, m, e1, e2, t⟩
    · simp only [e1, e2]
      exact stuck_rel r
    · simp only [e1, e2]
      exact .ok r (.tuple t)
  · rcases t with _ | ⟨vw, _ | ⟨⟨⟩, _ | ⟨_, _⟩⟩⟩ <;> try exact stuck_rel r
    · rename_i s
      by_cases hs : s = "big"
      · subst hs
        simp only [builtin, bytesOf_rel r vw]
        split
        · exact .ok r (.int _)
        · exact stuck_rel r
      · have F : ∀ v h, builtin "int.from_bytes" [v, .str s] h = fail .stuck h := by
          intro v h
          unfold builtin
          split <;> simp_all
        rw [F, F]
        exact stuck_rel r
    · rename_i s a b l m _ _
      have F : ∀ v x l h, builtin "int.from_bytes" (v :: .str s :: x :: l) h = fail .stuck h := by
        intro v x l h
        unfold builtin
        split <;> simp_all
      rw [F, F]
      exact stuck_rel r
  · rcases t with _ | ⟨⟨⟩, _ | ⟨_, _⟩⟩ <;> try exact stuck_rel r
    simp only [builtin]
    split
    · exact .ok r (.int _)
    · exact .fail _ r
  · rcases t with _ | ⟨vw, _ | ⟨⟨⟩, _ | ⟨_, _⟩⟩⟩ <;> try exact stuck_rel r
    all_goals cases vw <;> try exact stuck_rel r
    rename_i a _ _ m
    obtain ⟨o, p, e1, e2, e3⟩ := r.get m
    simp only [builtin, e1, e2]
    cases e3 with
    | inst c t =>
      rcases t.find a with ⟨e1, e2⟩ | ⟨x, y, e1, e2, -⟩ <;> simp only [e1, e2] <;> exact .ok r (.bool _)
    | _ => exact stuck_rel r
  · rcases t with _ | ⟨⟨⟩, _ | ⟨_, _⟩⟩ <;> try exact stuck_rel r
    simp only [builtin]
    split
    · exact toBytes_rel r _ _ _
    · exact stuck_rel r
  · rcases t with _ | ⟨⟨⟩, _ | ⟨_, _⟩⟩ <;> try exact stuck_rel r
    have F : ∀ {h : Heap} {o : Obj} (n : Int), h[0]? = some o → (∀ b l, o ≠ .list (.bytes b :: l)) →
        builtin "os.urandom" [.int n] h = fail .stuck h := by
      intro h o n e ne
      simp only [builtin, e]
      split
      · rename_i e'
        cases e'
        exact absurd rfl (ne _ _)
      · rfl
    rcases r.rnd with m | ⟨-, ⟨o, e1, n1⟩, ⟨p, e2, n2⟩⟩
    · obtain ⟨o, p, e1, e2, e3⟩ := r.get m
      cases e3 with
      | bytearray b =>
        rw [F _ e1 (by simp), F _ e2 (by simp)]
        exact stuck_rel r
      | inst c l =>
        rw [F _ e1 (by simp), F _ e2 (by simp)]
        exact stuck_rel r
      | list t =>
        rcases t with _ | ⟨e, t⟩
        · rw [F _ e1 (by simp), F _ e2 (by simp)]
          exact stuck_rel r
        · cases e with
          | bytes b =>
            simp only [builtin, e1, e2]
            split
            · exact .set r m (.list t) (.bytes b)
            · exact stuck_rel r
          | _ =>
            rw [F _ e1 (by simp), F _ e2 (by simp)]
            exact stuck_rel r
    · rw [F _ e1 n1, F _ e2 n2]
      exact stuck_rel r

theorem builtinMeth_other (v : Val) {f : String} (args : List Val) (h : Heap) (n : f ∉ ["to_bytes", "bit_length", "get",
    "split", "append", "hex"]) : builtinMeth v f args h = fail .stuck h := by
  unfold builtinMeth
  split <;> first | rfl | (exfalso; exact n (by decide))

theorem builtinMeth_rel (r : HR π h k) {v w : Val} (e : VR π v w) (f : String) {l m : List Val} (t : VRs π l m) :
    Rel VR π h k (builtinMeth v f l h) (builtinMeth w f m k) := by
  by_cases n : f ∈ ["to_bytes", "bit_length", "get", "split", "append", "hex"]
  rotate_left
  · rw [builtinMeth_other v l h n, builtinMeth_other w m k n]
    exact stuck_rel r
  simp only [List.mem_cons, List.not_mem_nil, or_false] at n
  rcases n with rfl | rfl | rfl | rfl | rfl | rfl
  · cases e <;> rcases t with _ | ⟨⟨⟩, _ | ⟨⟨⟩, _ | ⟨_, _⟩⟩⟩ <;> first | exact stuck_rel r | exact toBytes_rel r _ _ _
  · cases e <;> rcases t with _ | ⟨_, _⟩ <;> first | exact stuck_rel r | exact .ok r (.int _)
  · cases e <;> rcases t with _ | ⟨⟨⟩, _ | ⟨vw, _ | ⟨_, _⟩⟩⟩ <;> try exact stuck_rel r
    rename_i t a _ _
    simp only [builtinMeth]
    rcases t.find a with ⟨e1, e2⟩ | ⟨x, y, e1, e2, xy⟩ <;> simp only [e1, e2]
    · exact .ok r vw
    · exact .ok r xy
  · cases e <;> rcases t with _ | ⟨⟨⟩, _ | ⟨_, _⟩⟩ <;> try exact stuck_rel r
    · rename_i s s'
      by_cases hs : s' = "."
      · subst hs
        exact .alloc r (.list (VRs.strs _ _))
      · have F : ∀ h, builtinMeth (.str s) "split" [.str s'] h = fail .stuck h := by
          intro h
          unfold builtinMeth
          split <;> simp_all
        rw [F, F]
        exact stuck_rel r
    · rename_i s s' _ _ _ _ _ _
      have F : ∀ x l h, builtinMeth (.str s) "split" (.str s' :: x :: l) h = fail .stuck h := by
        intro x l h
        unfold builtinMeth
        split <;> simp_all
      rw [F, F]
      exact stuck_rel r
  · cases e <;> rcases t with _ | ⟨vw, _ | ⟨_, _⟩⟩ <;> try exact stuck_rel r
    rename_i m _ _
    obtain ⟨o, p, e1, e2, e3⟩ := r.get m
    simp only [builtinMeth, e1, e2]
    cases e3 with
    | list t => exact .set r m (.list (t.append (.cons vw .nil))) .none
    | _ => exact stuck_rel r
  · have b := bytesOf_rel r e
    rcases t with _ | ⟨_, _⟩
    · simp only [builtinMeth, b]
      split
      · exact .ok r (.str _)
      · exact stuck_rel r
    · cases e <;> exact stuck_rel r

/-- The functions, globals and copies which a program uses have corresponding runs. -/
structure Local (C : Ctx) : Prop where
  call : ∀ {π h k} (f : String) {l m}, HR π h k → VRs π l m → Rel VR π h k (C.call f l h) (C.call f m k)
  glob : ∀ {x v}, C.globals x = some v → ∀ π, VR π v v
  copy : ∀ {π h k v w}, HR π h k → VR π v w → Rel VR π h k (C.copy v h) (C.copy w k)

/-- Corresponding local variables. -/
def EnvR (π : Pairs) (env env' : Env) : Prop :=
  ∀ x, (env x = none ∧ env' x = none) ∨ ∃ v w, env x = some v ∧ env' x = some w ∧ VR π v w

theorem EnvR.mono {π π' : Pairs} (s : ∀ p ∈ π, p ∈ π') {env env' : Env} (e : EnvR π env env') : EnvR π' env env' := by
  intro x
  rcases e x with e | ⟨v, w, e1, e2, e3⟩
  · exact Or.inl e
  · exact Or.inr ⟨v, w, e1, e2, e3.mono s⟩

theorem EnvR.set {env env' : Env} (e : EnvR π env env') (x : String) {v w : Val} (vw : VR π v w) :
    EnvR π (env.set x v) (env'.set x w) := by
  intro y
  unfold Env.set
  by_cases hy : y = x
  · simp only [hy, if_true]
    exact Or.inr ⟨v, w, rfl, rfl, vw⟩
  · simp only [hy, if_false]
    exact e y

theorem EnvR.empty (π : Pairs) : EnvR π .empty .empty := fun _ => Or.inl ⟨rfl, rfl⟩

variable {C : Ctx}

theorem getAttr_rel (c : Local C) (r : HR π h k) {v w : Val} (e : VR π v w) (a : String) :
    Rel VR π h k (getAttr C v a h) (getAttr C w a k) := by
  cases e with
  | ref m =>
    obtain ⟨o, p, e1, e2, e3⟩ := r.get m
    simp only [getAttr, e1, e2]
    cases e3 with
    | inst cls t =>
      simp only
      split
      · exact c.call _ r (.cons (.ref m) .nil)
      · rcases t.find a with ⟨e1, e2⟩ | ⟨x, y, e1, e2, xy⟩ <;> simp only [e1, e2]
        · exact .fail _ r
        · exact .ok r xy
    | _ => exact stuck_rel r
  | _ => exact stuck_rel r

theorem callMeth_rel (c : Local C) (r : HR π h k) {v w : Val} (e : VR π v w) (a : String) {l m : List Val}
    (t : VRs π l m) : Rel VR π h k (callMeth C v a l h) (callMeth C w a m k) := by
  have b := builtinMeth_rel r e a t
  cases e with
  | ref mem =>
    obtain ⟨o, p, e1, e2, e3⟩ := r.get mem
    simp only [callMeth, e1, e2]
    cases e3 with
    | inst cls _ =>
      simp only
      split
      · rename_i st _
        cases st
        · exact c.call _ r (.cons (.ref mem) t)
        · exact c.call _ r t
      · exact .fail _ r
    | _ => exact b
  | _ => exact b

theorem instantiate_rel (c : Local C) (r : HR π h k) (cls : String) {l m : List Val} (t : VRs π l m) :
    Rel VR π h k (instantiate C cls l h) (instantiate C cls m k) := by
  unfold instantiate
  split
  · rename_i f _ _
    have a : Rel VR π h k (alloc (.inst cls []) h) (alloc (.inst cls []) k) := .alloc r (.inst cls .nil)
    have := Rel.andThen (B := VR) (f := fun o h' => andThen (C.call f (o :: l) h') fun _ h' => ok o h')
      (g := fun o h' => andThen (C.call f (o :: m) h') fun _ h' => ok o h') a fun π' a b h' k' s r' ab =>
        (c.call f r' (.cons ab (t.mono s))).andThen fun π'' _ _ h'' k'' s' r'' _ => .ok r'' (ab.mono s')
    exact this
  · exact stuck_rel r

theorem applyBuiltin_rel (c : Local C) (r : HR π h k) (f : String) {l m : List Val} (t : VRs π l m) :
    Rel VR π h k (applyBuiltin C f l h) (applyBuiltin C f m k) := by
  by_cases hf : f = "deepcopy"
  · subst hf
    rcases t with _ | ⟨vw, _ | ⟨a, b⟩⟩
    · exact builtin_rel r "deepcopy" .nil
    · exact c.copy r vw
    · exact builtin_rel r "deepcopy" (.cons vw (.cons a b))
  · have F : ∀ l h, applyBuiltin C f l h = builtin f l h := by
      intro l h
      unfold applyBuiltin
      split
      · exact absurd rfl hf
      · rfl
    rw [F, F]
    exact builtin_rel r f t

theorem evalComp_rel {f g : Val → Heap → Out Val} {l m : List Val} : ∀ {π h k}, HR π h k → VRs π l m →
    (∀ π' h' k' v w, (∀ p ∈ π, p ∈ π') → HR π' h' k' → VR π' v w → Rel VR π' h' k' (f v h') (g w k')) →
    Rel VRs π h k (evalComp f l h) (evalComp g m k) := by
  induction l generalizing m with
  | nil =>
    intro π h k r t _
    cases t
    exact .ok r .nil
  | cons v l ih =>
    intro π h k r t n
    cases t with
    | cons vw t =>
      unfold evalComp
      refine (n π h k v _ (fun _ h => h) r vw).andThen fun π' a b h' k' s r' ab => ?_
      refine (ih r' (t.mono s) fun π'' h'' k'' x y s' => n π'' h'' k'' x y fun p hp => s' p (s p hp)).andThen
        fun π'' as bs h'' k'' s' r'' t' => ?_
      exact .ok r'' (.cons (ab.mono s') t')

mutual

theorem eval_rel (c : Local C) : (e : Expr) → ∀ {π h k env env'}, HR π h k → EnvR π env env' →
    Rel VR π h k (eval C env e h) (eval C env' e k)
  | .none, _, _, _, _, _, r, _ => .ok r .none
  | .bool b, _, _, _, _, _, r, _ => .ok r (.bool b)
  | .int i, _, _, _, _, _, r, _ => .ok r (.int i)
  | .str s, _, _, _, _, _, r, _ => .ok r (.str s)
  | .bytes b, _, _, _, _, _, r, _ => .ok r (.bytes b)
  | .name x, π, h, k, env, env', r, v => by
    unfold eval
    rcases v x with ⟨e1, e2⟩ | ⟨a, b, e1, e2, ab⟩ <;> simp only [e1, e2]
    · exact .fail _ r
    · exact .ok r ab
  | .glob x, π, h, k, env, env', r, v => by
    unfold eval
    split
    · exact .ok r (c.glob (by assumption) _)
    · exact .fail _ r
  | .attr e a, π, h, k, env, env', r, v => by
    unfold eval
    exact (eval_rel c e r v).andThen fun π' x y h' k' s r' xy => getAttr_rel c r' xy a
  | .bin op a b, π, h, k, env, env', r, v => by
    unfold eval
    exact (eval_rel c a r v).andThen fun π' x y h' k' s r' xy =>
      (eval_rel c b r' (v.mono s)).andThen fun π'' x' y' h'' k'' s' r'' xy' => binop_rel r'' op (xy.mono s') xy'
  | .cmp op a b, π, h, k, env, env', r, v => by
    unfold eval
    exact (eval_rel c a r v).andThen fun π' x y h' k' s r' xy =>
      (eval_rel c b r' (v.mono s)).andThen fun π'' x' y' h'' k'' s' r'' xy' => cmpop_rel r'' op (xy.mono s') xy'
  | .and a b, π, h, k, env, env', r, v => by
    unfold eval
    refine (eval_rel c a r v).andThen fun π' x y h' k' s r' xy => ?_
    rw [truth_rel xy]
    split
    · exact eval_rel c b r' (v.mono s)
    · exact .ok r' xy
    · exact stuck_rel r'
  | .or a b, π, h, k, env, env', r, v => by
    unfold eval
    refine (eval_rel c a r v).andThen fun π' x y h' k' s r' xy => ?_
    rw [truth_rel xy]
    split
    · exact .ok r' xy
    · exact eval_rel c b r' (v.mono s)
    · exact stuck_rel r'
  | .not a, π, h, k, env, env', r, v => by
    unfold eval
    refine (eval_rel c a r v).andThen fun π' x y h' k' s r' xy => ?_
    rw [truth_rel xy]
    split
    · exact .ok r' (.bool _)
    · exact stuck_rel r'
  | .neg a, π, h, k, env, env', r, v => by
    unfold eval
    refine (eval_rel c a r v).andThen fun π' x y h' k' s r' xy => ?_
    cases xy <;> first | exact .ok r' (.int _) | exact stuck_rel r'
  | .index a b, π, h, k, env, env', r, v => by
    unfold eval
    exact (eval_rel c a r v).andThen fun π' x y h' k' s r' xy =>
      (eval_rel c b r' (v.mono s)).andThen fun π'' x' y' h'' k'' s' r'' xy' => getItem_rel r'' (xy.mono s') xy'
  | .slice a lo hi, π, h, k, env, env', r, v => by
    unfold eval
    refine (eval_rel c a r v).andThen fun π' x y h' k' s r' xy => ?_
    refine (evalOpt_rel c lo r' (v.mono s)).andThen fun π1 x1 y1 h1 k1 s1 r1 xy1 => ?_
    refine (evalOpt_rel c hi r1 ((v.mono s).mono s1)).andThen fun π2 x2 y2 h2 k2 s2 r2 xy2 => ?_
    cases xy1
    cases xy2
    exact getSlice_rel r2 ((xy.mono s1).mono s2) x1 x2
  | .tuple es, π, h, k, env, env', r, v => by
    unfold eval
    exact (evals_rel c es r v).andThen fun π' x y h' k' s r' xy => .ok r' (.tuple xy)
  | .list es, π, h, k, env, env', r, v => by
    unfold eval
    exact (evals_rel c es r v).andThen fun π' x y h' k' s r' xy => .alloc r' (.list xy)
  | .comp elt x iter, π, h, k, env, env', r, v => by
    unfold eval
    refine (eval_rel c iter r v).andThen fun π' a b h' k' s r' ab => ?_
    rcases elems_rel r' ab with ⟨e1, e2⟩ | ⟨l, m, e1, e2, t⟩ <;> simp only [e1, e2]
    · exact stuck_rel r'
    · refine (evalComp_rel r' t fun π1 h1 k1 a b s1 r1 ab => eval_rel c elt r1 (((v.mono s).mono s1).set x ab)).andThen ?_
      exact fun π2 a b h2 k2 s2 r2 ab => .alloc r2 (.list ab)
  | .builtin f args, π, h, k, env, env', r, v => by
    unfold eval
    exact (evals_rel c args r v).andThen fun π' x y h' k' s r' xy => applyBuiltin_rel c r' f xy
  | .call f args, π, h, k, env, env', r, v => by
    unfold eval
    exact (evals_rel c args r v).andThen fun π' x y h' k' s r' xy => c.call f r' xy
  | .meth e m args, π, h, k, env, env', r, v => by
    unfold eval
    exact (eval_rel c e r v).andThen fun π' x y h' k' s r' xy =>
      (evals_rel c args r' (v.mono s)).andThen fun π'' x' y' h'' k'' s' r'' xy' =>
        callMeth_rel c r'' (xy.mono s') m xy'
  | .new cls args, π, h, k, env, env', r, v => by
    unfold eval
    exact (evals_rel c args r v).andThen fun π' x y h' k' s r' xy => instantiate_rel c r' cls xy

theorem evals_rel (c : Local C) : (es : List Expr) → ∀ {π h k env env'}, HR π h k → EnvR π env env' →
    Rel VRs π h k (evals C env es h) (evals C env' es k)
  | [], _, _, _, _, _, r, _ => .ok r .nil
  | e :: es, π, h, k, env, env', r, v => by
    unfold evals
    exact (eval_rel c e r v).andThen fun π' x y h' k' s r' xy =>
      (evals_rel c es r' (v.mono s)).andThen fun π'' x' y' h'' k'' s' r'' xy' => .ok r'' (.cons (xy.mono s') xy')

theorem evalOpt_rel (c : Local C) : (e : Option Expr) → ∀ {π h k env env'}, HR π h k → EnvR π env env' →
    Rel (fun _ a b => a = b) π h k (evalOpt C env e h) (evalOpt C env' e k)
  | .none, _, _, _, _, _, r, _ => .ok r rfl
  | some e, π, h, k, env, env', r, v => by
    unfold evalOpt
    refine (eval_rel c e r v).andThen fun π' x y h' k' s r' xy => ?_
    cases xy <;> first | exact .ok r' rfl | exact stuck_rel r'

end

/-- Corresponding ends of statements. -/
inductive FR (π : Pairs) : Flow → Flow → Prop where
  | next {env env' : Env} : EnvR π env env' → FR π (.next env) (.next env')
  | ret {v w : Val} : VR π v w → FR π (.ret v) (.ret w)

theorem thenRun_rel {o p : Out Flow} {f g : Env → Heap → Out Flow} (r : Rel FR π h k o p)
    (n : ∀ π' a b h' k', (∀ q ∈ π, q ∈ π') → HR π' h' k' → EnvR π' a b → Rel FR π' h' k' (f a h') (g b k')) :
    Rel FR π h k (thenRun o f) (thenRun p g) := by
  have e : ∀ (o : Out Flow) (f : Env → Heap → Out Flow), thenRun o f = andThen o fun x h =>
      match x with
      | .next env => f env h
      | .ret v => ok (.ret v) h := by
    rintro ⟨_ | _ | _, h⟩ f <;> rfl
  rw [e, e]
  refine r.andThen fun π' a b h' k' s r' ab => ?_
  cases ab with
  | next v => exact n π' _ _ h' k' s r' v
  | ret vw => exact .ok r' (.ret vw)

theorem setNames_rel : ∀ (xs : List String) {l m : List Val} {env env' : Env}, VRs π l m → EnvR π env env' →
    (setNames xs l env = none ∧ setNames xs m env' = none) ∨
      ∃ a b, setNames xs l env = some a ∧ setNames xs m env' = some b ∧ EnvR π a b
  | [], _, _, _, _, .nil, v => Or.inr ⟨_, _, rfl, rfl, v⟩
  | [], _, _, _, _, .cons _ _, _ => Or.inl ⟨rfl, rfl⟩
  | _ :: _, _, _, _, _, .nil, _ => Or.inl ⟨rfl, rfl⟩
  | x :: xs, _, _, _, _, .cons vw t, v => setNames_rel xs t (v.set x vw)

theorem assignAttrs_rel (c : Local C) (xs : List (Expr × String)) : ∀ {π h k l m env env'}, HR π h k → VRs π l m →
    EnvR π env env' → Rel FR π h k (assign.assignAttrs C env xs l h) (assign.assignAttrs C env' xs m k) := by
  induction xs with
  | nil =>
    intro π h k l m env env' r t v
    cases t with
    | nil => exact .ok r (.next v)
    | cons _ _ => exact .fail _ r
  | cons x xs ih =>
    intro π h k l m env env' r t v
    cases t with
    | nil => exact .fail _ r
    | cons vw t =>
      unfold assign.assignAttrs
      refine (eval_rel c x.1 r v).andThen fun π1 a b h1 k1 s1 r1 ab => ?_
      refine (setAttr_rel r1 ab x.2 (vw.mono s1)).andThen fun π2 _ _ h2 k2 s2 r2 _ => ?_
      exact ih r2 ((t.mono s1).mono s2) ((v.mono s1).mono s2)

theorem assign_rel (c : Local C) (t : Target) {env env' : Env} (r : HR π h k) (v : EnvR π env env') {x y : Val}
    (e : VR π x y) : Rel FR π h k (assign C env t x h) (assign C env' t y k) := by
  cases t with
  | name n => exact .ok r (.next (v.set n e))
  | attr o a =>
    unfold assign
    refine (eval_rel c o r v).andThen fun π1 a' b' h1 k1 s1 r1 ab => ?_
    exact (setAttr_rel r1 ab a (e.mono s1)).andThen fun π2 _ _ h2 k2 s2 r2 _ => .ok r2 (.next ((v.mono s1).mono s2))
  | index o i =>
    unfold assign
    refine (eval_rel c o r v).andThen fun π1 a' b' h1 k1 s1 r1 ab => ?_
    refine (eval_rel c i r1 (v.mono s1)).andThen fun π2 a2 b2 h2 k2 s2 r2 ab2 => ?_
    exact (setItem_rel r2 (ab.mono s2) ab2 ((e.mono s1).mono s2)).andThen fun π3 _ _ h3 k3 s3 r3 _ =>
      .ok r3 (.next (((v.mono s1).mono s2).mono s3))
  | slice o lo hi =>
    unfold assign
    refine (eval_rel c o r v).andThen fun π1 a' b' h1 k1 s1 r1 ab => ?_
    refine (evalOpt_rel c lo r1 (v.mono s1)).andThen fun π2 a2 b2 h2 k2 s2 r2 ab2 => ?_
    refine (evalOpt_rel c hi r2 ((v.mono s1).mono s2)).andThen fun π3 a3 b3 h3 k3 s3 r3 ab3 => ?_
    cases ab2
    cases ab3
    exact (setSlice_rel r3 ((ab.mono s2).mono s3) _ _ (((e.mono s1).mono s2).mono s3)).andThen fun π4 _ _ h4 k4 s4 r4 _ =>
      .ok r4 (.next ((((v.mono s1).mono s2).mono s3).mono s4))
  | names xs =>
    unfold assign
    rcases elems_rel r e with ⟨e1, e2⟩ | ⟨l, m, e1, e2, t⟩ <;> simp only [e1, e2]
    · exact stuck_rel r
    · rcases setNames_rel xs t v with ⟨e1, e2⟩ | ⟨a, b, e1, e2, ab⟩ <;> simp only [e1, e2]
      · exact .fail _ r
      · exact .ok r (.next ab)
  | attrs xs =>
    unfold assign
    rcases elems_rel r e with ⟨e1, e2⟩ | ⟨l, m, e1, e2, t⟩ <;> simp only [e1, e2]
    · exact stuck_rel r
    · exact assignAttrs_rel c xs r t v

theorem forLoop_rel (x : String) {f g : Env → Heap → Out Flow} (l : List Val) : ∀ {π h k m env env'}, HR π h k →
    VRs π l m → EnvR π env env' →
    (∀ π' a b h' k', HR π' h' k' → EnvR π' a b → Rel FR π' h' k' (f a h') (g b k')) →
    Rel FR π h k (forLoop x f l env h) (forLoop x g m env' k) := by
  induction l with
  | nil =>
    intro π h k m env env' r t v n
    cases t
    exact .ok r (.next v)
  | cons a l ih =>
    intro π h k m env env' r t v n
    cases t with
    | cons vw t =>
      unfold forLoop
      exact thenRun_rel (n π _ _ h k r (v.set x vw)) fun π' a b h' k' s r' ab => ih r' (t.mono s) ab n

theorem whileLoop_rel {cf cg : Env → Heap → Out Val} {f g : Env → Heap → Out Flow}
    (nc : ∀ π' a b h' k', HR π' h' k' → EnvR π' a b → Rel VR π' h' k' (cf a h') (cg b k'))
    (n : ∀ π' a b h' k', HR π' h' k' → EnvR π' a b → Rel FR π' h' k' (f a h') (g b k')) (L : Nat) :
    ∀ {π h k env env'}, HR π h k → EnvR π env env' →
      Rel FR π h k (whileLoop cf f L env h) (whileLoop cg g L env' k) := by
  induction L with
  | zero => exact fun r _ => .fail _ r
  | succ L ih =>
    intro π h k env env' r v
    unfold whileLoop
    refine (nc π env env' h k r v).andThen fun π' a b h' k' s r' ab => ?_
    rw [truth_rel ab]
    split
    · exact thenRun_rel (n π' env env' h' k' r' (v.mono s)) fun π'' a b h'' k'' _ r'' ab => ih r'' ab
    · exact .ok r' (.next (v.mono s))
    · exact stuck_rel r'

/-- The handler of `ValueError`. -/
def onValue (o : Out Flow) (f : Heap → Out Flow) : Out Flow :=
  match o with
  | (.error .value, h) => f h
  | o => o

theorem onValue_rel {o p : Out Flow} {f g : Heap → Out Flow} (r : Rel FR π h k o p)
    (n : ∀ π' h' k', (∀ q ∈ π, q ∈ π') → HR π' h' k' → Rel FR π' h' k' (f h') (g k')) :
    Rel FR π h k (onValue o f) (onValue p g) := by
  obtain ⟨⟨π', g1, r1, f1, f2, c⟩⟩ := id r
  obtain ⟨o1, h'⟩ := o
  obtain ⟨p1, k'⟩ := p
  rcases c with ⟨a, b, e1, e2, ab⟩ | ⟨e, e1, e2⟩
  · cases e1
    cases e2
    exact r
  · cases e1
    cases e2
    cases e <;> try exact r
    obtain ⟨⟨π'', g2, r2, f3, f4, c⟩⟩ := n π' h' k' g1.1 r1
    exact ⟨π'', g1.trans g2 f1.1 f2.1, r2, f1.then f3 g1.fst, f2.then f4 g1.snd, c⟩

mutual

theorem exec_rel (c : Local C) : (s : Stmt) → ∀ {π h k env env'}, HR π h k → EnvR π env env' →
    Rel FR π h k (exec C s env h) (exec C s env' k)
  | .pass, _, _, _, _, _, r, v => by
    unfold exec
    exact .ok r (.next v)
  | .assign t e, _, _, _, _, _, r, v => by
    unfold exec
    exact (eval_rel c e r v).andThen fun π' x y h' k' s r' xy => assign_rel c t r' (v.mono s) xy
  | .expr e, _, _, _, _, _, r, v => by
    unfold exec
    exact (eval_rel c e r v).andThen fun π' x y h' k' s r' xy => .ok r' (.next (v.mono s))
  | .ret e, _, _, _, _, _, r, v => by
    unfold exec
    exact (eval_rel c e r v).andThen fun π' x y h' k' s r' xy => .ok r' (.ret xy)
  | .if_ a t e, _, _, _, _, _, r, v => by
    unfold exec
    refine (eval_rel c a r v).andThen fun π' x y h' k' s r' xy => ?_
    rw [truth_rel xy]
    split
    · exact execs_rel c t r' (v.mono s)
    · exact execs_rel c e r' (v.mono s)
    · exact stuck_rel r'
  | .for_ x iter body, _, _, _, _, _, r, v => by
    unfold exec
    refine (eval_rel c iter r v).andThen fun π' a b h' k' s r' ab => ?_
    rcases elems_rel r' ab with ⟨e1, e2⟩ | ⟨l, m, e1, e2, t⟩ <;> simp only [e1, e2]
    · exact stuck_rel r'
    · exact forLoop_rel x l r' t (v.mono s) fun π' a b h' k' r' ab => execs_rel c body r' ab
  | .while_ a body, _, _, _, _, _, r, v => by
    unfold exec
    exact whileLoop_rel (fun π' x y h' k' r' xy => eval_rel c a r' xy) (fun π' x y h' k' r' xy => execs_rel c body r' xy)
      C.loops r v
  | .raise cls msg, _, _, _, _, _, r, _ => by
    unfold exec
    exact .fail _ r
  | .tryValueError body handler, _, _, _, _, _, r, v => by
    unfold exec
    exact onValue_rel (execs_rel c body r v) fun π' h' k' s r' => execs_rel c handler r' (v.mono s)

theorem execs_rel (c : Local C) : (ss : List Stmt) → ∀ {π h k env env'}, HR π h k → EnvR π env env' →
    Rel FR π h k (execs C ss env h) (execs C ss env' k)
  | [], _, _, _, _, _, r, v => by
    unfold execs
    exact .ok r (.next v)
  | s :: ss, _, _, _, _, _, r, v => by
    unfold execs
    exact thenRun_rel (exec_rel c s r v) fun π' a b h' k' _ r' ab => execs_rel c ss r' ab

end

theorem run_rel (c : Local C) (d : FunDef) (r : HR π h k) {l m : List Val} (t : VRs π l m) :
    Rel VR π h k (run C d l h) (run C d m k) := by
  have hb : Rel VRs π h k (bindParams C d l h) (bindParams C d m k) := by
    unfold bindParams
    rw [t.length]
    split
    · exact .ok r t
    · simp only
      split
      · exact (evals_rel c _ r (.empty π)).andThen fun π' x y h' k' s r' xy => .ok r' ((t.mono s).append xy)
      · exact .fail _ r
  unfold run
  refine hb.andThen fun π' x y h' k' s r' xy => ?_
  rcases setNames_rel d.params xy (.empty π') with ⟨e1, e2⟩ | ⟨a, b, e1, e2, ab⟩ <;> simp only [e1, e2]
  · exact .fail _ r'
  · refine (execs_rel c d.body r' ab).andThen fun π'' f g h'' k'' s' r'' fg => ?_
    cases fg with
    | next _ => exact .ok r'' .none
    | ret vw => exact .ok r'' vw

theorem copyVal_rel (n : Nat) : ∀ {π h k v w}, HR π h k → VR π v w → Rel VR π h k (copyVal n v h) (copyVal n w k) := by
  induction n with
  | zero =>
    intro π h k v w r _
    exact .fail _ r
  | succ n ih =>
    intro π h k v w r e
    cases e with
    | ref m =>
      obtain ⟨o, p, e1, e2, e3⟩ := r.get m
      simp only [copyVal, e1, e2]
      cases e3 with
      | bytearray b => exact .alloc r (.bytearray b)
      | list t =>
        exact (evalComp_rel r t fun π' h' k' a b _ r' ab => ih r' ab).andThen fun π' a b h' k' s r' ab =>
          .alloc r' (.list ab)
      | inst cls t =>
        exact (evalComp_rel r t.values fun π' h' k' a b _ r' ab => ih r' ab).andThen fun π' a b h' k' s r' ab => by
          rw [t.names]
          exact .alloc r' (.inst cls (ab.zip _))
    | none => exact .ok r .none
    | bool b => exact .ok r (.bool b)
    | int i => exact .ok r (.int i)
    | str s => exact .ok r (.str s)
    | bytes b => exact .ok r (.bytes b)
    | tuple t => exact .ok r (.tuple t)
    | dict t => exact .ok r (.dict t)

/-- Every program without references in its globals. -/
theorem call_rel (P : Program) (hg : ∀ x v, P.globals x = some v → ∀ π, VR π v v) (L n : Nat) :
    ∀ {π h k} (f : String) {l m}, HR π h k → VRs π l m → Rel VR π h k (call P L n f l h) (call P L n f m k) := by
  induction n with
  | zero => exact fun _ _ _ r _ => .fail _ r
  | succ n ih =>
    intro π h k f l m r t
    unfold call
    split
    · exact run_rel ⟨ih, hg _ _, copyVal_rel 10⟩ _ r t
    · exact .fail _ r

end Gost.Src
