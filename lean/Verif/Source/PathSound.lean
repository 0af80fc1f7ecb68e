import Verif.Source.PathCheck

/-! The check of `Verif.Source.PathCheck` is sound: two runs of an accepted function on arguments and memories of the
same shape take the same path. -/

namespace Gost.Src

variable {S : Sig} {C : PCtx}

/-! ### Types of variables -/

theorem tfind_mem {α : Type} {x : String} {v : α} : ∀ {l : List (String × α)}, tfind x l = some v → (x, v) ∈ l
  | [], h => by cases h
  | (y, u) :: l, h => by
    unfold tfind at h
    by_cases q : same x y = true
    · rw [if_pos q] at h
      cases h
      rw [same_iff.mp q]
      exact .head _
    · rw [if_neg q] at h
      exact .tail _ (tfind_mem h)

/-- Variables with values as the types say. -/
def EnvRel (w : World) (Γ : TEnv) (env env' : Env) : Prop :=
  ∀ x t, tfind x Γ = some t → ∃ v v', env x = some v ∧ env' x = some v' ∧ Holds w t v v'

theorem EnvRel.mono {w w' : World} (x : TyMore w w') {Γ : TEnv} {env env' : Env} (E : EnvRel w Γ env env') :
    EnvRel w' Γ env env' := fun y t e => by
  obtain ⟨v, v', a, b, c⟩ := E y t e
  exact ⟨v, v', a, b, c.mono x⟩

theorem tfind_filter {x y : String} (n : ¬ same y x = true) : ∀ Γ : TEnv,
    tfind y (Γ.filter fun p => !same p.1 x) = tfind y Γ
  | [] => rfl
  | (z, t) :: Γ => by
    rw [List.filter_cons]
    by_cases q : same z x = true
    · have : ¬ same y z = true := fun e => n (same_iff.mpr ((same_iff.mp e).trans (same_iff.mp q)))
      simp only [q, Bool.not_true, Bool.false_eq_true, if_false]
      rw [tfind_filter n Γ]
      unfold tfind
      rw [if_neg this]
      cases Γ <;> rfl
    · have q' : same z x = false := by simpa using q
      simp only [q', Bool.not_false, if_true]
      unfold tfind
      rw [tfind_filter n Γ]

theorem EnvRel.set {w : World} {Γ : TEnv} {env env' : Env} (E : EnvRel w Γ env env') (x : String) {t : Ty} {v v' : Val}
    (q : Holds w t v v') : EnvRel w (Γ.set x t) (env.set x v) (env'.set x v') := by
  intro y s e
  unfold TEnv.set tfind at e
  unfold Env.set
  by_cases k : same y x = true
  · rw [if_pos k] at e
    cases e
    rw [if_pos (same_iff.mp k), if_pos (same_iff.mp k)]
    exact ⟨_, _, rfl, rfl, q⟩
  · rw [if_neg k, tfind_filter k] at e
    rw [if_neg fun h => k (same_iff.mpr h), if_neg fun h => k (same_iff.mpr h)]
    exact E y s e

theorem tfind_join {Γ Δ : TEnv} {x : String} {u : Ty} (h : tfind x (Γ.join Δ) = some u) :
    ∃ s t, tfind x Γ = some s ∧ tfind x Δ = some t ∧ s.join t = some u := by
  have m := tfind_mem h
  unfold TEnv.join at m
  obtain ⟨p, -, e⟩ := List.mem_filterMap.mp m
  split at e
  · rename_i s t es et
    split at e
    · rename_i v ev
      cases e
      exact ⟨s, t, es, et, ev⟩
    · cases e
  · cases e

theorem EnvRel.left {w : World} {Γ Δ : TEnv} {env env' : Env} (E : EnvRel w Γ env env') :
    EnvRel w (Γ.join Δ) env env' := fun x u e => by
  obtain ⟨s, t, es, -, j⟩ := tfind_join e
  obtain ⟨v, v', a, b, c⟩ := E x s es
  exact ⟨v, v', a, b, c.sub (Ty.join_sub j).1⟩

theorem EnvRel.right {w : World} {Γ Δ : TEnv} {env env' : Env} (E : EnvRel w Δ env env') :
    EnvRel w (Γ.join Δ) env env' := fun x u e => by
  obtain ⟨s, t, -, et, j⟩ := tfind_join e
  obtain ⟨v, v', a, b, c⟩ := E x t et
  exact ⟨v, v', a, b, c.sub (Ty.join_sub j).2⟩

theorem EnvRel.le {w : World} {Γ Δ : TEnv} {env env' : Env} (q : Γ.le Δ = true) (E : EnvRel w Γ env env') :
    EnvRel w Δ env env' := fun x t e => by
  unfold TEnv.le at q
  have := List.all_eq_true.mp q _ (tfind_mem e)
  simp only [e] at this
  split at this
  · rename_i s t' es et
    cases et
    obtain ⟨v, v', a, b, c⟩ := E x s es
    exact ⟨v, v', a, b, c.sub this⟩
  · cases this

theorem joinAll_holds {w : World} {v v' : Val} : ∀ {us : List Ty} {u : Ty}, joinAll us = some u → ∀ t ∈ us,
    Holds w t v v' → Holds w u v v'
  | [], _, e, _, _, _ => by cases e
  | [t], u, e, s, m, h => by
    unfold joinAll at e
    cases e
    cases m with
    | head => exact h
    | tail _ m => cases m
  | t :: s :: us, u, e, x, m, h => by
    unfold joinAll at e
    generalize q : joinAll (s :: us) = o at e
    rcases o with _ | y
    · cases e
    · simp only [] at e
      cases m with
      | head => exact h.sub (Ty.join_sub e).1
      | tail _ m => exact (joinAll_holds q x m h).sub (Ty.join_sub e).2

theorem subL_holds {w : World} : ∀ {ss us : List Ty} {vs vs' : List Val}, subL ss us = true → HoldsL w ss vs vs' →
    HoldsL w us vs vs'
  | [], [], [], [], _, _ => trivial
  | s :: ss, u :: us, v :: vs, v' :: vs', q, h => by
    unfold subL at q
    rw [Bool.and_eq_true] at q
    exact ⟨h.1.sub q.1, subL_holds q.2 h.2⟩

theorem HoldsL.intro {w : World} {t : Ty} {ts : List Ty} {v v' : Val} {vs vs' : List Val} (a : Holds w t v v')
    (b : HoldsL w ts vs vs') : HoldsL w (t :: ts) (v :: vs) (v' :: vs') := ⟨a, b⟩

theorem holdsL_scalar {w : World} : ∀ {us : List Ty} {vs vs' : List Val}, HoldsL w us vs vs' →
    us.all Ty.isScalar = true → vs' = vs ∧ ∀ x ∈ vs, plainVal x
  | [], [], [], _, _ => ⟨rfl, fun _ m => by cases m⟩
  | u :: us, v :: vs, v' :: vs', L, q => by
    rw [List.all_cons, Bool.and_eq_true] at q
    obtain ⟨a, b⟩ := L.1.scalar q.1
    obtain ⟨c, d⟩ := holdsL_scalar L.2 q.2
    subst a c
    refine ⟨rfl, fun x m => ?_⟩
    cases m with
    | head => exact b
    | tail _ m => exact d x m

theorem holdsL_low {w : World} : ∀ {us : List Ty} {vs vs' : List Val}, HoldsL w us vs vs' →
    us.all Ty.isLow = true → All2 Low vs vs'
  | [], [], [], _, _ => .nil
  | u :: us, v :: vs, v' :: vs', L, q => by
    rw [List.all_cons, Bool.and_eq_true] at q
    exact .cons (L.1.low q.1) (holdsL_low L.2 q.2)

theorem allSome_mem {α β : Type} {f : α → Option β} : ∀ {l : List α} {m : List β}, allSome f l = some m → ∀ a ∈ l,
    ∃ b ∈ m, f a = some b
  | [], _, _, _, h => by cases h
  | a :: l, m, e, x, h => by
    unfold allSome at e
    generalize q : f a = o at e
    generalize q' : allSome f l = o' at e
    rcases o with _ | b
    · cases e
    · rcases o' with _ | m'
      · cases e
      · cases e
        cases h with
        | head => exact ⟨b, .head _, q⟩
        | tail _ h =>
          obtain ⟨c, i, j⟩ := allSome_mem q' x h
          exact ⟨c, .tail _ i, j⟩

/-! ### Expressions -/

/-- What the check supposes of the surroundings. -/
structure CallsLow (S : Sig) (C : PCtx) : Prop where
  call : ∀ f us u, S.call f us = some u → ∀ w vs vs' h h', HRel S.attr w h h' → HoldsL w us vs vs' →
    Match S.attr w (fun w => Holds w u) (C.call f vs h) (C.call f vs' h')
  glob : ∀ x t, S.glob x = some t → ∃ v, C.globals x = some v ∧ ∀ w, Holds w t v v
  meth : ∀ c m, S.meth c m = C.method c m
  prop : ∀ c a, S.prop c a = C.property c a
  copy : ∀ t w v v' h h', HRel S.attr w h h' → Holds w t v v' →
    SameEnd S.attr w (fun w => Holds w t) (C.copy v h) (C.copy v' h')

theorem getAttr_sound (K : CallsLow S C) {w : World} {h h' : Heap} (H : HRel S.attr w h h') {cs : List String}
    {a : String} {u : Ty} (e : S.getAttr cs a = some u) {v v' : Val} (q : Holds w (.inst cs) v v') :
    Match S.attr w (fun w => Holds w u) (getAttrP C v a h) (getAttrP C v' a h') := by
  obtain ⟨r, c, rfl, rfl, k, m⟩ := q
  obtain ⟨o, o', eo, eo', R⟩ := H.cell r _ k
  cases R with
  | inst R =>
    rename_i l l'
    unfold Sig.getAttr at e
    split at e
    · rename_i us eu
      obtain ⟨t, tm, et⟩ := allSome_mem eu c m
      simp only [getAttrP, eo, eo']
      rw [K.prop] at et
      generalize C.property c a = z at et
      rcases z with _ | f
      · simp only [Option.some.injEq] at et
        subst et
        rcases findAttr_attrs R (a := a) with ⟨x, y⟩ | ⟨x, y, ex, ey, q⟩
        · rw [x, y]; exact .quiet (.fail H _)
        · rw [ex, ey]; exact .quiet (.ok H (joinAll_holds e _ tm q))
      · simp only [] at et
        exact (K.call f _ _ et _ _ _ _ _ H
          (.intro (vs := []) (vs' := []) ⟨r, c, rfl, rfl, k, by simp⟩ trivial)).mono fun _ _ _ q => joinAll_holds e _ tm q
    · cases e

theorem callMeth_sound (K : CallsLow S C) {w : World} {h h' : Heap} (H : HRel S.attr w h h') {cs : List String}
    {m : String} {us : List Ty} {u : Ty} (e : S.callMeth cs m us = some u) {v v' : Val} (q : Holds w (.inst cs) v v')
    {vs vs' : List Val} (L : HoldsL w us vs vs') :
    Match S.attr w (fun w => Holds w u) (callMethP C v m vs h) (callMethP C v' m vs' h') := by
  obtain ⟨r, c, rfl, rfl, k, mc⟩ := q
  obtain ⟨o, o', eo, eo', R⟩ := H.cell r _ k
  cases R with
  | inst R =>
    rename_i l l'
    unfold Sig.callMeth at e
    split at e
    · rename_i xs eu
      obtain ⟨t, tm, et⟩ := allSome_mem eu c mc
      simp only [callMethP, eo, eo']
      rw [K.meth] at et
      generalize C.method c m = z at et
      rcases z with _ | ⟨f, b⟩
      · cases et
      · simp only [] at et ⊢
        refine (K.call f _ _ et _ _ _ _ _ H ?_).mono fun _ _ _ q => joinAll_holds e _ tm q
        cases b
        · exact ⟨⟨r, c, rfl, rfl, k, by simp⟩, L⟩
        · exact L
    · cases e

theorem meth_sound {w : World} {h h' : Heap} (H : HRel S.attr w h h') {t u : Ty} {m : String} {us : List Ty}
    (e : tyMeth t m us = some u) {v v' : Val} (q : Holds w t v v') {vs vs' : List Val} (L : HoldsL w us vs vs') :
    Match S.attr w (fun w => Holds w u) (callMethP C v m vs h) (callMethP C v' m vs' h') := by
  obtain ⟨⟨b, b'⟩, g⟩ := meth_ty H q L e
  have key : ∀ (v : Val) (h : Heap) (vs : List Val), builtinVal w v → (∀ (r : Nat) c l, h[r]? = some (.inst c l) →
      w[r]? = some (.inst c)) → callMethP C v m vs h = note (.use m) (quiet (builtinMeth v m vs h)) := by
    intro v h vs b x
    unfold callMethP
    cases v <;> try rfl
    rename_i r
    simp only []
    split
    · rename_i c l e
      exact absurd (x r c l e) (b c)
    · rfl
  have side : ∀ {o o' : Heap} , HRel S.attr w o o' → (∀ (r : Nat) c l, o[r]? = some (.inst c l) → w[r]? = some (.inst c)) ∧
      (∀ (r : Nat) c l, o'[r]? = some (.inst c l) → w[r]? = some (.inst c)) := by
    intro o o' H
    constructor
    · intro r c l e
      rcases H.at r with ⟨x, -⟩ | ⟨k, p, p', ek, x, y, R⟩
      · rw [x] at e; cases e
      · rw [x] at e; cases e; cases R; exact ek
    · intro r c l e
      rcases H.at r with ⟨-, x⟩ | ⟨k, p, p', ek, x, y, R⟩
      · rw [x] at e; cases e
      · rw [y] at e; cases e; cases R; exact ek
  rw [key v h vs b (side H).1, key v' h' vs' b' (side H).2]
  exact .note _ (.quiet g)

theorem applyBuiltin_sound (K : CallsLow S C) {w : World} {h h' : Heap} (H : HRel S.attr w h h') {f : String}
    {us : List Ty} {u : Ty}
    (e : (if same f "deepcopy" then (match us with | [t] => some t | _ => none) else tyBuiltin f us) = some u)
    {vs vs' : List Val} (L : HoldsL w us vs vs') :
    Match S.attr w (fun w => Holds w u) (applyBuiltinP C f vs h) (applyBuiltinP C f vs' h') := by
  unfold applyBuiltinP
  refine .note _ (.quiet ?_)
  by_cases q : same f "deepcopy" = true
  · rw [if_pos q] at e
    cases same_iff.mp q
    split at e
    · rename_i t
      cases e
      obtain ⟨v, x, v', x', rfl, rfl, a, b⟩ := L.cons
      obtain ⟨rfl, rfl⟩ := b.nil
      exact K.copy _ _ _ _ _ _ H a
    · cases e
  · rw [if_neg q] at e
    have n : f ≠ "deepcopy" := fun z => q (same_iff.mpr z)
    have g := builtin_ty H L e
    split
    · exact absurd rfl n
    · split
      · exact absurd rfl n
      · exact g

theorem evalComp_sound {R : World → Val → Val → Prop} {s : Ty} {f f' : Val → Heap → Path Val} {w₀ : World}
    {A : String → String → Ty}
    (g : ∀ w v v' h h', TyMore w₀ w → HRel A w h h' → Holds w s v v' → Match A w R (f v h) (f' v' h'))
    (m : ∀ w w' v v', TyMore w w' → R w v v' → R w' v v') :
    ∀ {w : World} {l l' : List Val} {h h' : Heap}, TyMore w₀ w → HRel A w h h' → All2 (Holds w s) l l' →
      Match A w (fun w => All2 (R w)) (evalCompP f l h) (evalCompP f' l' h')
  | _, _, _, _, _, _, H, .nil => .quiet (.ok H .nil)
  | _, _, _, _, _, x, H, .cons a t => by
    unfold evalCompP
    refine .note _ ((g _ _ _ _ _ x H a).pThen fun w1 v v' h1 h1' x1 H1 r1 => ?_)
    refine (evalComp_sound g m (x.trans x1) H1 (t.mono fun _ _ q => q.mono x1)).pThen fun w2 b b' h2 h2' x2 H2 r2 => ?_
    exact .quiet (.ok H2 (.cons (m _ _ _ _ x2 r1) r2))

theorem Match.and_left {A : String → String → Ty} {w : World} {α : Type} {R : World → α → α → Prop} {o o' : Path α}
    (M : Match A w R o o') {Q : α → Prop} (q : ∀ a h, o.1 = (.ok a, h) → Q a) :
    Match A w (fun w a a' => R w a a' ∧ Q a) o o' := by
  obtain ⟨⟨w', x, H, r⟩, e⟩ := M
  refine ⟨⟨w', x, H, ?_⟩, e⟩
  rcases r with ⟨a, a', e1, e2, r⟩ | r
  · exact .inl ⟨a, a', e1, e2, r, q a o.1.2 (by rw [← e1])⟩
  · exact .inr r

theorem keyed_eval (env : Env) {es : List Expr} (k : keyed es = true) (h : Heap) (vs : List Val) (h' : Heap)
    (e : (evalsP C env es h).1 = (.ok vs, h')) : ∃ k us, byteKey k = true ∧ vs = .str k :: us := by
  cases es with
  | nil => cases k
  | cons a es =>
    cases a <;> try cases k
    rename_i s
    unfold keyed at k
    rw [evalsP, evalP] at e
    rw [pThen_fst, quiet_fst] at e
    simp only [ok, andThen] at e
    rw [pThen_fst] at e
    generalize (evalsP C env es h).1 = o at e
    obtain ⟨r, g⟩ := o
    cases r with
    | error x => simp [andThen] at e
    | ok us =>
      simp only [andThen, quiet, Prod.mk.injEq, Except.ok.injEq] at e
      exact ⟨s, us, k, e.1.symm⟩

theorem emptyArray_eval {env : Env} {e : Expr} (q : emptyArray e = true) (h : Heap) :
    evalP C env e h = ((.ok (.ref h.length), h ++ [.bytearray []]), [.use "bytearray"]) := by
  unfold emptyArray at q
  split at q
  · cases same_iff.mp q
    rfl
  · cases q

theorem someTurns_eval {env : Env} {e : Expr} (q : someTurns e = true) (h : Heap) (v : Val) (h' : Heap)
    (i : (evalP C env e h).1 = (.ok v, h')) : ∃ x l, v = .tuple (x :: l) := by
  unfold someTurns at q
  split at q
  · rename_i f n
    cases same_iff.mp q
    have : (evalP C env (.builtin "range" [.int (.ofNat (n + 1))]) h).1 = (.ok (.tuple (pyRange 0 (.ofNat (n + 1)) 1)), h) := rfl
    rw [this] at i
    cases i
    have len : ((Int.ofNat (n + 1)) - 0 + 1 - 1).fdiv 1 = Int.ofNat (n + 1) := by simp
    unfold pyRange
    simp only [len]
    rw [if_pos (by decide)]
    simp only [Int.toNat_natCast, Int.ofNat_eq_natCast]
    rw [List.range_succ_eq_map]
    exact ⟨_, _, rfl⟩
  · cases q

theorem truth_flag {w : World} {b b' : Val} (q : Holds w .flag b b') : ∃ x y, truth b = some x ∧ truth b' = some y := by
  obtain ⟨x, y, rfl, rfl⟩ := q
  exact ⟨x, y, rfl, rfl⟩

mutual

theorem te_sound (K : CallsLow S C) : ∀ (e : Expr) (Γ : TEnv) (t : Ty), te S Γ e = some t → ∀ w env env' h h',
    HRel S.attr w h h' → EnvRel w Γ env env' →
    Match S.attr w (fun w => Holds w t) (evalP C env e h) (evalP C env' e h')
  | .none, Γ, t, q, w, env, env', h, h', H, E => by
    rw [te] at q; cases q; rw [evalP, evalP]; exact .quiet (.ok H .none)
  | .bool b, Γ, t, q, w, env, env', h, h', H, E => by
    rw [te] at q; cases q; rw [evalP, evalP]; exact .quiet (.ok H ⟨rfl, rfl⟩)
  | .int i, Γ, t, q, w, env, env', h, h', H, E => by
    rw [evalP, evalP]
    cases i with
    | ofNat n => rw [te] at q; cases q; exact .quiet (.ok H ⟨rfl, rfl⟩)
    | negSucc n => rw [te] at q; cases q; exact .quiet (.ok H ⟨_, rfl, rfl⟩)
  | .str s, Γ, t, q, w, env, env', h, h', H, E => by
    rw [te] at q; cases q; rw [evalP, evalP]; exact .quiet (.ok H ⟨_, rfl, rfl⟩)
  | .bytes b, Γ, t, q, w, env, env', h, h', H, E => by
    rw [te] at q; cases q; rw [evalP, evalP]; exact .quiet (.ok H ⟨.bytes rfl, trivial⟩)
  | .name x, Γ, t, q, w, env, env', h, h', H, E => by
    rw [te] at q
    obtain ⟨v, v', a, b, c⟩ := E x t q
    rw [evalP, evalP, a, b]
    exact .quiet (.ok H c)
  | .glob x, Γ, t, q, w, env, env', h, h', H, E => by
    rw [te] at q
    obtain ⟨v, a, c⟩ := K.glob x t q
    rw [evalP, evalP, a]
    exact .quiet (.ok H (c w))
  | .attr e a, Γ, t, q, w, env, env', h, h', H, E => by
    rw [te] at q
    split at q
    · rename_i cs et
      rw [evalP, evalP]
      refine (te_sound K e Γ _ et w env env' h h' H E).pThen fun w1 v v' h1 h1' x1 H1 r1 => ?_
      exact getAttr_sound K H1 q r1
    · cases q
  | .bin op a b, Γ, t, q, w, env, env', h, h', H, E => by
    rw [te] at q
    split at q
    · rename_i s u es eu
      rw [evalP, evalP]
      refine (te_sound K a Γ _ es w env env' h h' H E).pThen fun w1 v v' h1 h1' x1 H1 r1 => ?_
      refine (te_sound K b Γ _ eu w1 env env' h1 h1' H1 (E.mono x1)).pThen fun w2 y y' h2 h2' x2 H2 r2 => ?_
      exact .quiet (binop_ty H2 (r1.mono x2) r2 q)
    · cases q
  | .cmp op a b, Γ, t, q, w, env, env', h, h', H, E => by
    rw [te] at q
    split at q
    · rename_i s u es eu
      rw [evalP, evalP]
      refine (te_sound K a Γ _ es w env env' h h' H E).pThen fun w1 v v' h1 h1' x1 H1 r1 => ?_
      by_cases k : (isEq op && emptyArray b && s.isLow) = true
      · rw [if_pos k] at q
        cases q
        simp only [Bool.and_eq_true] at k
        rw [emptyArray_eval k.1.2, emptyArray_eval k.1.2]
        have A1 := H1.alloc (k := .bytearray) (o := .bytearray []) (o' := .bytearray []) (.bytearray rfl)
        have g := cmp_empty A1 (op := op) (by
          have := k.1.1
          cases op <;> first | exact .inl rfl | exact .inr rfl | cases this) (r1.low k.2) (r := h1.length) (by simp)
          (by rw [← H1.same_len]; simp)
        rw [H1.same_len]
        obtain ⟨w2, x2, H2, r2⟩ := g
        exact ⟨⟨w2, (TyMore.append _ _).trans x2, H2, r2⟩, rfl⟩
      · rw [if_neg k] at q
        refine (te_sound K b Γ _ eu w1 env env' h1 h1' H1 (E.mono x1)).pThen fun w2 y y' h2 h2' x2 H2 r2 => ?_
        exact .quiet (cmpop_ty H2 (r1.mono x2) r2 q)
    · cases q
  | .and a b, Γ, t, q, w, env, env', h, h', H, E => by
    rw [te] at q
    split at q
    · rename_i c u es eu
      rw [evalP, evalP]
      refine (te_sound K a Γ _ es w env env' h h' H E).pThen fun w1 v v' h1 h1' x1 H1 r1 => ?_
      obtain ⟨rfl, rfl⟩ := r1
      cases c
      · cases q
        exact .note _ (.quiet (.ok H1 ⟨rfl, rfl⟩))
      · cases q
        exact .note _ (te_sound K b Γ _ eu w1 env env' h1 h1' H1 (E.mono x1))
    · rename_i s u _ es eu
      split at q
      · rename_i k
        rw [evalP, evalP]
        refine (te_sound K a Γ _ es w env env' h h' H E).pThen fun w1 v v' h1 h1' x1 H1 r1 => ?_
        simp only [truth_low (r1.low k)]
        generalize truth v' = o
        rcases o with _ | _ | _
        · exact .quiet (.fail H1 _)
        · exact .note _ (.quiet (.ok H1 (r1.sub (Ty.join_sub q).1)))
        · exact .note _ ((te_sound K b Γ _ eu w1 env env' h1 h1' H1 (E.mono x1)).mono fun _ _ _ z =>
            z.sub (Ty.join_sub q).2)
      · cases q
    · cases q
  | .or a b, Γ, t, q, w, env, env', h, h', H, E => by
    rw [te] at q
    split at q
    · rename_i c u es eu
      rw [evalP, evalP]
      refine (te_sound K a Γ _ es w env env' h h' H E).pThen fun w1 v v' h1 h1' x1 H1 r1 => ?_
      obtain ⟨rfl, rfl⟩ := r1
      cases c
      · cases q
        exact .note _ (te_sound K b Γ _ eu w1 env env' h1 h1' H1 (E.mono x1))
      · cases q
        exact .note _ (.quiet (.ok H1 ⟨rfl, rfl⟩))
    · rename_i s u _ es eu
      split at q
      · rename_i k
        rw [evalP, evalP]
        refine (te_sound K a Γ _ es w env env' h h' H E).pThen fun w1 v v' h1 h1' x1 H1 r1 => ?_
        simp only [truth_low (r1.low k)]
        generalize truth v' = o
        rcases o with _ | _ | _
        · exact .quiet (.fail H1 _)
        · exact .note _ ((te_sound K b Γ _ eu w1 env env' h1 h1' H1 (E.mono x1)).mono fun _ _ _ z =>
            z.sub (Ty.join_sub q).2)
        · exact .note _ (.quiet (.ok H1 (r1.sub (Ty.join_sub q).1)))
      · cases q
    · cases q
  | .not a, Γ, t, q, w, env, env', h, h', H, E => by
    rw [te] at q
    rw [evalP, evalP]
    split at q
    · rename_i b es
      cases q
      refine (te_sound K a Γ _ es w env env' h h' H E).pThen fun w1 v v' h1 h1' x1 H1 r1 => ?_
      obtain ⟨rfl, rfl⟩ := r1
      exact .quiet (.ok H1 ⟨rfl, rfl⟩)
    · rename_i es
      cases q
      refine (te_sound K a Γ _ es w env env' h h' H E).pThen fun w1 v v' h1 h1' x1 H1 r1 => ?_
      obtain ⟨x, y, rfl, rfl⟩ := r1
      exact .quiet (.ok H1 ⟨_, _, rfl, rfl⟩)
    · rename_i s _ _ es
      refine (te_sound K a Γ _ es w env env' h h' H E).pThen fun w1 v v' h1 h1' x1 H1 r1 => ?_
      by_cases k : s.isLow = true
      · rw [if_pos k] at q
        cases q
        simp only [truth_low (r1.low k)]
        generalize truth v' = o
        rcases o with _ | b
        · exact .quiet (.fail H1 _)
        · exact .quiet (.ok H1 ⟨_, rfl, rfl⟩)
      · rw [if_neg k] at q
        by_cases k' : s.isInt = true
        · rw [if_pos k'] at q
          cases q
          obtain ⟨x, y, rfl, rfl⟩ := r1.isInt k'
          exact .quiet (.ok H1 ⟨_, _, rfl, rfl⟩)
        · rw [if_neg k'] at q
          cases q
    · cases q
  | .neg a, Γ, t, q, w, env, env', h, h', H, E => by
    rw [te] at q
    rw [evalP, evalP]
    split at q
    · rename_i s es
      refine (te_sound K a Γ _ es w env env' h h' H E).pThen fun w1 v v' h1 h1' x1 H1 r1 => ?_
      by_cases k : s.isLow = true
      · rw [if_pos k] at q
        cases q
        have l := r1.low k
        cases l <;> first | exact .quiet (.fail H1 _) | exact .quiet (.ok H1 ⟨_, rfl, rfl⟩)
      · rw [if_neg k] at q; cases q
    · cases q
  | .index e i, Γ, t, q, w, env, env', h, h', H, E => by
    rw [te] at q
    rw [evalP, evalP]
    split at q
    · rename_i s u es eu
      refine (te_sound K e Γ _ es w env env' h h' H E).pThen fun w1 v v' h1 h1' x1 H1 r1 => ?_
      refine (te_sound K i Γ _ eu w1 env env' h1 h1' H1 (E.mono x1)).pThen fun w2 y y' h2 h2' x2 H2 r2 => ?_
      exact .quiet (getItem_ty H2 (r1.mono x2) r2 q)
    · cases q
  | .slice e lo hi, Γ, t, q, w, env, env', h, h', H, E => by
    rw [te] at q
    rw [evalP, evalP]
    split at q
    · rename_i s es
      by_cases k : (teo S Γ lo && teo S Γ hi) = true
      · rw [if_pos k] at q
        rw [Bool.and_eq_true] at k
        refine (te_sound K e Γ _ es w env env' h h' H E).pThen fun w1 v v' h1 h1' x1 H1 r1 => ?_
        refine (teo_sound K lo Γ k.1 w1 env env' h1 h1' H1 (E.mono x1)).pThen fun w2 y y' h2 h2' x2 H2 r2 => ?_
        refine (teo_sound K hi Γ k.2 w2 env env' h2 h2' H2 (E.mono (x1.trans x2))).pThen
          fun w3 z z' h3 h3' x3 H3 r3 => ?_
        subst r2 r3
        exact .quiet (getSlice_ty H3 ((r1.mono x2).mono x3) _ _ q)
      · rw [if_neg k] at q; cases q
    · cases q
  | .tuple es, Γ, t, q, w, env, env', h, h', H, E => by
    rw [te] at q
    rw [evalP, evalP]
    split at q
    · rename_i us eu
      refine (tes_sound K es Γ _ eu w env env' h h' H E).pThen fun w1 v v' h1 h1' x1 H1 r1 => ?_
      by_cases k : us.all Ty.isScalar = true
      · rw [if_pos k] at q
        cases q
        obtain ⟨e1, e2⟩ := holdsL_scalar r1 k
        subst e1
        exact .quiet (.ok H1 ⟨_, e2, rfl, rfl⟩)
      · rw [if_neg k] at q
        by_cases k' : us.all Ty.isLow = true
        · rw [if_pos k'] at q
          cases q
          exact .quiet (.ok H1 ⟨.tuple (LowL.of (holdsL_low r1 k')), trivial⟩)
        · rw [if_neg k'] at q; cases q
    · cases q
  | .list es, Γ, t, q, w, env, env', h, h', H, E => by
    rw [te] at q
    rw [evalP, evalP]
    split at q
    · rename_i us eu
      refine (tes_sound K es Γ _ eu w env env' h h' H E).pThen fun w1 v v' h1 h1' x1 H1 r1 => ?_
      by_cases k' : us.all Ty.isLow = true
      · rw [if_pos k'] at q
        cases q
        exact .quiet (.alloc H1 (.list (holdsL_low r1 k')) ⟨.ref _, by simp [listLike]⟩)
      · rw [if_neg k'] at q; cases q
    · cases q
  | .comp elt x iter, Γ, t, q, w, env, env', h, h', H, E => by
    rw [te] at q
    rw [evalP, evalP]
    split at q
    · rename_i s es
      split at q
      · rename_i u eu
        split at q
        · rename_i y ey
          by_cases k : y.isLow = true
          · rw [if_pos k] at q
            cases q
            refine (te_sound K iter Γ _ es w env env' h h' H E).pThen fun w1 v v' h1 h1' x1 H1 r1 => ?_
            rcases elems_item H1 eu r1 with ⟨a, b⟩ | ⟨l, l', a, b, z⟩
            · rw [a, b]; exact .quiet (.fail H1 _)
            · rw [a, b]
              refine (evalComp_sound (w₀ := w1) (R := fun _ => Low) (s := u) (fun w2 v v' h2 h2' x2 H2 r2 => ?_) (fun _ _ _ _ _ q => q)
                (TyMore.refl _) H1 z).pThen fun w3 vs vs' h3 h3' x3 H3 r3 => ?_
              · exact (te_sound K elt _ _ ey w2 _ _ h2 h2' H2 ((E.mono (x1.trans x2)).set x r2)).mono
                  fun _ _ _ q => q.low k
              · exact .quiet (.alloc H3 (.list r3) ⟨.ref _, by simp [listLike]⟩)
          · rw [if_neg k] at q; cases q
        · cases q
      · cases q
    · cases q
  | .builtin f args, Γ, t, q, w, env, env', h, h', H, E => by
    rw [te] at q
    rw [evalP, evalP]
    split at q
    · rename_i us eu
      refine (tes_sound K args Γ _ eu w env env' h h' H E).pThen fun w1 v v' h1 h1' x1 H1 r1 => ?_
      exact applyBuiltin_sound K H1 q r1
    · cases q
  | .call f args, Γ, t, q, w, env, env', h, h', H, E => by
    rw [te] at q
    rw [evalP, evalP]
    split at q
    · rename_i us eu
      refine (tes_sound K args Γ _ eu w env env' h h' H E).pThen fun w1 v v' h1 h1' x1 H1 r1 => ?_
      exact K.call _ _ _ q _ _ _ _ _ H1 r1
    · cases q
  | .meth e m args, Γ, t, q, w, env, env', h, h', H, E => by
    rw [te] at q
    rw [evalP, evalP]
    split at q
    · rename_i cs us ec eu
      refine (te_sound K e Γ _ ec w env env' h h' H E).pThen fun w1 v v' h1 h1' x1 H1 r1 => ?_
      refine (tes_sound K args Γ _ eu w1 env env' h1 h1' H1 (E.mono x1)).pThen fun w2 vs vs' h2 h2' x2 H2 r2 => ?_
      exact callMeth_sound K H2 q (r1.mono x2) r2
    · rename_i o us _ ec eu
      refine (te_sound K e Γ _ ec w env env' h h' H E).pThen fun w1 v v' h1 h1' x1 H1 r1 => ?_
      by_cases k : (decide (o = .dict) && same m "get" && decide (us = [.str, .arr]) && keyed args) = true
      · rw [if_pos k] at q
        cases q
        simp only [Bool.and_eq_true, decide_eq_true_eq] at k
        obtain ⟨⟨⟨rfl, mg⟩, rfl⟩, kk⟩ := k
        cases same_iff.mp mg
        refine ((tes_sound K args Γ _ eu w1 env env' h1 h1' H1 (E.mono x1)).and_left
          (Q := fun vs => ∃ k us, byteKey k = true ∧ vs = .str k :: us) (fun vs g z => keyed_eval env kk h1 vs g z)).pThen
          fun w2 vs vs' h2 h2' x2 H2 r2 => ?_
        obtain ⟨L, k, us, bk, rfl⟩ := r2
        obtain ⟨a, b, a', b', e1, e2, ha, L2⟩ := L.cons
        obtain ⟨c, d, c', d', e3, e4, hc, L3⟩ := L2.cons
        obtain ⟨rfl, rfl⟩ := L3.nil
        cases e1
        obtain ⟨s, es, es'⟩ := ha
        cases es
        subst es' e2 e3 e4
        have hv := r1.mono x2
        have g := get_bytes H2 bk hv hc
        obtain ⟨lv, l, rfl, -⟩ := hv
        cases lv
        exact .note _ (.quiet g)
      · rw [if_neg k] at q
        refine (tes_sound K args Γ _ eu w1 env env' h1 h1' H1 (E.mono x1)).pThen fun w2 vs vs' h2 h2' x2 H2 r2 => ?_
        exact meth_sound H2 q (r1.mono x2) r2
    · cases q
  | .new cls args, Γ, t, q, w, env, env', h, h', H, E => by
    rw [te] at q
    rw [evalP, evalP]
    split at q
    · rename_i us f b eu em
      split at q
      · rename_i y ey
        cases q
        refine (tes_sound K args Γ _ eu w env env' h h' H E).pThen fun w1 v v' h1 h1' x1 H1 r1 => ?_
        rw [K.meth] at em
        unfold instantiateP
        simp only [em]
        have len : h1.length = w1.length := H1.len
        have len' : h1'.length = w1.length := H1.len'
        rw [len, len']
        have A1 := H1.alloc (k := .inst cls) (o := .inst cls []) (o' := .inst cls []) (.inst .nil)
        have here : Holds (w1 ++ [.inst cls]) (.inst [cls]) (.ref w1.length) (.ref w1.length) :=
          ⟨_, cls, rfl, rfl, by simp, by simp⟩
        refine Match.later (TyMore.append w1 [.inst cls]) ?_
        refine (K.call _ _ _ ey _ _ _ _ _ A1 (.intro here (r1.mono (TyMore.append _ _)))).pThen
          fun w2 _ _ h2 h2' x2 H2 _ => ?_
        exact .quiet (.ok H2 (here.mono x2))
      · cases q
    · cases q

theorem tes_sound (K : CallsLow S C) : ∀ (es : List Expr) (Γ : TEnv) (us : List Ty), tes S Γ es = some us →
    ∀ w env env' h h', HRel S.attr w h h' → EnvRel w Γ env env' →
    Match S.attr w (fun w => HoldsL w us) (evalsP C env es h) (evalsP C env' es h')
  | [], Γ, us, q, w, env, env', h, h', H, E => by
    rw [tes] at q; cases q; rw [evalsP, evalsP]; exact .quiet (.ok H trivial)
  | e :: es, Γ, us, q, w, env, env', h, h', H, E => by
    rw [tes] at q
    split at q
    · rename_i t vs et ev
      cases q
      rw [evalsP, evalsP]
      refine (te_sound K e Γ _ et w env env' h h' H E).pThen fun w1 v v' h1 h1' x1 H1 r1 => ?_
      refine (tes_sound K es Γ _ ev w1 env env' h1 h1' H1 (E.mono x1)).pThen fun w2 y y' h2 h2' x2 H2 r2 => ?_
      exact .quiet (.ok H2 ⟨r1.mono x2, r2⟩)
    · cases q

theorem teo_sound (K : CallsLow S C) : ∀ (e : Option Expr) (Γ : TEnv), teo S Γ e = true → ∀ w env env' h h',
    HRel S.attr w h h' → EnvRel w Γ env env' →
    Match S.attr w (fun _ a b => a = b) (evalOptP C env e h) (evalOptP C env' e h')
  | .none, Γ, q, w, env, env', h, h', H, E => by rw [evalOptP, evalOptP]; exact .quiet (.ok H rfl)
  | some e, Γ, q, w, env, env', h, h', H, E => by
    rw [teo] at q
    split at q
    · rename_i t et
      rw [evalOptP, evalOptP]
      refine (te_sound K e Γ _ et w env env' h h' H E).pThen fun w1 v v' h1 h1' x1 H1 r1 => ?_
      have l := r1.low q
      cases l <;> first | exact .quiet (.fail H1 _) | exact .quiet (.ok H1 rfl)
    · cases q

end

/-! ### Statements -/

/-- Ends of statements which correspond: both return, or both go on. -/
def FRel (r : Ty) (e : Option TEnv) (w : World) : Flow → Flow → Prop
  | .next env, .next env' => ∃ Γ, e = some Γ ∧ EnvRel w Γ env env'
  | .ret v, .ret v' => Holds w r v v'
  | _, _ => False

theorem FRel.none {r : Ty} {e : Option TEnv} {w : World} {a a' : Flow} (q : FRel r none w a a') : FRel r e w a a' := by
  cases a <;> cases a' <;> first | exact q | (obtain ⟨_, z, _⟩ := q; cases z)

theorem FRel.le {r : Ty} {Γ Δ : TEnv} (i : ∀ w env env', EnvRel w Γ env env' → EnvRel w Δ env env') {w : World}
    {a a' : Flow} (q : FRel r (some Γ) w a a') : FRel r (some Δ) w a a' := by
  cases a <;> cases a' <;> try exact q
  obtain ⟨_, z, E⟩ := q
  cases z
  exact ⟨_, rfl, i _ _ _ E⟩

theorem Match.pRun {A : String → String → Ty} {w : World} {r : Ty} {e e' : Option TEnv} {o o' : Path Flow}
    (m : Match A w (FRel r e) o o') {f f' : Env → Heap → Path Flow}
    (k : ∀ Δ, e = some Δ → ∀ w' env env' h h', TyMore w w' → HRel A w' h h' → EnvRel w' Δ env env' →
      Match A w' (FRel r e') (f env h) (f' env' h')) :
    Match A w (FRel r e') (pRun o f) (pRun o' f') := by
  obtain ⟨⟨x, h⟩, l⟩ := o
  obtain ⟨⟨x', h'⟩, l'⟩ := o'
  obtain ⟨⟨w', ex, H, q⟩, i⟩ := m
  simp only at i H q
  subst i
  rcases q with ⟨a, a', rfl, rfl, q⟩ | ⟨e, rfl, rfl⟩
  · cases a <;> cases a' <;> try cases q
    · rename_i env env' Δ q
      obtain ⟨⟨w'', x', H', q'⟩, e'⟩ := k Δ q.1 w' env env' h h' ex H q.2
      refine ⟨⟨w'', ex.trans x', H', q'⟩, ?_⟩
      show l ++ (f env h).2 = l ++ (f' env' h').2
      rw [e']
    · exact ⟨⟨w', ex, H, .inl ⟨_, _, rfl, rfl, q⟩⟩, rfl⟩
  · exact ⟨⟨w', ex, H, .inr ⟨e, rfl, rfl⟩⟩, rfl⟩

theorem setNames_low {w : World} : ∀ (xs : List String) {vs vs' : List Val} {Γ : TEnv} {env env' : Env},
    All2 Low vs vs' → EnvRel w Γ env env' →
    (setNames xs vs env = none ∧ setNames xs vs' env' = none) ∨ ∃ f f', setNames xs vs env = some f ∧
      setNames xs vs' env' = some f' ∧ EnvRel w (xs.foldl (fun Γ x => Γ.set x .low) Γ) f f'
  | [], _, _, _, _, _, .nil, E => .inr ⟨_, _, rfl, rfl, E⟩
  | [], _, _, _, _, _, .cons _ _, _ => .inl ⟨rfl, rfl⟩
  | _ :: _, _, _, _, _, _, .nil, _ => .inl ⟨rfl, rfl⟩
  | x :: xs, _, _, _, _, _, .cons a l, E => setNames_low xs l (E.set x (t := .low) a)

theorem ta_sound (K : CallsLow S C) {Γ Δ : TEnv} {r u : Ty} {t : Target} (q : ta S Γ u t = some Δ) {w : World}
    {env env' : Env} {h h' : Heap} (H : HRel S.attr w h h') (E : EnvRel w Γ env env') {v v' : Val}
    (hv : Holds w u v v') :
    Match S.attr w (FRel r (some Δ)) (assignP C env t v h) (assignP C env' t v' h') := by
  cases t with
  | name x =>
    cases q
    exact .quiet (.ok H ⟨_, rfl, E.set x hv⟩)
  | attr e a =>
    simp only [ta] at q
    split at q
    · rename_i o eo
      split at q
      · rename_i k
        cases q
        refine (te_sound K e Γ _ eo w env env' h h' H E).pThen fun w1 x x' h1 h1' x1 H1 r1 => ?_
        refine (Match.quiet (setAttr_ty H1 r1 (hv.mono x1) k)).pThen fun w2 _ _ h2 h2' x2 H2 _ => ?_
        exact .quiet (.ok H2 ⟨_, rfl, E.mono (x1.trans x2)⟩)
      · cases q
    · cases q
  | index e i =>
    simp only [ta] at q
    split at q
    · rename_i o j eo ej
      split at q
      · rename_i k
        cases q
        refine (te_sound K e Γ _ eo w env env' h h' H E).pThen fun w1 x x' h1 h1' x1 H1 r1 => ?_
        refine (te_sound K i Γ _ ej w1 env env' h1 h1' H1 (E.mono x1)).pThen fun w2 y y' h2 h2' x2 H2 r2 => ?_
        refine (Match.quiet (setItem_ty H2 (r1.mono x2) r2 ((hv.mono x1).mono x2) k)).pThen
          fun w3 _ _ h3 h3' x3 H3 _ => ?_
        exact .quiet (.ok H3 ⟨_, rfl, E.mono ((x1.trans x2).trans x3)⟩)
      · cases q
    · cases q
  | slice e lo hi =>
    simp only [ta] at q
    split at q
    · rename_i o eo
      split at q
      · rename_i k
        cases q
        simp only [Bool.and_eq_true] at k
        obtain ⟨⟨⟨k1, k2⟩, k3⟩, k4⟩ := k
        refine (te_sound K e Γ _ eo w env env' h h' H E).pThen fun w1 x x' h1 h1' x1 H1 r1 => ?_
        refine (teo_sound K lo Γ k2 w1 env env' h1 h1' H1 (E.mono x1)).pThen fun w2 y y' h2 h2' x2 H2 r2 => ?_
        refine (teo_sound K hi Γ k3 w2 env env' h2 h2' H2 (E.mono (x1.trans x2))).pThen
          fun w3 z z' h3 h3' x3 H3 r3 => ?_
        subst r2 r3
        refine (Match.quiet (setSlice_low H3 (r1.low k1) (hv.low k4) _ _)).pThen fun w4 _ _ h4 h4' x4 H4 _ => ?_
        exact .quiet (.ok H4 ⟨_, rfl, E.mono (((x1.trans x2).trans x3).trans x4)⟩)
      · cases q
    · cases q
  | names xs =>
    simp only [ta] at q
    split at q
    · rename_i k
      cases q
      simp only [assignP]
      rcases elems_item H (t := .seq) (s := .low) rfl (hv.sub k) with ⟨a, b⟩ | ⟨l, l', a, b, z⟩
      · rw [a, b]; exact .quiet (.fail H _)
      · rw [a, b]
        simp only []
        rcases setNames_low xs z E with ⟨c, d⟩ | ⟨f, f', c, d, F⟩
        · rw [c, d]; exact .quiet (.fail H _)
        · rw [c, d]; exact .quiet (.ok H ⟨_, rfl, F⟩)
    · cases q
  | attrs xs => cases q

/-- A loop: `I` holds at the beginning of every turn, `D` at the end, `J` after the loop. -/
theorem for_sound {A : String → String → Ty} {r s : Ty} {x : String} {I D J : TEnv} {f : Env → Heap → Path Flow}
    (g : ∀ w env env' h h', HRel A w h h' → EnvRel w (I.set x s) env env' →
      Match A w (FRel r (some D)) (f env h) (f env' h'))
    (di : ∀ w env env', EnvRel w D env env' → EnvRel w I env env')
    (dj : ∀ w env env', EnvRel w D env env' → EnvRel w J env env') :
    ∀ {w : World} {l l' : List Val} {env env' : Env} {h h' : Heap}, HRel A w h h' → All2 (Holds w s) l l' →
      EnvRel w I env env' → (l = [] → EnvRel w J env env') →
      Match A w (FRel r (some J)) (forLoopP x f l env h) (forLoopP x f l' env' h')
  | _, _, _, _, _, _, _, H, .nil, _, k => .quiet (.ok H ⟨_, rfl, k rfl⟩)
  | w, _, _, env, env', h, h', H, .cons a l, E, _ => by
    unfold forLoopP
    refine .note _ ((g _ _ _ _ _ H (E.set x a)).pRun fun Δ eΔ w1 e1 e1' h1 h1' x1 H1 E1 => ?_)
    cases eΔ
    exact for_sound g di dj H1 (l.mono fun _ _ q => q.mono x1) (di _ _ _ E1) fun _ => dj _ _ _ E1

/-- A loop whose body never ends normally. -/
theorem for_never {A : String → String → Ty} {r s : Ty} {x : String} {I : TEnv} {f : Env → Heap → Path Flow}
    (g : ∀ w env env' h h', HRel A w h h' → EnvRel w (I.set x s) env env' →
      Match A w (FRel r none) (f env h) (f env' h')) {w : World} {l l' : List Val} {env env' : Env} {h h' : Heap}
    (H : HRel A w h h') (L : All2 (Holds w s) l l') (E : EnvRel w I env env') :
    Match A w (FRel r (some I)) (forLoopP x f l env h) (forLoopP x f l' env' h') := by
  cases L with
  | nil => exact .quiet (.ok H ⟨_, rfl, E⟩)
  | cons a l =>
    unfold forLoopP
    refine .note _ ((g _ _ _ _ _ H (E.set x a)).pRun fun Δ eΔ => ?_)
    cases eΔ

theorem joinEnd_left {r : Ty} {a b : Option TEnv} {w : World} {x x' : Flow} (q : FRel r a w x x') :
    FRel r (joinEnd a b) w x x' := by
  cases a with
  | none => exact q.none
  | some Γ =>
    cases b with
    | none => exact q
    | some Δ => exact q.le fun _ _ _ E => E.left

theorem joinEnd_right {r : Ty} {a b : Option TEnv} {w : World} {x x' : Flow} (q : FRel r b w x x') :
    FRel r (joinEnd a b) w x x' := by
  cases b with
  | none => exact q.none
  | some Γ =>
    cases a with
    | none => exact q
    | some Δ => exact q.le fun _ _ _ E => E.right

mutual

theorem ts_sound (K : CallsLow S C) (r : Ty) : ∀ (s : Stmt) (Γ : TEnv) (e : Option TEnv), ts S r s Γ = some e →
    ∀ w env env' h h', HRel S.attr w h h' → EnvRel w Γ env env' →
    Match S.attr w (FRel r e) (execP C s env h) (execP C s env' h')
  | .pass, Γ, e, q, w, env, env', h, h', H, E => by
    rw [ts] at q; cases q; rw [execP, execP]; exact .note _ (.quiet (.ok H ⟨_, rfl, E⟩))
  | .assign t x, Γ, e, q, w, env, env', h, h', H, E => by
    rw [ts] at q
    rw [execP, execP]
    split at q
    · rename_i u eu
      split at q
      · rename_i Δ eΔ
        cases q
        refine .note _ ((te_sound K x Γ _ eu w env env' h h' H E).pThen fun w1 v v' h1 h1' x1 H1 r1 => ?_)
        exact ta_sound K eΔ H1 (E.mono x1) r1
      · cases q
    · cases q
  | .expr x, Γ, e, q, w, env, env', h, h', H, E => by
    rw [ts] at q
    rw [execP, execP]
    split at q
    · rename_i u eu
      cases q
      refine .note _ ((te_sound K x Γ _ eu w env env' h h' H E).pThen fun w1 v v' h1 h1' x1 H1 r1 => ?_)
      exact .quiet (.ok H1 ⟨_, rfl, E.mono x1⟩)
    · cases q
  | .ret x, Γ, e, q, w, env, env', h, h', H, E => by
    rw [ts] at q
    rw [execP, execP]
    split at q
    · rename_i u eu
      by_cases k : u.sub r = true
      · rw [if_pos k] at q
        cases q
        refine .note _ ((te_sound K x Γ _ eu w env env' h h' H E).pThen fun w1 v v' h1 h1' x1 H1 r1 => ?_)
        exact .quiet (.ok H1 (r1.sub k))
      · rw [if_neg k] at q; cases q
    · cases q
  | .if_ c t f, Γ, e, q, w, env, env', h, h', H, E => by
    rw [ts] at q
    rw [execP, execP]
    split at q
    · rename_i b eb
      refine .note _ ((te_sound K c Γ _ eb w env env' h h' H E).pThen fun w1 v v' h1 h1' x1 H1 r1 => ?_)
      obtain ⟨rfl, rfl⟩ := r1
      cases b
      · exact .note _ (tss_sound K r f Γ e q w1 env env' h1 h1' H1 (E.mono x1))
      · exact .note _ (tss_sound K r t Γ e q w1 env env' h1 h1' H1 (E.mono x1))
    · rename_i u _ eu
      by_cases k : u.isLow = true
      · rw [if_pos k] at q
        split at q
        · rename_i a b ea eb
          cases q
          refine .note _ ((te_sound K c Γ _ eu w env env' h h' H E).pThen fun w1 v v' h1 h1' x1 H1 r1 => ?_)
          simp only [truth_low (r1.low k)]
          generalize truth v' = o
          rcases o with _ | _ | _
          · exact .quiet (.fail H1 _)
          · exact .note _ ((tss_sound K r f Γ _ eb w1 env env' h1 h1' H1 (E.mono x1)).mono fun _ _ _ => joinEnd_right)
          · exact .note _ ((tss_sound K r t Γ _ ea w1 env env' h1 h1' H1 (E.mono x1)).mono fun _ _ _ => joinEnd_left)
        · cases q
      · rw [if_neg k] at q; cases q
    · cases q
  | .for_ x iter body, Γ, e, q, w, env, env', h, h', H, E => by
    rw [ts] at q
    rw [execP, execP]
    split at q
    · rename_i t et
      split at q
      · rename_i s es
        simp only [] at q
        generalize loopEnv (fun Δ => tss S r body (Δ.set x s)) Γ = I at q
        by_cases k : Γ.le I = true
        · rw [if_pos k] at q
          refine .note _ (((te_sound K iter Γ _ et w env env' h h' H E).and_left (Q := fun v => someTurns iter = true →
            ∃ x l, v = .tuple (x :: l)) (fun v g z st => someTurns_eval st h v g z)).pThen
              fun w1 v v' h1 h1' x1 H1 r1 => ?_)
          have g := fun (e : Option TEnv) (q : tss S r body (I.set x s) = some e) w env env' h h' H E =>
            tss_sound K r body (I.set x s) e q w env env' h h' H E
          rcases elems_item H1 es r1.1 with ⟨a, b⟩ | ⟨l, l', a, b, z⟩
          · rw [a, b]; exact .quiet (.fail H1 _)
          · rw [a, b]
            split at q
            · rename_i D eD
              by_cases kd : D.le I = true
              · rw [if_pos kd] at q
                cases q
                refine for_sound (g _ eD) (fun _ _ _ => EnvRel.le kd) ?_ H1 z ((E.mono x1).le k) ?_
                · intro w e e' q
                  by_cases st : someTurns iter = true
                  · rw [if_pos st]; exact q
                  · rw [if_neg st]; exact q.le kd
                · intro z
                  by_cases st : someTurns iter = true
                  · obtain ⟨y, m, rfl⟩ := r1.2 st
                    cases a
                    cases z
                  · rw [if_neg st]; exact (E.mono x1).le k
              · rw [if_neg kd] at q; cases q
            · rename_i eD
              cases q
              exact for_never (g _ eD) H1 z ((E.mono x1).le k)
            · cases q
        · rw [if_neg k] at q; cases q
      · cases q
    · cases q
  | .while_ _ _, _, _, q, _, _, _, _, _, _, _ => by rw [ts] at q; cases q
  | .raise cls msg, Γ, e, q, w, env, env', h, h', H, E => by
    rw [ts] at q; cases q; rw [execP, execP]; exact .note _ (.quiet (.fail H _))
  | .tryValueError _ _, _, _, q, _, _, _, _, _, _, _ => by rw [ts] at q; cases q

theorem tss_sound (K : CallsLow S C) (r : Ty) : ∀ (s : List Stmt) (Γ : TEnv) (e : Option TEnv), tss S r s Γ = some e →
    ∀ w env env' h h', HRel S.attr w h h' → EnvRel w Γ env env' →
    Match S.attr w (FRel r e) (execsP C s env h) (execsP C s env' h')
  | [], Γ, e, q, w, env, env', h, h', H, E => by
    rw [tss] at q; cases q; rw [execsP, execsP]; exact .quiet (.ok H ⟨_, rfl, E⟩)
  | s :: ss, Γ, e, q, w, env, env', h, h', H, E => by
    rw [tss] at q
    rw [execsP, execsP]
    split at q
    · rename_i Δ eΔ
      refine (ts_sound K r s Γ _ eΔ w env env' h h' H E).pRun fun Δ' z w1 e1 e1' h1 h1' x1 H1 E1 => ?_
      cases z
      exact tss_sound K r ss Δ e q w1 e1 e1' h1 h1' H1 E1
    · rename_i eΔ
      refine (ts_sound K r s Γ _ eΔ w env env' h h' H E).pRun fun Δ' z => ?_
      cases z
    · cases q

end

/-! ### Functions -/

theorem paramEnv_sound {w : World} : ∀ {xs : List String} {us : List Ty} {Γ Δ : TEnv} {vs vs' : List Val}
    {env env' : Env}, paramEnv xs us Γ = some Δ → HoldsL w us vs vs' → EnvRel w Γ env env' →
    ∃ f f', setNames xs vs env = some f ∧ setNames xs vs' env' = some f' ∧ EnvRel w Δ f f' ∧ xs.length = us.length
  | [], [], _, _, [], [], _, _, q, _, E => by cases q; exact ⟨_, _, rfl, rfl, E, rfl⟩
  | x :: xs, u :: us, _, _, v :: vs, v' :: vs', _, _, q, L, E => by
    obtain ⟨f, f', a, b, c, d⟩ := paramEnv_sound (xs := xs) q L.2 (E.set x L.1)
    exact ⟨f, f', a, b, c, by simp [d]⟩

theorem tf_sound (K : CallsLow S C) {d : FunDef} {us : List Ty} {r : Ty} (q : tf S d us r = true) {w : World} {h h' : Heap}
    (H : HRel S.attr w h h') {vs vs' : List Val} (L : HoldsL w us vs vs') :
    Match S.attr w (fun w => Holds w r) (runP C d vs h) (runP C d vs' h') := by
  unfold tf at q
  split at q
  · rename_i Γ eΓ
    obtain ⟨f, f', a, b, E, len⟩ := paramEnv_sound eΓ L (env := .empty) (env' := .empty) (fun x t z => by cases z)
    have l1 : vs.length = d.params.length := L.length.1.trans len.symm
    have l2 : vs'.length = d.params.length := L.length.2.trans len.symm
    unfold runP bindParamsP
    rw [if_pos l1, if_pos l2]
    have go : ∀ e, tss S r d.body Γ = some e → (∀ Δ, e = some Δ → Ty.low.sub r = true) →
        Match S.attr w (fun w => Holds w r)
          (pThen (execsP C d.body f h) fun r h => quiet (match r with | .ret v => ok v h | .next _ => ok .none h))
          (pThen (execsP C d.body f' h') fun r h => quiet (match r with | .ret v => ok v h | .next _ => ok .none h)) := by
      intro e q k
      refine (tss_sound K r d.body Γ e q w f f' h h' H E).pThen fun w1 x x' h1 h1' x1 H1 r1 => ?_
      cases x <;> cases x' <;> try cases r1
      · rename_i Δ z
        exact .quiet (.ok H1 (Holds.sub (s := .low) (Low.none) (k Δ z.1)))
      · exact .quiet (.ok H1 r1)
    have red : ∀ {α β : Type} (a : α) (h : Heap) (g : α → Heap → Path β), pThen (quiet (ok a h)) g = g a h :=
      fun _ _ _ => rfl
    rw [red, red, a, b]
    split at q
    · rename_i e
      exact go _ e fun _ z => by cases z
    · rename_i Δ e
      exact go _ e fun _ _ => q
    · cases q
  · cases q

/-- The surroundings of the functions of a program at a depth of calls. -/
def pctx (P : Program) (L n : Nat) : PCtx where
  call := path P L n
  loops := L
  globals := P.globals
  method := P.method
  property := P.property
  copy := copyVal 10

/-- A table of types which fits a program: every function has a body which the check accepts with every type which the
table gives to it. -/
structure Shaped (S : Sig) (P : Program) : Prop where
  fns : ∀ f l, (f, l) ∈ S.fns → ∃ d, P.fn f = some d ∧ ∀ p ∈ l, tf S d p.1 p.2 = true
  glob : ∀ x t, S.glob x = some t → ∃ v, P.globals x = some v ∧ ∀ w, Holds w t v v
  meth : ∀ c m, S.meth c m = P.method c m
  prop : ∀ c a, S.prop c a = P.property c a

theorem Sig.call_eq {f : String} {us : List Ty} {u : Ty} (e : S.call f us = some u) :
    ∃ l p, (f, l) ∈ S.fns ∧ p ∈ l ∧ subL us p.1 = true ∧ p.2 = u := by
  unfold Sig.call at e
  split at e
  · rename_i p ep
    cases e
    have m := List.mem_of_find?_eq_some ep
    have s := List.find?_some ep
    generalize q : tfind f S.fns = o at m
    rcases o with _ | l
    · cases m
    · exact ⟨l, p, tfind_mem q, m, s, rfl⟩
  · cases e

theorem path_sound {P : Program} (F : Shaped S P) (L : Nat) : ∀ n, CallsLow S (pctx P L n)
  | 0 => ⟨fun _ _ _ _ _ _ _ _ _ H _ => .quiet (.fail H _), F.glob, F.meth, F.prop,
      fun t w v v' h h' H q => copy_ty 10 t w v v' h h' H q⟩
  | n + 1 => by
    refine ⟨fun f us u e w vs vs' h h' H l => ?_, F.glob, F.meth, F.prop,
      fun t w v v' h h' H q => copy_ty 10 t w v v' h h' H q⟩
    obtain ⟨l', p, m, pm, s, rfl⟩ := Sig.call_eq e
    obtain ⟨d, ed, ok⟩ := F.fns f l' m
    show Match _ _ _ (path P L (n + 1) f vs h) (path P L (n + 1) f vs' h')
    unfold path
    rw [ed]
    exact .note _ (tf_sound (path_sound F L n) (ok p pm) H (subL_holds s l))

end Gost.Src
