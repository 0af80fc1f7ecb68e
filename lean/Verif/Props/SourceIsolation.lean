import Verif.Source.IsolationRun
import Verif.Source.Program
import Verif.Props.SourceHash

/-! C108: calls of the package see and change only what their arguments reach; programs which share no objects do not
influence each other, however their statements are interleaved. -/

namespace Gost.Src

mutual

/-- The cells to which a value refers. -/
def Val.refs : Val → List Nat
  | .tuple l => Val.refsList l
  | .dict l => Val.refsDict l
  | .ref r => [r]
  | _ => []

def Val.refsList : List Val → List Nat
  | [] => []
  | v :: l => v.refs ++ Val.refsList l

def Val.refsDict : List (String × Val) → List Nat
  | [] => []
  | (_, v) :: l => v.refs ++ Val.refsDict l

end

/-- The cells to which an object refers. -/
def Obj.refs : Obj → List Nat
  | .bytearray _ => []
  | .list l => Val.refsList l
  | .inst _ l => Val.refsDict l

mutual

theorem VR.diag {π : Pairs} : (v : Val) → (∀ r ∈ v.refs, (r, r) ∈ π) → VR π v v
  | .none, _ => .none
  | .bool b, _ => .bool b
  | .int i, _ => .int i
  | .str s, _ => .str s
  | .bytes b, _ => .bytes b
  | .tuple l, h => .tuple (VRs.diag l h)
  | .dict l, h => .dict (VRa.diag l h)
  | .ref r, h => .ref (h r (by simp [Val.refs]))

theorem VRs.diag {π : Pairs} : (l : List Val) → (∀ r ∈ Val.refsList l, (r, r) ∈ π) → VRs π l l
  | [], _ => .nil
  | v :: l, h => .cons (VR.diag v fun r hr => h r (by simp [Val.refsList, hr]))
      (VRs.diag l fun r hr => h r (by simp [Val.refsList, hr]))

theorem VRa.diag {π : Pairs} : (l : List (String × Val)) → (∀ r ∈ Val.refsDict l, (r, r) ∈ π) → VRa π l l
  | [], _ => .nil
  | (_, v) :: l, h => .cons (VR.diag v fun r hr => h r (by simp [Val.refsDict, hr]))
      (VRa.diag l fun r hr => h r (by simp [Val.refsDict, hr]))

end

theorem OR.diag {π : Pairs} (o : Obj) (h : ∀ r ∈ o.refs, (r, r) ∈ π) : OR π o o := by
  cases o with
  | bytearray b => exact .bytearray b
  | list l => exact .list (VRs.diag l h)
  | inst c l => exact .inst c (VRa.diag l h)

/-- The module level of the package has no references to objects which can be changed. -/
theorem globals_refs : ∀ p ∈ globalTable, p.2.refs = [] := by
  have : (globalTable.all fun p => p.2.refs.isEmpty) = true := by decide +kernel
  intro p hp
  simpa using List.all_eq_true.1 this p hp

theorem lookup_mem {α : Type} {x : String} {v : α} : ∀ {l : List (String × α)}, l.lookup x = some v → ∃ p ∈ l, p.2 = v
  | [], e => by simp at e
  | (y, w) :: l, e => by
    simp only [List.lookup] at e
    split at e
    · cases e
      exact ⟨_, List.mem_cons_self, rfl⟩
    · obtain ⟨p, hp, hv⟩ := lookup_mem e
      exact ⟨p, List.mem_cons_of_mem _ hp, hv⟩

theorem globals_rel {x : String} {v : Val} (e : package.globals x = some v) (π : Pairs) : VR π v v := by
  obtain ⟨p, hp, rfl⟩ := lookup_mem (show globalTable.lookup x = some v from e)
  exact .diag _ (by simp [globals_refs p hp])

theorem ctx_local (L n : Nat) : Local (ctx L n) :=
  ⟨fun f _ _ r t => call_rel package (fun _ _ e => globals_rel e) L n f r t, fun e => globals_rel e, copyVal_rel 10⟩

/-- A cell which can be reached from the values `vs`. -/
inductive Reach (h : Heap) (vs : List Val) : Nat → Prop where
  | arg {r : Nat} : r ∈ Val.refsList vs → Reach h vs r
  | step {a r : Nat} {o : Obj} : Reach h vs a → h[a]? = some o → r ∈ o.refs → Reach h vs r

open Classical in
/-- The cells which can be reached, each paired with itself. -/
noncomputable def reached (h : Heap) (vs : List Val) : Pairs :=
  ((List.range h.length).filter fun r => Reach h vs r).map fun r => (r, r)

theorem mem_reached {h : Heap} {vs : List Val} {a b : Nat} :
    (a, b) ∈ reached h vs ↔ a = b ∧ a < h.length ∧ Reach h vs a := by
  unfold reached
  simp only [List.mem_map, List.mem_filter, List.mem_range, decide_eq_true_eq, Prod.mk.injEq]
  constructor
  · rintro ⟨r, ⟨h1, h2⟩, rfl, rfl⟩
    exact ⟨rfl, h1, h2⟩
  · rintro ⟨rfl, h1, h2⟩
    exact ⟨a, ⟨h1, h2⟩, rfl, rfl⟩

/-- What the values reach is in the memory. -/
def Sound (h : Heap) (vs : List Val) : Prop := ∀ r, Reach h vs r → r < h.length

theorem reached_ok {h : Heap} {vs : List Val} (w : Sound h vs) (s : Reach h vs 0 ∨ NoRandom h ∧ ¬ Reach h vs 0) :
    HR (reached h vs) h h := by
  refine ⟨fun {a b} m => ?_, fun {a b c d} m m' => ?_, ?_⟩
  · obtain ⟨rfl, h1, h2⟩ := mem_reached.1 m
    refine ⟨h[a], h[a], List.getElem?_eq_getElem h1, List.getElem?_eq_getElem h1, .diag _ fun r hr => ?_⟩
    have := Reach.step h2 (List.getElem?_eq_getElem h1) hr
    exact mem_reached.2 ⟨rfl, w r this, this⟩
  · obtain ⟨rfl, -, -⟩ := mem_reached.1 m
    obtain ⟨rfl, -, -⟩ := mem_reached.1 m'
    exact Iff.rfl
  · rcases s with s | ⟨nr, s⟩
    · exact Or.inl (mem_reached.2 ⟨rfl, w 0 s, s⟩)
    · refine Or.inr ⟨fun a b m => ?_, nr, nr⟩
      obtain ⟨rfl, -, h2⟩ := mem_reached.1 m
      have : a ≠ 0 := fun e => s (e ▸ h2)
      exact ⟨this, this⟩

/-- A call whose arguments are among `vs`. -/
theorem reached_call (L n : Nat) (f : String) {args vs : List Val} {h : Heap} (w : Sound h vs)
    (s : Reach h vs 0 ∨ NoRandom h ∧ ¬ Reach h vs 0) (sub : ∀ r ∈ Val.refsList args, Reach h vs r) :
    Rel VR (reached h vs) h h (call package L n f args h) (call package L n f args h) :=
  (ctx_local L n).call f (reached_ok w s) (.diag _ fun r hr => mem_reached.2 ⟨rfl, w r (sub r hr), sub r hr⟩)

theorem refsList_cons (r : Nat) (l : List Val) : Val.refsList (.ref r :: l) = r :: Val.refsList l := by
  simp [Val.refsList, Val.refs]

theorem reach_source (h : Heap) (args : List Val) : Reach h (.ref 0 :: args) 0 := .arg (by simp [refsList_cons])

theorem sub_source (h : Heap) (args : List Val) : ∀ r ∈ Val.refsList args, Reach h (.ref 0 :: args) r :=
  fun r hr => .arg (by simp [refsList_cons, hr])

/-- C108, frame: a call of any function of the package, with any arguments, changes no cell which cannot be reached from
the arguments or from the source of random bytes (cell 0). -/
theorem C108_frame (L n : Nat) (f : String) (args : List Val) (h : Heap) (w : Sound h (.ref 0 :: args)) :
    ∀ r, r < h.length → ¬ Reach h (.ref 0 :: args) r → (call package L n f args h).2[r]? = h[r]? := by
  obtain ⟨⟨π', -, -, fr, -, -⟩⟩ := reached_call L n f w (Or.inl (reach_source h args)) (sub_source h args)
  intro r hr hn
  refine fr.2 r hr fun hm => hn ?_
  obtain ⟨⟨a, b⟩, hp, rfl⟩ := List.mem_map.1 hm
  exact (mem_reached.1 hp).2.2

/-- C108, frame without random bytes: nothing but what the arguments reach is changed. -/
theorem C108_frame_quiet (L n : Nat) (f : String) (args : List Val) (h : Heap) (nr : NoRandom h) (w : Sound h args)
    (z : ¬ Reach h args 0) :
    ∀ r, r < h.length → ¬ Reach h args r → (call package L n f args h).2[r]? = h[r]? := by
  obtain ⟨⟨π', -, -, fr, -, -⟩⟩ := reached_call L n f w (Or.inr ⟨nr, z⟩) fun r hr => .arg hr
  intro r hr hn
  refine fr.2 r hr fun hm => hn ?_
  obtain ⟨⟨a, b⟩, hp, rfl⟩ := List.mem_map.1 hm
  exact (mem_reached.1 hp).2.2

/-- Programs which are run together: the statements in the order in which they are run, each with the number of the
program to which it belongs. Each program has its own variables, all use one memory. A statement which raises an
exception leaves the variables as they are, and so does `return`. The result has an entry for each statement. -/
def runAll (C : Ctx) : List (Nat × Stmt) → (Nat → Env) → Heap → List (Nat × Option Exc) × (Nat → Env) × Heap
  | [], E, h => ([], E, h)
  | (i, s) :: σ, E, h =>
    match exec C s (E i) h with
    | (.ok (.next env), h) =>
      let r := runAll C σ (fun j => if j = i then env else E j) h
      ((i, none) :: r.1, r.2)
    | (.ok (.ret _), h) =>
      let r := runAll C σ E h
      ((i, none) :: r.1, r.2)
    | (.error e, h) =>
      let r := runAll C σ E h
      ((i, some e) :: r.1, r.2)

/-- One program alone. -/
def runOne (C : Ctx) : List Stmt → Env → Heap → List (Option Exc) × Env × Heap
  | [], E, h => ([], E, h)
  | s :: σ, E, h =>
    match exec C s E h with
    | (.ok (.next env), h) =>
      let r := runOne C σ env h
      (none :: r.1, r.2)
    | (.ok (.ret _), h) =>
      let r := runOne C σ E h
      (none :: r.1, r.2)
    | (.error e, h) =>
      let r := runOne C σ E h
      (some e :: r.1, r.2)

/-- What belongs to program `i`. -/
def part {α : Type} (i : Nat) (l : List (Nat × α)) : List α := (l.filter fun p => p.1 = i).map (·.2)

theorem part_same {α : Type} (i : Nat) (x : α) (l : List (Nat × α)) : part i ((i, x) :: l) = x :: part i l := by
  simp [part]

theorem part_other {α : Type} {i j : Nat} (n : j ≠ i) (x : α) (l : List (Nat × α)) : part i ((j, x) :: l) = part i l := by
  simp [part, n]

/-- Each program has its own cells, and corresponds to its run alone. -/
structure Separate (E : Nat → Env) (h : Heap) (F : Nat → Env) (K : Nat → Heap) (Q : Nat → Pairs) : Prop where
  heap : ∀ j, HR (Q j) h (K j)
  env : ∀ j, EnvR (Q j) (E j) (F j)
  sep : ∀ i j, i ≠ j → ∀ a b c, (a, b) ∈ Q i → (a, c) ∉ Q j
  rnd : ∀ j, (0, 0) ∉ Q j

theorem apart_step {E F : Nat → Env} {h : Heap} {K : Nat → Heap} {Q : Nat → Pairs} (a : Separate E h F K Q) {i : Nat}
    {π : Pairs} {h' k' : Heap} {env env' : Env} (g : Grow (Q i) π h (K i)) (r : HR π h' k')
    (fr : Frame ((Q i).map (·.1)) h h') (v : EnvR π env env') :
    Separate (fun j => if j = i then env else E j) h' (fun j => if j = i then env' else F j)
      (fun j => if j = i then k' else K j) (fun j => if j = i then π else Q j) := by
  have old : ∀ j, j ≠ i → ∀ x y, (x, y) ∈ Q j → ∀ z, (x, z) ∉ π := by
    intro j hj x y hm z hz
    rcases g.2 _ hz with hz | hz
    · exact a.sep j i hj x y z hm hz
    · have := (a.heap j).lt hm
      have := hz.1
      simp only at this
      omega
  have new : (0, 0) ∉ π := by
    intro m
    rcases g.2 _ m with m | m
    · exact a.rnd i m
    · have := (a.heap i).pos
      have := m.1
      simp only at this
      omega
  refine ⟨fun j => ?_, fun j => ?_, fun p q hpq x y z hp hq => ?_, fun j => ?_⟩
  · by_cases hj : j = i
    · simp only [hj, if_true]
      exact r
    · simp only [hj, if_false]
      refine ⟨fun {x y} m => ?_, (a.heap j).inj, Or.inr ?_⟩
      rotate_left
      · rcases (a.heap j).rnd with m | ⟨nz, -, r2⟩
        · exact absurd m (a.rnd j)
        · rcases r.rnd with m | ⟨-, r1, -⟩
          · exact absurd m new
          · exact ⟨nz, r1, r2⟩
      obtain ⟨o, p, e1, e2, e3⟩ := (a.heap j).get m
      refine ⟨o, p, fr.get e1 fun hm => ?_, e2, e3⟩
      obtain ⟨⟨x', y'⟩, hp, rfl⟩ := List.mem_map.1 hm
      exact a.sep j i hj _ _ _ m hp
  · by_cases hj : j = i
    · simp only [hj, if_true]
      exact v
    · simp only [hj, if_false]
      exact a.env j
  · by_cases hp' : p = i
    · rw [if_pos hp'] at hp
      rw [if_neg (by omega)] at hq
      exact old q (by omega) x z hq y hp
    · rw [if_neg hp'] at hp
      by_cases hq' : q = i
      · rw [if_pos hq'] at hq
        exact old p hp' x y hp z hq
      · rw [if_neg hq'] at hq
        exact a.sep p q hpq x y z hp hq
  · by_cases hj : j = i
    · simp only [hj, if_true]
      exact new
    · simp only [hj, if_false]
      exact a.rnd j

/-- The state of program `j` after its statements of `σ`, run alone. -/
theorem run_apart (L n : Nat) (σ : List (Nat × Stmt)) : ∀ (E F : Nat → Env) (h : Heap) (K : Nat → Heap) (Q : Nat → Pairs),
    Separate E h F K Q → ∀ i,
      let r := runAll (ctx L n) σ E h
      let a := runOne (ctx L n) (part i σ) (F i) (K i)
      part i r.1 = a.1 ∧ ∃ π, HR π r.2.2 a.2.2 ∧ EnvR π (r.2.1 i) a.2.1 := by
  induction σ with
  | nil =>
    intro E F h K Q a i
    exact ⟨rfl, Q i, a.heap i, a.env i⟩
  | cons p σ ih =>
    obtain ⟨j, s⟩ := p
    intro E F h K Q a i
    obtain ⟨⟨π, g, r, fr, -, c⟩⟩ := exec_rel (ctx_local L n) s (a.heap j) (a.env j)
    have keep : ∀ f : Nat → Env, (fun q => if q = j then f j else f q) = f := fun f => by
      funext q
      by_cases hq : q = j <;> simp [hq]
    have hpart : part i ((j, s) :: σ) = if j = i then s :: part i σ else part i σ := by
      by_cases hj : j = i
      · rw [if_pos hj, hj, part_same]
      · rw [if_neg hj, part_other hj]
    have hone : runOne (ctx L n) (part i ((j, s) :: σ)) (F i) (K i) =
        if j = i then runOne (ctx L n) (s :: part i σ) (F j) (K j) else runOne (ctx L n) (part i σ) (F i) (K i) := by
      rw [hpart]
      by_cases hj : j = i
      · rw [if_pos hj, if_pos hj, hj]
      · rw [if_neg hj, if_neg hj]
    simp only
    rw [hone]
    unfold runAll
    rw [show runOne (ctx L n) (s :: part i σ) (F j) (K j) = (match exec (ctx L n) s (F j) (K j) with
      | (.ok (.next env), h) => (none :: (runOne (ctx L n) (part i σ) env h).1, (runOne (ctx L n) (part i σ) env h).2)
      | (.ok (.ret _), h) => (none :: (runOne (ctx L n) (part i σ) (F j) h).1, (runOne (ctx L n) (part i σ) (F j) h).2)
      | (.error e, h) => (some e :: (runOne (ctx L n) (part i σ) (F j) h).1, (runOne (ctx L n) (part i σ) (F j) h).2))
      from rfl]
    generalize exec (ctx L n) s (E j) h = o at r fr c
    generalize exec (ctx L n) s (F j) (K j) = p at r c
    obtain ⟨o, h'⟩ := o
    obtain ⟨p, k'⟩ := p
    rcases c with ⟨x, y, e1, e2, xy⟩ | ⟨e, e1, e2⟩
    · cases e1
      cases e2
      cases xy with
      | @next env env' v =>
        have := ih _ _ _ _ _ (apart_step a g r fr v) i
        by_cases hj : j = i
        · subst hj
          simp only [if_true] at this ⊢
          rw [part_same]
          exact ⟨by rw [this.1], this.2⟩
        · simp only [if_neg hj, if_neg (Ne.symm hj)] at this ⊢
          rw [part_other hj]
          exact this
      | ret _ =>
        have := ih _ _ _ _ _ (apart_step a g r fr ((a.env j).mono g.1)) i
        rw [keep] at this
        by_cases hj : j = i
        · subst hj
          simp only [if_true] at this ⊢
          rw [part_same]
          exact ⟨by rw [this.1], this.2⟩
        · simp only [if_neg hj, if_neg (Ne.symm hj)] at this ⊢
          rw [part_other hj]
          exact this
    · cases e1
      cases e2
      have := ih _ _ _ _ _ (apart_step a g r fr ((a.env j).mono g.1)) i
      rw [keep] at this
      by_cases hj : j = i
      · subst hj
        simp only [if_true] at this ⊢
        rw [part_same]
        exact ⟨by rw [this.1], this.2⟩
      · simp only [if_neg hj, if_neg (Ne.symm hj)] at this ⊢
        rw [part_other hj]
        exact this

/-- A value looks the same in two memories: numbers, strings and the contents of byte objects. -/
inductive Same (h k : Heap) : Option Val → Option Val → Prop where
  | none : Same h k none none
  | int (i : Int) : Same h k (some (.int i)) (some (.int i))
  | bool (b : Bool) : Same h k (some (.bool b)) (some (.bool b))
  | str (s : String) : Same h k (some (.str s)) (some (.str s))
  | void : Same h k (some .none) (some .none)
  | bytes {v w : Val} {b : Bytes} : bytesOf v h = some b → bytesOf w k = some b → Same h k (some v) (some w)
  | tuple (l m : List Val) : l.length = m.length → Same h k (some (.tuple l)) (some (.tuple m))
  | dict (l m : List (String × Val)) : l.map (·.1) = m.map (·.1) → Same h k (some (.dict l)) (some (.dict m))
  | other {a b : Nat} : bytesOf (.ref a) h = none → bytesOf (.ref b) k = none → Same h k (some (.ref a)) (some (.ref b))

theorem same_of {π : Pairs} {h k : Heap} (r : HR π h k) {env env' : Env} (v : EnvR π env env') (x : String) :
    Same h k (env x) (env' x) := by
  rcases v x with ⟨e1, e2⟩ | ⟨a, b, e1, e2, ab⟩
  · rw [e1, e2]
    exact .none
  · rw [e1, e2]
    have hb := bytesOf_rel r ab
    cases ab with
    | none => exact .void
    | bool b => exact .bool b
    | int i => exact .int i
    | str s => exact .str s
    | bytes b => exact .bytes rfl rfl
    | tuple t => exact .tuple _ _ t.length
    | dict t => exact .dict _ _ t.names
    | @ref p q _ =>
      cases hv : bytesOf (.ref p) h with
      | none => exact .other hv (hb.symm.trans hv)
      | some b => exact .bytes hv (hb.symm.trans hv)

/-- C108, isolation: any number of programs of calls of the package whose statements are interleaved in any way. For each
program the exceptions, and the values of its variables at the end, are those of its run alone in any other memory. At
the beginning the variables have no references. -/
theorem C108_isolated (L n : Nat) (σ : List (Nat × Stmt)) (E : Nat → Env)
    (hE : ∀ i x v, E i x = some v → v.refs = []) (h k : Heap) (nr : NoRandom h) (nr' : NoRandom k) (i : Nat) :
    part i (runAll (ctx L n) σ E h).1 = (runOne (ctx L n) (part i σ) (E i) k).1 ∧
    (∃ π, HR π (runAll (ctx L n) σ E h).2.2 (runOne (ctx L n) (part i σ) (E i) k).2.2 ∧
      EnvR π ((runAll (ctx L n) σ E h).2.1 i) (runOne (ctx L n) (part i σ) (E i) k).2.1) ∧
    ∀ x, Same (runAll (ctx L n) σ E h).2.2 (runOne (ctx L n) (part i σ) (E i) k).2.2
      ((runAll (ctx L n) σ E h).2.1 i x) ((runOne (ctx L n) (part i σ) (E i) k).2.1 x) := by
  obtain ⟨e, π, r, v⟩ := run_apart L n σ E E h (fun _ => k) (fun _ => [])
    ⟨fun _ => ⟨by simp, by simp, Or.inr ⟨by simp, nr, nr'⟩⟩, fun j x => by
      cases e : E j x with
      | none => exact Or.inl ⟨rfl, rfl⟩
      | some v => exact Or.inr ⟨v, v, rfl, rfl, .diag _ (by simp [hE j x v e])⟩, by simp, by simp⟩ i
  exact ⟨e, ⟨π, r, v⟩, same_of r v⟩

/-! An instance: program 0 hashes a message, the others do anything. -/

/-- `d = gosthash.new(n, **kw).digest()`. -/
def hashStmt : Stmt :=
  .assign (.name "d") (.meth (.call "Hash.new" [.name "n", .name "kw"]) "digest" [])

example (L n : Nat) (σ : List (Nat × Stmt)) (one : part 0 σ = [hashStmt]) (m : Bytes) (E : Nat → Env)
    (hE : ∀ i x v, E i x = some v → v.refs = []) (h1 : E 0 "n" = some (.str "streebog256"))
    (h2 : E 0 "kw" = some (.dict [("data", .bytes m)])) (h : Heap) (nr : NoRandom h) :
    ∃ v, (runAll (ctx L (n + 7)) σ E h).2.1 0 "d" = some v ∧
      bytesOf v (runAll (ctx L (n + 7)) σ E h).2.2 = some (Spec.hashOf "streebog256" m) := by
  obtain ⟨-, -, s⟩ := C108_isolated L (n + 7) σ E hE h h nr nr 0
  obtain ⟨r, l, f, -, b⟩ := (C97_standard L n h "streebog256" (Or.inr rfl) (.bytes m) m rfl).elim
  have e : exec (ctx L (n + 7)) hashStmt (E 0) h = ok (.next ((E 0).set "d" (.ref r))) (h ++ l) := by
    unfold hashStmt
    simp only [exec, eval, evals, h1, h2, andThen_ok]
    rw [show andThen ((ctx L (n + 7)).call "Hash.new" [.str "streebog256", .dict [("data", .bytes m)]] h) (fun v h =>
      callMeth (ctx L (n + 7)) v "digest" [] h) = ok (.ref r) (h ++ l) from f]
    rfl
  have a : runOne (ctx L (n + 7)) [hashStmt] (E 0) h = ([none], (E 0).set "d" (.ref r), h ++ l) := by
    unfold runOne
    rw [e]
    rfl
  rw [one, a] at s
  generalize runAll (ctx L (n + 7)) σ E h = o at s
  have := s "d"
  simp only [Env.set, if_true] at this
  cases hv : o.2.1 0 "d" with
  | none =>
    rw [hv] at this
    cases this
  | some v =>
    rw [hv] at this
    refine ⟨v, rfl, ?_⟩
    cases this with
    | bytes e1 e2 =>
      rw [e1, ← b, ← e2]
    | other _ e2 =>
      rw [e2] at b
      cases b

/-- Two programs: both hash, and program 1 reads its digest. -/
example : part 0 [(1, hashStmt), (0, hashStmt), (1, .expr (.meth (.name "d") "hex" []))] = [hashStmt] := rfl

/-- A memory without random bytes. -/
example : NoRandom [.bytearray []] := ⟨_, rfl, by simp⟩

end Gost.Src
