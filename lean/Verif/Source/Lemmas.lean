import Verif.Source.Procs
import Verif.Source.Lookup

/-! Rules for executing programs of the fragment. The heap is kept in the form
`h ++ [o] ++ l ++ ...`: what was there before, and what has been added. -/

namespace Gost.Src

@[pysem ↓] theorem andThen_ok {α β : Type} (a : α) (h : Heap) (f : α → Heap → Out β) :
    andThen (ok a h) f = f a h := (rfl)

@[pysem ↓] theorem andThen_ok' {α β : Type} (a : α) (h : Heap) (f : α → Heap → Out β) :
    andThen (.ok a, h) f = f a h := (rfl)

@[pysem ↓] theorem andThen_fail {α β : Type} (e : Exc) (h : Heap) (f : α → Heap → Out β) :
    andThen (fail e h) f = fail e h := (rfl)

@[pysem ↓] theorem andThen_fail' {α β : Type} (e : Exc) (h : Heap) (f : α → Heap → Out β) :
    andThen (.error e, h) f = fail e h := (rfl)

@[pysem ↓] theorem thenRun_next (env : Env) (h : Heap) (f : Env → Heap → Out Flow) :
    thenRun (ok (.next env) h) f = f env h := (rfl)

@[pysem ↓] theorem thenRun_ret (v : Val) (h : Heap) (f : Env → Heap → Out Flow) :
    thenRun (ok (.ret v) h) f = ok (.ret v) h := (rfl)

@[pysem ↓] theorem thenRun_fail (e : Exc) (h : Heap) (f : Env → Heap → Out Flow) :
    thenRun (fail e h) f = fail e h := (rfl)

@[pysem ↓] theorem alloc_eq (o : Obj) (h : Heap) : alloc o h = ok (.ref h.length) (h ++ [o]) := (rfl)

attribute [pysem ↓] eval evals evalOpt exec execs assign run setNames
attribute [pysem] Env.set Env.empty truth
attribute [pysem] if_true if_false ite_true ite_false Option.isSome_some Option.isSome_none

/-- The surroundings of a function of the package which was called with depth `n + 1`. -/
def ctx (L n : Nat) : Ctx where
  call := call package L n
  loops := L
  globals := package.globals
  method := package.method
  property := package.property
  copy := copyVal 10

@[pysem] theorem ctx_call (L n : Nat) (f : String) (args : List Val) (h : Heap) :
    (ctx L n).call f args h = call package L n f args h := (rfl)

@[pysem] theorem ctx_loops (L n : Nat) : (ctx L n).loops = L := (rfl)

@[pysem] theorem ctx_globals (L n : Nat) (x : String) : (ctx L n).globals x = package.globals x := (rfl)

@[pysem] theorem ctx_method (L n : Nat) (c m : String) : (ctx L n).method c m = package.method c m := (rfl)

@[pysem] theorem ctx_property (L n : Nat) (c m : String) :
    (ctx L n).property c m = package.property c m := (rfl)

/-- Execute the program. -/
macro "py" "[" args:Lean.Parser.Tactic.simpLemma,* "]" : tactic =>
  `(tactic| simp (maxDischargeDepth := 20) only [pysem, ↓andThenStep, ↓thenRunStep, ↓forLoopStep, ↓whileLoopStep, ↓evalCompStep,
      ↓reduceIte, Bool.not_true, Bool.not_false, Bool.true_eq_false, Bool.false_eq_true,
      String.reduceEq, reduceCtorEq, List.length_cons, List.length_nil, $args,*])

theorem call_succ {f : String} {d : FunDef} (e : package.fn f = some d) (L n : Nat) (args : List Val)
    (h : Heap) : call package L (n + 1) f args h = run (ctx L n) d args h := by
  rw [call, e]
  rfl

@[pysem ↓] theorem bindParams_exact (C : Ctx) (d : FunDef) (args : List Val) (h : Heap)
    (e : args.length = d.params.length) : bindParams C d args h = ok args h := by
  rw [bindParams, if_pos e]

/-! Built-in functions. -/

section
variable (C : Ctx) (h : Heap)

@[pysem] theorem builtin_len (v : Val) : applyBuiltin C "len" [v] h = pyLen v h := (rfl)
@[pysem] theorem builtin_bytearray0 :
    applyBuiltin C "bytearray" [] h = ok (.ref h.length) (h ++ [.bytearray []]) := (rfl)
@[pysem] theorem builtin_bytearray (v : Val) :
    applyBuiltin C "bytearray" [v] h = newBytearray v h := (rfl)
@[pysem] theorem builtin_isbytes (v : Val) :
    applyBuiltin C "isbytes" [v] h = ok (.bool (bytesOf v h).isSome) h := (rfl)
@[pysem] theorem builtin_min (a b : Int) :
    applyBuiltin C "min" [.int a, .int b] h = ok (.int (min a b)) h := (rfl)
@[pysem] theorem builtin_range1 (b : Int) :
    applyBuiltin C "range" [.int b] h = ok (.tuple (pyRange 0 b 1)) h := (rfl)
@[pysem] theorem builtin_range2 (a b : Int) :
    applyBuiltin C "range" [.int a, .int b] h = ok (.tuple (pyRange a b 1)) h := (rfl)
@[pysem] theorem builtin_range3 (a b c : Int) :
    applyBuiltin C "range" [.int a, .int b, .int c] h =
      if c = 0 then fail .value h else ok (.tuple (pyRange a b c)) h := (rfl)
@[pysem] theorem builtin_deepcopy (v : Val) : applyBuiltin C "deepcopy" [v] h = C.copy v h := (rfl)

end

/-! Byte objects. -/

@[pysem] theorem bytesOf_bytes (b : Bytes) (h : Heap) : bytesOf (.bytes b) h = some b := (rfl)

@[pysem] theorem bytesOf_int (i : Int) (h : Heap) : bytesOf (.int i) h = none := (rfl)

@[pysem] theorem bytesOf_last (b : Bytes) (h : Heap) :
    bytesOf (.ref h.length) (h ++ [.bytearray b]) = some b := by
  simp [bytesOf]

theorem bytesOf_mono {v : Val} {h : Heap} {b : Bytes} (e : bytesOf v h = some b) (l : Heap) :
    bytesOf v (h ++ l) = some b := by
  unfold bytesOf at *
  split at e
  · exact e
  · rename_i r
    split at e
    · rename_i e'
      have hr : r < h.length := by
        rcases Nat.lt_or_ge r h.length with hr | hr
        · exact hr
        · rw [List.getElem?_eq_none hr] at e'
          cases e'
      rw [List.getElem?_append_left hr, e']
      exact e
    · cases e
  · cases e

@[pysem] theorem bytesOf_append {v : Val} {h : Heap} (l : Heap) (e : (bytesOf v h).isSome = true) :
    bytesOf v (h ++ l) = bytesOf v h := by
  obtain ⟨b, hb⟩ := Option.isSome_iff_exists.mp e
  rw [hb, bytesOf_mono hb]

attribute [pysem] Option.getD_some

theorem elems_eq {v : Val} {h : Heap} {b : Bytes} (e : bytesOf v h = some b) :
    elems v h = some (b.map fun x => .int x.toNat) := by
  unfold bytesOf at e
  unfold elems
  split at e
  · cases e; rfl
  · rename_i r
    split at e
    · rename_i e'
      cases e
      simp only [e']
    · cases e
  · cases e

@[pysem] theorem elems_bytes {v : Val} {h : Heap} (e : (bytesOf v h).isSome = true) :
    elems v h = some (((bytesOf v h).getD []).map fun x => .int x.toNat) := by
  obtain ⟨b, hb⟩ := Option.isSome_iff_exists.mp e
  rw [hb]
  exact elems_eq hb

@[pysem] theorem builtin_enumerate (C : Ctx) {v : Val} {h : Heap} (e : (bytesOf v h).isSome = true) :
    applyBuiltin C "enumerate" [v] h =
      ok (.tuple (enumerated 0 (((bytesOf v h).getD []).map fun x => .int x.toNat))) h := by
  show (match elems v h with
    | some l => ok (Val.tuple (enumerated 0 l)) h
    | none => fail .stuck h) = _
  rw [elems_bytes e]

@[pysem] theorem builtin_fromBytes (C : Ctx) {v : Val} {h : Heap} (e : (bytesOf v h).isSome = true) :
    applyBuiltin C "int.from_bytes" [v, .str "big"] h = ok (.int (fromBig ((bytesOf v h).getD []))) h := by
  obtain ⟨b, hb⟩ := Option.isSome_iff_exists.mp e
  show (match bytesOf v h with
    | some b => ok (Val.int (fromBig b)) h
    | none => fail .stuck h) = _
  rw [hb]
  rfl

@[pysem] theorem elems_tuple (l : List Val) (h : Heap) : elems (.tuple l) h = some l := (rfl)

@[pysem] theorem pyLen_bytes {v : Val} {h : Heap} (e : (bytesOf v h).isSome = true) :
    pyLen v h = ok (.int ((bytesOf v h).getD []).length) h := by
  rw [pyLen, elems_bytes e]
  simp only [List.length_map]

@[pysem] theorem newBytearray_int (n : Nat) (h : Heap) :
    newBytearray (.int n) h = ok (.ref h.length) (h ++ [.bytearray (List.replicate n 0)]) := by
  have e : ¬ ((n : Int) < 0) := by omega
  simp only [newBytearray, if_neg e, alloc, Int.toNat_natCast]

@[pysem] theorem newBytearray_lit (n : Nat) (h : Heap) :
    newBytearray (.int (no_index (@OfNat.ofNat Int n _))) h =
      ok (.ref h.length) (h ++ [.bytearray (List.replicate (OfNat.ofNat n) 0)]) :=
  newBytearray_int n h

@[pysem] theorem newBytearray_bytes {v : Val} {h : Heap} (e : (bytesOf v h).isSome = true) :
    newBytearray v h = ok (.ref h.length) (h ++ [.bytearray ((bytesOf v h).getD [])]) := by
  obtain ⟨b, hb⟩ := Option.isSome_iff_exists.mp e
  unfold newBytearray
  split
  · cases hb
  · rw [hb]
    rfl

@[pysem] theorem newBytearray_list (l : List Val) (h : Heap) :
    newBytearray (.ref h.length) (h ++ [.list l]) = listBytearray l (h ++ [.list l]) := by
  simp [newBytearray, bytesOf]

/-! Indexing. -/

theorem pyGet_map {α β : Type} (f : α → β) (l : List α) (i : Int) :
    pyGet (l.map f) i = (pyGet l i).map f := by
  unfold pyGet
  simp only [List.length_map, List.getElem?_map]
  generalize (if i < 0 then i + (l.length : Int) else i) = j
  by_cases hj : j < 0
  · rw [if_pos hj, if_pos hj]
    rfl
  · rw [if_neg hj, if_neg hj]
    cases l[j.toNat]? <;> rfl

theorem pyGet_nat {α : Type} {l : List α} {k : Nat} {x : α} (e : l[k]? = some x) :
    pyGet l (k : Int) = .ok x := by
  have h1 : ¬ ((k : Int) < 0) := by omega
  simp only [pyGet, if_neg h1, Int.toNat_natCast, e]

/-- `v[k]` of a byte object. -/
@[pysem] theorem getItem_bytes {v : Val} {h : Heap} {k : Nat} (e : (bytesOf v h).isSome = true) :
    getItem v (.int k) h =
      match ((bytesOf v h).getD [])[k]? with
      | some x => ok (.int x.toNat) h
      | none => fail .index h := by
  have h1 : ¬ ((k : Int) < 0) := by omega
  simp only [getItem, elems_bytes e, pyGet_map]
  simp only [pyGet, if_neg h1, Int.toNat_natCast]
  cases ((bytesOf v h).getD [])[k]? <;> rfl

@[pysem] theorem getItem_lit {v : Val} {h : Heap} {k : Nat} (e : (bytesOf v h).isSome = true) :
    getItem v (.int (no_index (@OfNat.ofNat Int k _))) h =
      match ((bytesOf v h).getD [])[(OfNat.ofNat k : Nat)]? with
      | some x => ok (.int x.toNat) h
      | none => fail .index h :=
  getItem_bytes (k := k) e

@[pysem] theorem getItem_tuple0 (v : Val) (l : List Val) (h : Heap) :
    getItem (.tuple (v :: l)) (.int 0) h = ok v h := (rfl)

@[pysem] theorem getItem_tuple1 (v w : Val) (l : List Val) (h : Heap) :
    getItem (.tuple (v :: w :: l)) (.int 1) h = ok w h := (rfl)

/-- `v[k] = x` on the newest byte array. -/
@[pysem] theorem setItem_last (h : Heap) (b : Bytes) (k : Nat) (x : UInt8) :
    setItem (.ref h.length) (.int k) (.int x.toNat) (h ++ [.bytearray b]) =
      if k < b.length then ok () (h ++ [.bytearray (b.set k x)])
      else fail .index (h ++ [.bytearray b]) := by
  have h1 : ¬ ((k : Int) < 0) := by omega
  have h3 : (0 : Int) ≤ x.toNat ∧ (x.toNat : Int) < 256 := by
    have := x.toNat_lt
    omega
  have h4 : (h ++ [Obj.bytearray b])[h.length]? = some (.bytearray b) := by simp
  by_cases hk : k < b.length
  · have h2 : (0 : Int) ≤ k ∧ (k : Int) < b.length := by omega
    simp only [setItem, h4, position, if_neg h1, if_pos h2, if_pos h3, Int.toNat_natCast,
      UInt8.ofNat_toNat, if_pos hk]
    simp [ok]
  · have h2 : ¬ ((0 : Int) ≤ k ∧ (k : Int) < b.length) := by omega
    simp only [setItem, h4, position, if_neg h1, if_neg h2, if_neg hk]

/-! Integers. -/

@[pysem] theorem arith_bxor_nat (m n : Nat) : arith .bxor m n = .ok ((m ^^^ n : Nat) : Int) := by
  have e : ¬ ((m : Int) < 0 ∨ (n : Int) < 0) := by omega
  simp only [arith, if_neg e, Int.toNat_natCast]

@[pysem] theorem arith_add (a b : Int) : arith .add a b = .ok (a + b) := (rfl)
@[pysem] theorem arith_sub (a b : Int) : arith .sub a b = .ok (a - b) := (rfl)
@[pysem] theorem arith_mul (a b : Int) : arith .mul a b = .ok (a * b) := (rfl)
@[pysem] theorem arith_band (a b : Int) : arith .band a b = .ok (intAnd a b) := (rfl)

@[pysem] theorem arith_shl (a : Int) (n : Nat) : arith .shl a n = .ok (a * 2 ^ n) := by
  have e : ¬ ((n : Int) < 0) := by omega
  simp only [arith, if_neg e, Int.toNat_natCast]
@[pysem] theorem arith_shr (a : Int) (n : Nat) : arith .shr a n = .ok (a.fdiv (2 ^ n)) := by
  have e : ¬ ((n : Int) < 0) := by omega
  simp only [arith, if_neg e, Int.toNat_natCast]

theorem intAnd_nat (m n : Nat) : intAnd m n = ((m &&& n : Nat) : Int) := (rfl)

@[pysem] theorem min_nat (m n : Nat) : min (m : Int) (n : Int) = ((min m n : Nat) : Int) := by omega

@[pysem] theorem binop_int (op : BinOp) (x y : Int) (h : Heap) :
    binop op (.int x) (.int y) h =
      match arith op x y with
      | .ok z => ok (.int z) h
      | .error e => fail e h := (rfl)

@[pysem] theorem binop_repeat (b : Bytes) (n : Nat) (h : Heap) :
    binop .mul (.bytes b) (.int n) h = ok (.bytes (List.replicate n b).flatten) h := (rfl)

@[pysem] theorem binop_cat_bytes (x : Bytes) {b : Val} {h : Heap} (e : (bytesOf b h).isSome = true) :
    binop .add (.bytes x) b h = ok (.bytes (x ++ (bytesOf b h).getD [])) h := by
  obtain ⟨y, hy⟩ := Option.isSome_iff_exists.mp e
  rw [hy]
  cases b <;> simp_all [binop, bytesOf]

@[pysem] theorem binop_cat_ref {r : Nat} {b : Val} {h : Heap} (e1 : (bytesOf (.ref r) h).isSome = true)
    (e : (bytesOf b h).isSome = true) :
    binop .add (.ref r) b h = ok (.ref h.length)
      (h ++ [.bytearray ((bytesOf (.ref r) h).getD [] ++ (bytesOf b h).getD [])]) := by
  obtain ⟨x, hx⟩ := Option.isSome_iff_exists.mp e1
  obtain ⟨y, hy⟩ := Option.isSome_iff_exists.mp e
  rw [hx, hy]
  simp only [binop, hx, hy]
  rfl

@[pysem] theorem byte_xor (x y : UInt8) :
    ((x.toNat ^^^ y.toNat : Nat) : Int) = ((x ^^^ y).toNat : Int) := by
  rw [UInt8.toNat_xor]

/-! Comparisons. -/

section
variable (h : Heap)

@[pysem] theorem cmp_eq_int (a b : Int) :
    cmpop .eq (.int a) (.int b) h = ok (.bool (decide (a = b))) h := by
  simp [cmpop, valEq, BEq.beq]
@[pysem] theorem cmp_ne_int (a b : Int) :
    cmpop .ne (.int a) (.int b) h = ok (.bool (!decide (a = b))) h := by
  simp [cmpop, valEq, BEq.beq]
@[pysem] theorem cmp_lt_int (a b : Int) :
    cmpop .lt (.int a) (.int b) h = ok (.bool (decide (a < b))) h := (rfl)
@[pysem] theorem cmp_le_int (a b : Int) :
    cmpop .le (.int a) (.int b) h = ok (.bool (decide (a ≤ b))) h := (rfl)
@[pysem] theorem cmp_gt_int (a b : Int) :
    cmpop .gt (.int a) (.int b) h = ok (.bool (decide (a > b))) h := (rfl)
@[pysem] theorem cmp_ge_int (a b : Int) :
    cmpop .ge (.int a) (.int b) h = ok (.bool (decide (a ≥ b))) h := (rfl)
@[pysem] theorem cmp_eq_str (a b : String) :
    cmpop .eq (.str a) (.str b) h = ok (.bool (decide (a = b))) h := by
  simp [cmpop, valEq, BEq.beq]

theorem valEq_bytes {a b : Val} {y : Bytes} (e : bytesOf b h = some y) :
    valEq a b h = some (bytesOf a h == some y) := by
  cases b with
  | none => cases e
  | bool b => cases e
  | int i => cases e
  | str s => cases e
  | tuple l => cases e
  | dict l => cases e
  | bytes b =>
    cases e
    cases a with
    | ref r =>
      have h1 : bytesOf (.bytes y) h = some y := rfl
      simp only [valEq, h1]
      cases bytesOf (.ref r) h <;> rfl
    | _ => rfl
  | ref r =>
    cases a with
    | ref r' =>
      simp only [valEq, e]
      cases bytesOf (.ref r') h <;> rfl
    | bytes b' =>
      have h1 : bytesOf (.bytes b') h = some b' := rfl
      simp only [valEq, e, h1]
      rfl
    | _ =>
      simp only [valEq, e]
      rfl

/-- `a == b` for a byte object `b`. -/
@[pysem] theorem cmp_eq_bytes {a b : Val} (e : (bytesOf b h).isSome = true) :
    cmpop .eq a b h = ok (.bool (bytesOf a h == bytesOf b h)) h := by
  obtain ⟨y, hy⟩ := Option.isSome_iff_exists.mp e
  simp only [cmpop, valEq_bytes h hy, hy]

@[pysem] theorem cmp_ne_bytes {a b : Val} (e : (bytesOf b h).isSome = true) :
    cmpop .ne a b h = ok (.bool (!(bytesOf a h == bytesOf b h))) h := by
  obtain ⟨y, hy⟩ := Option.isSome_iff_exists.mp e
  simp only [cmpop, valEq_bytes h hy, hy]

end

/-! Filling a byte array position by position. -/

/-- `R` has the length of `l` and agrees with it at the positions `P`. -/
def Filled (R l : Bytes) (P : Nat → Prop) : Prop :=
  R.length = l.length ∧ ∀ j, P j → R[j]? = l[j]?

theorem Filled.zero (n : Nat) (l : Bytes) (e : n = l.length) {P : Nat → Prop} (hP : ∀ j, ¬ P j) :
    Filled (List.replicate n 0) l P :=
  ⟨by simp [e], fun j hj => absurd hj (hP j)⟩

theorem Filled.set {R l : Bytes} {P Q : Nat → Prop} (f : Filled R l P) {k : Nat} {x : UInt8}
    (hx : l[k]? = some x) (hQ : ∀ j, Q j → P j ∨ j = k) : Filled (R.set k x) l Q := by
  refine ⟨by simpa using f.1, fun j hj => ?_⟩
  by_cases e : k = j
  · subst e
    have hk : k < R.length := by
      rw [f.1]
      rcases Nat.lt_or_ge k l.length with h | h
      · exact h
      · rw [List.getElem?_eq_none h] at hx
        cases hx
    rw [List.getElem?_set_self hk, hx]
  · rw [List.getElem?_set_ne e]
    rcases hQ j hj with h | h
    · exact f.2 j h
    · exact absurd h.symm e

theorem Filled.eq {R l : Bytes} {P : Nat → Prop} (f : Filled R l P) (hP : ∀ j, j < l.length → P j) :
    R = l := by
  apply List.ext_getElem?
  intro j
  rcases Nat.lt_or_ge j l.length with h | h
  · exact f.2 j (hP j h)
  · rw [List.getElem?_eq_none h, List.getElem?_eq_none (by rw [f.1]; exact h)]

theorem get_some {α : Type} {l : List α} {k : Nat} (h : k < l.length) : ∃ x, l[k]? = some x :=
  ⟨l[k], List.getElem?_eq_getElem h⟩

/-! Loops. -/

/-- A loop over given elements, by an invariant. -/
theorem for_inv {x : String} {body : Env → Heap → Out Flow} {vs : List Val} {env : Env} {h : Heap}
    {o : Out Flow} (hl : forLoop x body vs env h = o) (I : Nat → Env → Heap → Prop)
    (step : ∀ k v env h, vs[k]? = some v → I k env h →
      ∃ env' h', body (env.set x v) h = ok (.next env') h' ∧ I (k + 1) env' h')
    (start : I 0 env h) :
    ∃ env' h', o = ok (.next env') h' ∧ I vs.length env' h' := by
  subst hl
  induction vs generalizing env h I with
  | nil => exact ⟨env, h, rfl, start⟩
  | cons v vs ih =>
    obtain ⟨env1, h1, e1, i1⟩ := step 0 v env h rfl start
    obtain ⟨env2, h2, e2, i2⟩ := ih (fun k => I (k + 1)) (fun k w env h hk => step (k + 1) w env h hk)
      i1
    refine ⟨env2, h2, ?_, i2⟩
    unfold forLoop
    rw [e1]
    exact e2

theorem pyRange_up (n : Nat) : pyRange 0 n 1 = (List.range n).map fun k : Nat => .int k := by
  simp [pyRange]

theorem pyRange_from (a n : Nat) :
    pyRange a ((a + n : Nat) : Int) 1 = (List.range n).map fun k : Nat => .int ((k + a : Nat) : Int) := by
  have e : (((a + n : Nat) : Int) - a + 1 - 1) = n := by omega
  simp only [pyRange]
  rw [if_pos (by decide), e]
  simp [Int.add_comm]

theorem pyRange_down (n : Nat) :
    pyRange ((n : Int) - 1) (-1) (-1) = (List.range n).reverse.map fun k : Nat => .int k := by
  have e : ((n : Int) - 1 - -1 - -1 - 1) = n := by omega
  simp only [pyRange]
  rw [if_neg (by decide), e]
  rw [show ((n : Int).fdiv (- -1)) = n by simp]
  apply List.ext_getElem
  · simp
  · intro i h1 h2
    simp at h1 h2
    simp
    omega

/-- A comprehension whose elements are computed without new objects. -/
theorem evalComp_map {f : Val → Heap → Out Val} {h : Heap} (g : Val → Val) :
    ∀ l : List Val, (∀ v ∈ l, f v h = ok (g v) h) → evalComp f l h = ok (l.map g) h
  | [], _ => rfl
  | v :: l, e => by
    rw [evalComp, e v (by simp), andThen_ok, evalComp_map g l fun w hw => e w (by simp [hw]), andThen_ok]
    rfl

/-- `for x in range(n)`. -/
theorem for_range {x : String} {body : Env → Heap → Out Flow} {n : Nat} {env : Env} {h : Heap}
    {o : Out Flow} (hl : forLoop x body (pyRange 0 n 1) env h = o) (I : Nat → Env → Heap → Prop)
    (step : ∀ k env h, k < n → I k env h →
      ∃ env' h', body (env.set x (.int k)) h = ok (.next env') h' ∧ I (k + 1) env' h')
    (start : I 0 env h) :
    ∃ env' h', o = ok (.next env') h' ∧ I n env' h' := by
  rw [pyRange_up] at hl
  have := for_inv hl I (fun k v env h hv i => by
    rw [List.getElem?_map] at hv
    rcases Nat.lt_or_ge k n with hk | hk
    · rw [List.getElem?_range hk] at hv
      cases hv
      exact step k env h hk i
    · rw [List.getElem?_eq_none (by simpa using hk)] at hv
      cases hv) start
  simpa using this

theorem enumerated_get (l : List Val) : ∀ s k : Nat, (enumerated s l)[k]? =
    (l[k]?).map fun v => .tuple [.int ((s + k : Nat) : Int), v] := by
  induction l with
  | nil => intro s k; simp [enumerated]
  | cons v l ih =>
    intro s k
    cases k with
    | zero => rfl
    | succ k =>
      rw [enumerated, List.getElem?_cons_succ, List.getElem?_cons_succ, ih]
      congr 1
      funext v
      congr 4
      omega

theorem enumerated_length (l : List Val) : ∀ s, (enumerated s l).length = l.length := by
  induction l with
  | nil => intro s; rfl
  | cons v l ih => intro s; simp [enumerated, ih]

/-- `for x in enumerate(v)`. -/
theorem for_enum {x : String} {body : Env → Heap → Out Flow} {vs : List Val} {env : Env} {h : Heap}
    {o : Out Flow} (hl : forLoop x body (enumerated 0 vs) env h = o) (I : Nat → Env → Heap → Prop)
    (step : ∀ k v env h, vs[k]? = some v → I k env h →
      ∃ env' h', body (env.set x (.tuple [.int k, v])) h = ok (.next env') h' ∧ I (k + 1) env' h')
    (start : I 0 env h) :
    ∃ env' h', o = ok (.next env') h' ∧ I vs.length env' h' := by
  have := for_inv hl I (fun k v env h hv i => by
    rw [enumerated_get] at hv
    cases hw : vs[k]? with
    | none => rw [hw] at hv; cases hv
    | some w =>
      rw [hw] at hv
      cases hv
      rw [Nat.zero_add]
      exact step k w env h hw i) start
  rwa [enumerated_length] at this

theorem foldl_take_succ {α β : Type} (f : β → α → β) (z : β) {l : List α} {k : Nat} {x : α}
    (e : l[k]? = some x) : (l.take (k + 1)).foldl f z = f ((l.take k).foldl f z) x := by
  rw [List.take_add_one, e, List.foldl_append]
  rfl

/-! Memory that only grows. -/

/-- Everything in `h` is still there, unchanged, in `h'`. -/
def Ext (h h' : Heap) : Prop := ∃ l, h' = h ++ l

theorem Ext.refl (h : Heap) : Ext h h := ⟨[], by simp⟩

theorem Ext.trans {h h' h'' : Heap} (a : Ext h h') (b : Ext h' h'') : Ext h h'' := by
  obtain ⟨l, rfl⟩ := a
  obtain ⟨m, rfl⟩ := b
  exact ⟨l ++ m, by simp⟩

theorem Ext.add {h h' : Heap} (a : Ext h h') (l : Heap) : Ext h (h' ++ l) := a.trans ⟨l, rfl⟩

theorem Ext.length {h h' : Heap} (a : Ext h h') : h.length ≤ h'.length := by
  obtain ⟨l, rfl⟩ := a
  simp

theorem Ext.bytesOf {h h' : Heap} (a : Ext h h') {v : Val} {b : Bytes}
    (e : bytesOf v h = some b) : bytesOf v h' = some b := by
  obtain ⟨l, rfl⟩ := a
  exact bytesOf_mono e l

/-- What was in memory is still there. -/
macro "grow" : tactic =>
  `(tactic| repeat (first | assumption | exact Ext.refl _ | apply Ext.add))

/-- A new byte array with the contents `b` is returned; what was in memory before is unchanged. -/
def NewBytes (o : Out Val) (h : Heap) (b : Bytes) : Prop :=
  ∃ r h', o = ok (.ref r) h' ∧ Ext h h' ∧ h.length ≤ r ∧ bytesOf (.ref r) h' = some b

theorem NewBytes.last {h h' : Heap} (a : Ext h h') (b : Bytes) :
    NewBytes (ok (.ref h'.length) (h' ++ [.bytearray b])) h b :=
  ⟨_, _, rfl, a.add _, a.length, bytesOf_last b h'⟩

end Gost.Src
