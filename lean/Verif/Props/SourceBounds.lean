import Verif.Source.Bounds
import Verif.Props.SourceDefectsSig
import Verif.Props.SourceHash

/-! C112: the bounds of the semantics have no influence on results. Loops and nested calls are bounded in
`Verif.Source.Semantics` so that a run is a total function; here is shown that a call has at most one outcome other than
an exhausted bound, and that it has this outcome for all bounds from some bounds on. -/

namespace Gost.Src

open SigSrc Sig

/-- Larger bounds give larger surroundings. -/
theorem ctx_less {L M n m : Nat} (hL : L ≤ M) (hn : n ≤ m) : (ctx L n).Less (ctx M m) :=
  ⟨fun f vs h => call_less package hL n m hn f vs h, hL, rfl, rfl, rfl, rfl⟩

/-- Something which the caller does with the package, the bounds being `L` and `n`, has the outcome `o`. -/
def Outcome {α : Type} (p : Ctx → Heap → Out α) (h : Heap) (o : Out α) : Prop :=
  ∃ L n, p (ctx L n) h = o ∧ o.1 ≠ .error .fuel

/-- It never ends: no bounds are enough. -/
def Endless {α : Type} (p : Ctx → Heap → Out α) (h : Heap) : Prop := ∀ L n, (p (ctx L n) h).1 = .error .fuel

/-- With larger bounds it does the same or goes on where it was stopped. -/
def Steady {α : Type} (p : Ctx → Heap → Out α) : Prop := ∀ C D, C.Less D → ∀ h, Less (p C h) (p D h)

theorem steady_call (f : String) (args : List Val) : Steady fun C => C.call f args := fun _ _ c h => c.call f args h

theorem steady_meth (o : Val) (m : String) (args : List Val) : Steady fun C => callMeth C o m args :=
  fun _ _ c h => callMeth_less c o m args h

theorem steady_attr (o : Val) (a : String) : Steady fun C => getAttr C o a := fun _ _ c h => getAttr_less c o a h

/-- A program of the caller: statements of the fragment. -/
theorem steady_program (prog : List Stmt) (env : Env) : Steady fun C => execs C prog env :=
  fun _ _ c h => execs_less c prog env h

theorem Steady.andThen {α β : Type} {p : Ctx → Heap → Out α} {q : α → Ctx → Heap → Out β} (a : Steady p)
    (b : ∀ x, Steady (q x)) : Steady fun C h => Src.andThen (p C h) fun x h => q x C h :=
  fun C D c h => (a C D c h).andThen fun x h => b x C D c h

/-- **C112**: an outcome within some bounds is the outcome within all larger bounds. -/
theorem C112_bounds {α : Type} {p : Ctx → Heap → Out α} (s : Steady p) {L n : Nat} {h : Heap}
    (e : (p (ctx L n) h).1 ≠ .error .fuel) {M m : Nat} (hL : L ≤ M) (hn : n ≤ m) : p (ctx M m) h = p (ctx L n) h := by
  rcases s _ _ (ctx_less hL hn) h with e' | e'
  · exact absurd e' e
  · exact e'.symm

/-- **C112**: a call of the package, an access to an attribute or a program of the caller either never ends or has
exactly one outcome, which it has for all bounds from some bounds on. -/
theorem C112_one_outcome {α : Type} {p : Ctx → Heap → Out α} (s : Steady p) (h : Heap) :
    (Endless p h ∧ ∀ o, ¬ Outcome p h o) ∨
      ∃ o, Outcome p h o ∧ (∀ o', Outcome p h o' → o' = o) ∧ ¬ Endless p h ∧
        ∃ L n, ∀ M m, L ≤ M → n ≤ m → p (ctx M m) h = o := by
  by_cases e : Endless p h
  · exact Or.inl ⟨e, fun o ⟨L, n, e1, e2⟩ => e2 (e1 ▸ e L n)⟩
  · have : ∃ L n, (p (ctx L n) h).1 ≠ .error .fuel := by
      apply Classical.byContradiction
      intro hn
      exact e fun L n => Classical.byContradiction fun h1 => hn ⟨L, n, h1⟩
    obtain ⟨L, n, e1⟩ := this
    refine Or.inr ⟨_, ⟨L, n, rfl, e1⟩, ?_, e, L, n, fun M m hL hn => C112_bounds s e1 hL hn⟩
    rintro o' ⟨M, m, rfl, e2⟩
    rw [← C112_bounds s e1 (Nat.le_max_left L M) (Nat.le_max_left n m),
      ← C112_bounds s e2 (Nat.le_max_right L M) (Nat.le_max_right n m)]

/-- **C112** for the calls of the package. -/
theorem C112_call (f : String) (args : List Val) {L n M m : Nat} {h : Heap}
    (e : (call package L n f args h).1 ≠ .error .fuel) (hL : L ≤ M) (hn : n ≤ m) :
    call package M m f args h = call package L n f args h :=
  C112_bounds (steady_call f args) e hL hn

/-! ### Two applications -/

theorem steady_dict (d : List (String × Expr)) : Steady fun C => evalDict C d := by
  intro C D c
  induction d with
  | nil => exact fun _ => .refl _
  | cons x d ih =>
    intro h
    simp only [evalDict]
    exact (eval_less c x.2 _ h).andThen fun _ h => (ih h).andThen fun _ _ => .refl _

theorem steady_table (t : List (String × List (String × Expr))) : Steady fun C => evalTable C t := by
  intro C D c
  induction t with
  | nil => exact fun _ => .refl _
  | cons x t ih =>
    intro h
    simp only [evalTable]
    exact (steady_dict x.2 C D c h).andThen fun _ h => (ih h).andThen fun _ _ => .refl _

theorem steady_onCurve (mode : Int) (name m : String) (args : List Val) : Steady fun C => onCurve C mode name m args := by
  intro C D c h
  unfold onCurve
  refine (steady_table _ C D c h).andThen fun T h => ?_
  split
  · exact .refl _
  · exact (c.call _ _ h).andThen fun o h => callMeth_less c o m args h

/-- C112, loops which do not end: `public_key_generate` with the private key 0 and `sign` with the random number 0 have
no outcome at all; in C106 the depth of calls had to be large enough. -/
theorem C112_endless (h : Heap) :
    Endless (fun C => onCurve C 1 "id-tc26-gost-3410-2012-256-paramSetB" "public_key_generate"
      [.bytes (List.replicate 32 0)]) h ∧
    Endless (fun C => onCurve C 1 "id-tc26-gost-3410-2012-256-paramSetB" "sign"
      [.bytes B42.two, .bytes B42.one, .bytes [0]]) h := by
  constructor
  · intro L n
    apply Classical.byContradiction
    intro e
    have e' := C112_bounds (steady_onCurve _ _ _ _) e (Nat.le_succ L) (show n ≤ 739 + n + 4 by omega)
    obtain ⟨⟨h', e1⟩, -⟩ := C106_endless L (739 + n) (by omega) h
    apply e
    show (onCurve (ctx L n) _ _ _ _ h).1 = _
    rw [← e', e1]
    rfl
  · intro L n
    apply Classical.byContradiction
    intro e
    have e' := C112_bounds (steady_onCurve _ _ _ _) e (Nat.le_succ L) (show n ≤ 739 + n + 4 by omega)
    obtain ⟨-, h', e1⟩ := C106_endless L (739 + n) (by omega) h
    apply e
    show (onCurve (ctx L n) _ _ _ _ h).1 = _
    rw [← e', e1]
    rfl

theorem steady_hashOnce (name : String) (v : Val) : Steady fun C => hashOnce C name v :=
  (steady_call _ _).andThen fun o => steady_meth o "digest" []

/-- C112, what the theorems about the text say without bounds: the hash value has an outcome, and whatever bounds were
chosen, an outcome is a new object which holds the value of the standard. -/
theorem C112_hash (h : Heap) (name : String) (hn : name = "streebog512" ∨ name = "streebog256") (v : Val) (d : Bytes)
    (e : bytesOf v h = some d) :
    (∃ o, Outcome (fun C => hashOnce C name v) h o) ∧
      ∀ o, Outcome (fun C => hashOnce C name v) h o → NewBytes o h (Spec.hashOf name d) := by
  have e1 : (hashOnce (ctx 0 (0 + 7)) name v h).1 ≠ .error .fuel := by
    obtain ⟨w, l, f, -⟩ := (C97_standard 0 0 h name hn v d e).elim
    rw [f]
    intro e2
    cases e2
  refine ⟨⟨_, 0, 7, rfl, e1⟩, ?_⟩
  rintro o ⟨L, n, rfl, e2⟩
  have e3 := C112_bounds (steady_hashOnce name v) e2 (Nat.le_refl L) (show n ≤ n + 7 by omega)
  have w := C97_standard L n h name hn v d e
  show NewBytes (hashOnce (ctx L n) name v h) h _
  rw [← show hashOnce (ctx L (n + 7)) name v h = hashOnce (ctx L n) name v h from e3]
  exact w

/-- A call which has an outcome, and one which never ends: both cases of `C112_one_outcome` are met. -/
example (h : Heap) :
    (∃ o, Outcome (fun C => hashOnce C "streebog256" (.bytes [1, 2, 3])) h o) ∧
      ∀ o, ¬ Outcome (fun C => onCurve C 1 "id-tc26-gost-3410-2012-256-paramSetB" "public_key_generate"
        [.bytes (List.replicate 32 0)]) h o :=
  ⟨(C112_hash h _ (Or.inr rfl) _ _ rfl).1, fun _ ⟨L, n, e1, e2⟩ => e2 (e1 ▸ (C112_endless h).1 L n)⟩

end Gost.Src
