import Verif.Source.Memory

/-! Programs which assign to the attributes of an object. -/

namespace Gost.Src

/-- Of the memory `h` only the cells `W` have changed, and no byte array. -/
structure Keeps (W : List Nat) (h h' : Heap) : Prop where
  frame : Frame W h h'
  bytes : ∀ {v b}, bytesOf v h = some b → bytesOf v h' = some b

theorem Ext.keeps {h h' : Heap} (x : Ext h h') (W : List Nat) : Keeps W h h' :=
  ⟨x.frame W, fun e => x.bytesOf e⟩

theorem Keeps.refl (W : List Nat) (h : Heap) : Keeps W h h := (Ext.refl h).keeps W

theorem Keeps.trans {W : List Nat} {h h' h'' : Heap} (a : Keeps W h h') (b : Keeps W h' h'') : Keeps W h h'' :=
  ⟨a.frame.trans b.frame, fun e => b.bytes (a.bytes e)⟩

theorem Keeps.then {W W' : List Nat} {h h' h'' : Heap} (a : Keeps W h h') (b : Keeps W' h' h'')
    (s : ∀ r ∈ W', r ∈ W ∨ h.length ≤ r) : Keeps W h h'' :=
  ⟨a.frame.then b.frame s, fun e => b.bytes (a.bytes e)⟩

theorem Keeps.mono {W W' : List Nat} {h h' : Heap} (a : Keeps W h h') (s : ∀ r ∈ W, r < h.length → r ∈ W') :
    Keeps W' h h' :=
  ⟨a.frame.mono s, a.bytes⟩

theorem Keeps.add {W : List Nat} {h h' : Heap} (a : Keeps W h h') (l : Heap) : Keeps W h (h' ++ l) :=
  a.trans (((Ext.refl h').add l).keeps W)

theorem Keeps.get {W : List Nat} {h h' : Heap} (a : Keeps W h h') {r : Nat} {o : Obj} (e : h[r]? = some o)
    (hr : r ∉ W) : h'[r]? = some o := a.frame.get e hr

theorem Keeps.ext {h h' : Heap} (a : Keeps [] h h') : Ext h h' := a.frame.ext

theorem Keeps.length {W : List Nat} {h h' : Heap} (a : Keeps W h h') : h.length ≤ h'.length := a.frame.1

/-- A change of an object. -/
theorem keeps_set {h : Heap} {r : Nat} {c c' : String} {l l' : List (String × Val)} (o : h[r]? = some (.inst c l)) :
    Keeps [r] h (h.set r (.inst c' l')) :=
  ⟨(Frame.refl _ _).set (by simp) _, fun {v b} e => by
    rw [bytesOf_set v (by rw [o]; rfl) rfl, e]⟩

theorem keeps_setNew {W : List Nat} {h h' : Heap} {r : Nat} {c c' : String} {l l' : List (String × Val)}
    (k : Keeps W h h') (o : h'[r]? = some (.inst c l)) (hr : h.length ≤ r) :
    Keeps W h (h'.set r (.inst c' l')) :=
  k.then (keeps_set o) (by simp; exact Or.inr hr)

/-- `x = e`. -/
theorem execs_assign {C : Ctx} {x : String} {e : Expr} {rest : List Stmt} {env : Env} {h h' : Heap} {v : Val}
    (he : eval C env e h = ok v h') :
    execs C (.assign (.name x) e :: rest) env h = execs C rest (env.set x v) h' := by
  py [he]

/-- `if c: t` with a false condition. -/
theorem execs_skip {C : Ctx} {c : Expr} {t rest : List Stmt} {env : Env} {h h' : Heap}
    (he : eval C env c h = ok (.bool false) h') :
    execs C (.if_ c t [] :: rest) env h = execs C rest env h' := by
  py [he]

/-- The end of a function. -/
def atEnd (r : Out Flow) : Out Val :=
  andThen r fun r h =>
    match r with
    | .ret v => ok v h
    | .next _ => ok .none h

/-- A function with all its arguments. -/
theorem run_body {C : Ctx} {d : FunDef} {args : List Val} (h : Heap) {env : Env}
    (hp : args.length = d.params.length) (hs : setNames d.params args .empty = some env) :
    run C d args h = atEnd (execs C d.body env h) := by
  rw [run, bindParams_exact C d args h hp, andThen_ok, hs]
  rfl

theorem set_step {H H1 : Heap} {me : Nat} {cls cls' : String} {A A' : List (String × Val)}
    (e : H.set me (.inst cls' A') = H1) (o : H[me]? = some (.inst cls A)) :
    H1[me]? = some (.inst cls' A') ∧ Keeps [me] H H1 ∧ H1.length = H.length := by
  subst e
  exact ⟨get_set_same _ (by rw [o]; rfl), keeps_set o, by simp⟩

/-- Execute the assignment to an attribute of an object at which `py` has stopped because it was not
told what the object is. -/
macro "upd" o:term "with" H:ident e:ident k:ident l:ident : tactic =>
  `(tactic| (try simp only [$o:term, setAttrList, String.reduceEq, ↓reduceIte, andThen_ok, thenRun_next]
             generalize hupd : List.set _ _ (Obj.inst _ _) = $H
             have hstep := set_step hupd $o
             have $e := hstep.1
             have $k := hstep.2.1
             have $l := hstep.2.2
             clear hupd hstep))

end Gost.Src
