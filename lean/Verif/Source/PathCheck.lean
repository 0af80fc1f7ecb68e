import Verif.Source.PathBuiltins

/-! A check of functions: on arguments and memories of the same shape they take the same path. The check gives types
(`Ty`) to expressions and variables. It accepts a condition only if its value is the same in both runs. -/

namespace Gost.Src

/-- The value of a name in a table. -/
def tfind {α : Type} (x : String) : List (String × α) → Option α
  | [] => none
  | (y, v) :: l => if same x y then some v else tfind x l

/-- Types of variables. -/
abbrev TEnv := List (String × Ty)

def TEnv.set (Γ : TEnv) (x : String) (t : Ty) : TEnv := (x, t) :: Γ.filter fun p => !same p.1 x

/-- What two types of variables say both. -/
def TEnv.join (Γ Δ : TEnv) : TEnv := Γ.filterMap fun p =>
  match tfind p.1 Γ, tfind p.1 Δ with
  | some s, some t =>
    match s.join t with
    | some u => some (p.1, u)
    | none => none
  | _, _ => none

/-- The same, but a number which changes is any integer. -/
def TEnv.widen (Γ Δ : TEnv) : TEnv := Γ.filterMap fun p =>
  match tfind p.1 Γ, tfind p.1 Δ with
  | some s, some t =>
    if t.sub s then some (p.1, s)
    else if s.isInt && t.isInt then some (p.1, .int)
    else
      match s.join t with
      | some u => some (p.1, u)
      | none => none
  | _, _ => none

/-- One says everything that another says. -/
def TEnv.le (Γ Δ : TEnv) : Bool := Δ.all fun p =>
  match tfind p.1 Γ, tfind p.1 Δ with
  | some s, some t => s.sub t
  | _, _ => false

/-- A type which says what all say. -/
def joinAll : List Ty → Option Ty
  | [] => none
  | [t] => some t
  | t :: ts =>
    match joinAll ts with
    | some u => t.join u
    | none => none

def subL : List Ty → List Ty → Bool
  | [], [] => true
  | s :: ss, t :: ts => s.sub t && subL ss ts
  | _, _ => false

/-- What the check knows of the program. -/
structure Sig where
  attr : String → String → Ty
  glob : String → Option Ty
  meth : String → String → Option (String × Bool)
  prop : String → String → Option String
  /-- The types of arguments and results of functions. -/
  fns : List (String × List (List Ty × Ty))

/-- The result of a call. -/
def Sig.call (S : Sig) (f : String) (ts : List Ty) : Option Ty :=
  match ((tfind f S.fns).getD []).find? fun p => subL ts p.1 with
  | some p => some p.2
  | none => none

/-- The types which a function gives for the members of a list. -/
def allSome {α β : Type} (f : α → Option β) : List α → Option (List β)
  | [] => some []
  | a :: l =>
    match f a, allSome f l with
    | some b, some m => some (b :: m)
    | _, _ => none

/-- The type of `v.m(args)` for an object of one of the classes. -/
def Sig.callMeth (S : Sig) (cs : List String) (m : String) (ts : List Ty) : Option Ty :=
  match allSome (fun c =>
    match S.meth c m with
    | some (f, static) => S.call f (if static then ts else .inst [c] :: ts)
    | none => none) cs with
  | some us => joinAll us
  | none => none

/-- The type of `v.a`. -/
def Sig.getAttr (S : Sig) (cs : List String) (a : String) : Option Ty :=
  match allSome (fun c =>
    match S.prop c a with
    | some f => S.call f [.inst [c]]
    | none => some (S.attr c a)) cs with
  | some us => joinAll us
  | none => none

/-- `bytearray(b'')`. -/
def emptyArray : Expr → Bool
  | .builtin f [.bytes []] => same f "bytearray"
  | _ => false

def isEq : CmpOp → Bool
  | .eq | .ne => true
  | _ => false

/-- The first argument is the name of a keyword argument which is a byte string. -/
def keyed : List Expr → Bool
  | .str k :: _ => byteKey k
  | _ => false

mutual

/-- The type of an expression. -/
def te (S : Sig) (Γ : TEnv) : Expr → Option Ty
  | .none => some .low
  | .bool b => some (.const b)
  | .int i =>
    match i with
    | .ofNat n => some (.lit n)
    | .negSucc _ => some .lint
  | .str _ => some .str
  | .bytes _ => some .arr
  | .name x => tfind x Γ
  | .glob x => S.glob x
  | .attr e a =>
    match te S Γ e with
    | some (.inst cs) => S.getAttr cs a
    | _ => none
  | .bin op a b =>
    match te S Γ a, te S Γ b with
    | some s, some t => tyBin op s t
    | _, _ => none
  | .cmp op a b =>
    match te S Γ a, te S Γ b with
    | some s, some t => if isEq op && emptyArray b && s.isLow then some .lbool else tyCmp op s t
    | _, _ => none
  | .and a b =>
    match te S Γ a, te S Γ b with
    | some (.const c), some t => if c then some t else some (.const false)
    | some s, some t => if s.isLow then s.join t else none
    | _, _ => none
  | .or a b =>
    match te S Γ a, te S Γ b with
    | some (.const c), some t => if c then some (.const true) else some t
    | some s, some t => if s.isLow then s.join t else none
    | _, _ => none
  | .not a =>
    match te S Γ a with
    | some (.const b) => some (.const (!b))
    | some .flag => some .flag
    | some s => if s.isLow then some .lbool else if s.isInt then some .flag else none
    | none => none
  | .neg a =>
    match te S Γ a with
    | some s => if s.isLow then some .lint else none
    | none => none
  | .index e i =>
    match te S Γ e, te S Γ i with
    | some s, some t => tyIndex s t
    | _, _ => none
  | .slice e lo hi =>
    match te S Γ e with
    | some s => if teo S Γ lo && teo S Γ hi then tySlice s else none
    | none => none
  | .tuple es =>
    match tes S Γ es with
    | some ts => if ts.all Ty.isScalar then some .scals else if ts.all Ty.isLow then some .seq else none
    | none => none
  | .list es =>
    match tes S Γ es with
    | some ts => if ts.all Ty.isLow then some .seq else none
    | none => none
  | .comp elt x iter =>
    match te S Γ iter with
    | some t =>
      match t.item with
      | some s =>
        match te S (Γ.set x s) elt with
        | some u => if u.isLow then some .seq else none
        | none => none
      | none => none
    | none => none
  | .builtin f args =>
    match tes S Γ args with
    | some ts =>
      if same f "deepcopy" then
        match ts with
        | [t] => some t
        | _ => none
      else tyBuiltin f ts
    | none => none
  | .call f args =>
    match tes S Γ args with
    | some ts => S.call f ts
    | none => none
  | .meth e m args =>
    match te S Γ e, tes S Γ args with
    | some (.inst cs), some ts => S.callMeth cs m ts
    | some t, some ts =>
      if decide (t = .dict) && same m "get" && decide (ts = [.str, .arr]) && keyed args then some .arr
      else tyMeth t m ts
    | _, _ => none
  | .new cls args =>
    match tes S Γ args, S.meth cls "__init__" with
    | some ts, some (f, _) =>
      match S.call f (.inst [cls] :: ts) with
      | some _ => some (.inst [cls])
      | none => none
    | _, _ => none

def tes (S : Sig) (Γ : TEnv) : List Expr → Option (List Ty)
  | [] => some []
  | e :: es =>
    match te S Γ e, tes S Γ es with
    | some t, some ts => some (t :: ts)
    | _, _ => none

def teo (S : Sig) (Γ : TEnv) : Option Expr → Bool
  | none => true
  | some e =>
    match te S Γ e with
    | some t => t.isLow
    | none => false

end

/-- The variables after an assignment. -/
def ta (S : Sig) (Γ : TEnv) (t : Ty) : Target → Option TEnv
  | .name x => some (Γ.set x t)
  | .attr e a =>
    match te S Γ e with
    | some o => if okSetAttr S.attr o a t then some Γ else none
    | none => none
  | .index e i =>
    match te S Γ e, te S Γ i with
    | some o, some j => if okSetItem o j t then some Γ else none
    | _, _ => none
  | .slice e lo hi =>
    match te S Γ e with
    | some o => if o.isLow && teo S Γ lo && teo S Γ hi && t.isLow then some Γ else none
    | none => none
  | .names xs => if t.sub .seq then some (xs.foldl (fun Γ x => Γ.set x .low) Γ) else none
  | .attrs _ => none

/-- Two ends of a statement. -/
def joinEnd : Option TEnv → Option TEnv → Option TEnv
  | none, e => e
  | e, none => e
  | some Γ, some Δ => some (Γ.join Δ)

/-- `range(n)` with a positive number. -/
def someTurns : Expr → Bool
  | .builtin f [.int (.ofNat (_ + 1))] => same f "range"
  | _ => false

/-- The types of variables at the beginning of every turn of a loop. -/
def loopEnv (body : TEnv → Option (Option TEnv)) (Γ : TEnv) : TEnv :=
  match body Γ with
  | some (some Δ) =>
    if Δ.le Γ then Γ
    else
      let Γ₁ := Γ.join Δ
      match body Γ₁ with
      | some (some Δ) =>
        if Δ.le Γ₁ then Γ₁
        else
          let Γ₂ := Γ₁.widen Δ
          match body Γ₂ with
          | some (some Δ) => if Δ.le Γ₂ then Γ₂ else Γ₂.widen Δ
          | _ => Γ₂
      | _ => Γ₁
  | _ => Γ

mutual

/-- The types of the variables after a statement; `some none` if it never ends normally. `r` is the type of the
result of the function. -/
def ts (S : Sig) (r : Ty) : Stmt → TEnv → Option (Option TEnv)
  | .pass, Γ => some (some Γ)
  | .assign t e, Γ =>
    match te S Γ e with
    | some u =>
      match ta S Γ u t with
      | some Δ => some (some Δ)
      | none => none
    | none => none
  | .expr e, Γ =>
    match te S Γ e with
    | some _ => some (some Γ)
    | none => none
  | .ret e, Γ =>
    match te S Γ e with
    | some u => if u.sub r then some none else none
    | none => none
  | .if_ c t e, Γ =>
    match te S Γ c with
    | some (.const b) => if b then tss S r t Γ else tss S r e Γ
    | some u =>
      if u.isLow then
        match tss S r t Γ, tss S r e Γ with
        | some a, some b => some (joinEnd a b)
        | _, _ => none
      else none
    | none => none
  | .for_ x iter body, Γ =>
    match te S Γ iter with
    | some t =>
      match t.item with
      | some s =>
        let I := loopEnv (fun Δ => tss S r body (Δ.set x s)) Γ
        if Γ.le I then
          match tss S r body (I.set x s) with
          | some (some Δ) => if Δ.le I then some (some (if someTurns iter then Δ else I)) else none
          | some none => some (some I)
          | none => none
        else none
      | none => none
    | none => none
  | .while_ _ _, _ => none
  | .raise _ _, _ => some none
  | .tryValueError _ _, _ => none

def tss (S : Sig) (r : Ty) : List Stmt → TEnv → Option (Option TEnv)
  | [], Γ => some (some Γ)
  | s :: ss, Γ =>
    match ts S r s Γ with
    | some (some Δ) => tss S r ss Δ
    | some none => some none
    | none => none

end

/-- The types of the parameters. -/
def paramEnv : List String → List Ty → TEnv → Option TEnv
  | [], [], Γ => some Γ
  | x :: xs, t :: us, Γ => paramEnv xs us (Γ.set x t)
  | _, _, _ => none

/-- A function with given types of arguments and result. -/
def tf (S : Sig) (d : FunDef) (ps : List Ty) (r : Ty) : Bool :=
  match paramEnv d.params ps [] with
  | some Γ =>
    match tss S r d.body Γ with
    | some none => true
    | some (some _) => Ty.low.sub r
    | none => false
  | none => false

end Gost.Src
