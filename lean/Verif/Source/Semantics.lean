import Verif.Source.Syntax

/-! What a program of the fragment does. Expressions and statements are functions from the heap to a
result and a new heap. The heap only grows; memory is never reclaimed, and `__del__` is not called
here.

What is not covered ends with the exception `stuck`, which no handler catches: a theorem which says
that a call returns or raises says as well that it does not leave the fragment. -/

namespace Gost.Src

abbrev Heap := List Obj

/-- Local variables. -/
abbrev Env := String → Option Val

def Env.empty : Env := fun _ => .none

def Env.set (env : Env) (x : String) (v : Val) : Env := fun y => if y = x then some v else env y

/-- The outcome of a computation: a value or an exception, and the heap. -/
abbrev Out (α : Type) := Except Exc α × Heap

/-- Continue if there was no exception. -/
def andThen {α β : Type} (o : Out α) (f : α → Heap → Out β) : Out β :=
  match o with
  | (.ok a, h) => f a h
  | (.error e, h) => (.error e, h)

def fail {α : Type} (e : Exc) (h : Heap) : Out α := (.error e, h)

def ok {α : Type} (a : α) (h : Heap) : Out α := (.ok a, h)

/-- A new object. -/
def alloc (o : Obj) (h : Heap) : Out Val := ok (.ref h.length) (h ++ [o])

/-- The contents of a `bytes` or `bytearray`. -/
def bytesOf (v : Val) (h : Heap) : Option Bytes :=
  match v with
  | .bytes b => some b
  | .ref r =>
    match h[r]? with
    | some (.bytearray b) => some b
    | _ => none
  | _ => none

/-- The elements over which a loop runs. -/
def elems (v : Val) (h : Heap) : Option (List Val) :=
  match v with
  | .tuple l => some l
  | .bytes b => some (b.map fun x => .int x.toNat)
  | .ref r =>
    match h[r]? with
    | some (.bytearray b) => some (b.map fun x => .int x.toNat)
    | some (.list l) => some l
    | _ => none
  | _ => none

/-- The truth value of an expression. -/
def truth (v : Val) : Option Bool :=
  match v with
  | .none => some false
  | .bool b => some b
  | .int i => some (decide (i ≠ 0))
  | _ => none

/-- `a & b` of integers in two's complement. -/
def intAnd : Int → Int → Int
  | .ofNat m, .ofNat n => ((m &&& n : Nat) : Int)
  | .ofNat m, .negSucc n => ((m ^^^ (m &&& n) : Nat) : Int)
  | .negSucc m, .ofNat n => ((n ^^^ (n &&& m) : Nat) : Int)
  | .negSucc m, .negSucc n => .negSucc (m ||| n)

/-- `==`. A `bool` is equal to 0 or 1, two lists or instances may be equal: this is left open. -/
def valEq (a b : Val) (h : Heap) : Option Bool :=
  match a, b with
  | .none, .none => some true
  | .bool x, .bool y => some (x == y)
  | .int x, .int y => some (x == y)
  | .str x, .str y => some (x == y)
  | .tuple _, .tuple _ => none
  | .dict _, .dict _ => none
  | .bool _, .int _ => none
  | .int _, .bool _ => none
  | a, b =>
    match bytesOf a h, bytesOf b h with
    | some x, some y => some (x == y)
    | none, none =>
      match a, b with
      | .ref _, .ref _ => none
      | _, _ => some false
    | _, _ => some false

/-- `v in l`. -/
def valIn (v : Val) (h : Heap) : List Val → Option Bool
  | [] => some false
  | w :: ws =>
    match valEq v w h with
    | some true => some true
    | some false => valIn v h ws
    | none => none

def arith (op : BinOp) (a b : Int) : Except Exc Int :=
  match op with
  | .add => .ok (a + b)
  | .sub => .ok (a - b)
  | .mul => .ok (a * b)
  | .floordiv => if b = 0 then .error .zeroDiv else .ok (a.fdiv b)
  | .mod => if b = 0 then .error .zeroDiv else .ok (a.fmod b)
  | .pow => if b < 0 then .error .stuck else .ok (a ^ b.toNat)
  | .band => .ok (intAnd a b)
  | .bor => if a < 0 ∨ b < 0 then .error .stuck else .ok ((a.toNat ||| b.toNat : Nat) : Int)
  | .bxor => if a < 0 ∨ b < 0 then .error .stuck else .ok ((a.toNat ^^^ b.toNat : Nat) : Int)
  | .shl => if b < 0 then .error .value else .ok (a * 2 ^ b.toNat)
  | .shr => if b < 0 then .error .value else .ok (a.fdiv (2 ^ b.toNat))

/-- A byte string repeated; a negative count is zero. -/
def repeated (b : Bytes) (n : Int) : Bytes := (List.replicate n.toNat b).flatten

/-- Binary operators. `+` of two byte objects has the type of the first one. -/
def binop (op : BinOp) (a b : Val) (h : Heap) : Out Val :=
  match a, b with
  | .int x, .int y =>
    match arith op x y with
    | .ok z => ok (.int z) h
    | .error e => fail e h
  | a, b =>
    match op with
    | .add =>
      match a, bytesOf a h, bytesOf b h with
      | .bytes _, some x, some y => ok (.bytes (x ++ y)) h
      | .ref _, some x, some y => alloc (.bytearray (x ++ y)) h
      | _, _, _ => fail .stuck h
    | .mul =>
      match a, b with
      | .bytes x, .int n => ok (.bytes (repeated x n)) h
      | .int n, .bytes x => ok (.bytes (repeated x n)) h
      | _, _ => fail .stuck h
    | _ => fail .stuck h

def intCmp (op : CmpOp) (a b : Int) : Option Bool :=
  match op with
  | .lt => some (decide (a < b))
  | .le => some (decide (a ≤ b))
  | .gt => some (decide (a > b))
  | .ge => some (decide (a ≥ b))
  | _ => none

def cmpop (op : CmpOp) (a b : Val) (h : Heap) : Out Val :=
  match op with
  | .eq =>
    match valEq a b h with
    | some r => ok (.bool r) h
    | none => fail .stuck h
  | .ne =>
    match valEq a b h with
    | some r => ok (.bool (!r)) h
    | none => fail .stuck h
  | .isIn =>
    match b with
    | .tuple l =>
      match valIn a h l with
      | some r => ok (.bool r) h
      | none => fail .stuck h
    | _ => fail .stuck h
  | .notIn =>
    match b with
    | .tuple l =>
      match valIn a h l with
      | some r => ok (.bool (!r)) h
      | none => fail .stuck h
    | _ => fail .stuck h
  | op =>
    match a, b with
    | .int x, .int y =>
      match intCmp op x y with
      | some r => ok (.bool r) h
      | none => fail .stuck h
    | _, _ => fail .stuck h

/-- `v[i]`. -/
def getItem (v i : Val) (h : Heap) : Out Val :=
  match i with
  | .int i =>
    match elems v h with
    | some l =>
      match pyGet l i with
      | .ok x => ok x h
      | .error _ => fail .index h
    | none => fail .stuck h
  | _ => fail .stuck h

/-- `v[lo:hi]`: a new object if `v` is mutable. -/
def getSlice (v : Val) (lo hi : Option Int) (h : Heap) : Out Val :=
  let cut {α : Type} (l : List α) : List α :=
    match lo, hi with
    | some i, some j => pySlice l i j
    | some i, none => pyFrom l i
    | none, some j => pyUpto l j
    | none, none => l
  match v with
  | .bytes b => ok (.bytes (cut b)) h
  | .tuple l => ok (.tuple (cut l)) h
  | .ref r =>
    match h[r]? with
    | some (.bytearray b) => alloc (.bytearray (cut b)) h
    | some (.list l) => alloc (.list (cut l)) h
    | _ => fail .stuck h
  | _ => fail .stuck h

/-- The position of an index, if it is in range. -/
def position (i : Int) (n : Nat) : Option Nat :=
  let j := if i < 0 then i + n else i
  if 0 ≤ j ∧ j < n then some j.toNat else none

/-- `v[i] = x`. -/
def setItem (v i x : Val) (h : Heap) : Out Unit :=
  match v, i with
  | .ref r, .int i =>
    match h[r]? with
    | some (.bytearray b) =>
      match x with
      | .int x =>
        match position i b.length with
        | some j =>
          if 0 ≤ x ∧ x < 256 then ok () (h.set r (.bytearray (b.set j (UInt8.ofNat x.toNat))))
          else fail .value h
        | none => fail .index h
      | _ => fail .stuck h
    | some (.list l) =>
      match position i l.length with
      | some j => ok () (h.set r (.list (l.set j x)))
      | none => fail .index h
    | _ => fail .stuck h
  | _, _ => fail .stuck h

/-- `v[lo:hi] = x` on a `bytearray`. -/
def setSlice (v : Val) (lo hi : Option Int) (x : Val) (h : Heap) : Out Unit :=
  match v with
  | .ref r =>
    match h[r]?, bytesOf x h with
    | some (.bytearray b), some y =>
      ok () (h.set r (.bytearray (pySliceAssign b (lo.getD 0) (hi.getD b.length) y)))
    | _, _ => fail .stuck h
  | _ => fail .stuck h

def findAttr (a : String) : List (String × Val) → Option Val
  | [] => .none
  | (b, v) :: l => if b = a then some v else findAttr a l

def setAttrList (a : String) (v : Val) : List (String × Val) → List (String × Val)
  | [] => [(a, v)]
  | (b, w) :: l => if b = a then (a, v) :: l else (b, w) :: setAttrList a v l

/-- `v.a = x`. -/
def setAttr (v : Val) (a : String) (x : Val) (h : Heap) : Out Unit :=
  match v with
  | .ref r =>
    match h[r]? with
    | some (.inst c l) => ok () (h.set r (.inst c (setAttrList a x l)))
    | _ => fail .stuck h
  | _ => fail .stuck h

/-- A list of integers as bytes; `bytearray` raises for numbers out of range. -/
def intsToBytes : List Val → Option Bytes
  | [] => some []
  | .int i :: l =>
    match intsToBytes l with
    | some b => if 0 ≤ i ∧ i < 256 then some (UInt8.ofNat i.toNat :: b) else none
    | none => none
  | _ :: _ => none

def isInt : Val → Bool
  | .int _ => true
  | _ => false

/-- `bytearray` of a list or tuple. -/
def listBytearray (l : List Val) (h : Heap) : Out Val :=
  match intsToBytes l with
  | some b => alloc (.bytearray b) h
  | none => if l.all isInt then fail .value h else fail .stuck h

/-- `bytearray(v)`. -/
def newBytearray (v : Val) (h : Heap) : Out Val :=
  match v with
  | .int n => if n < 0 then fail .value h else alloc (.bytearray (List.replicate n.toNat 0)) h
  | v =>
    match bytesOf v h with
    | some b => alloc (.bytearray b) h
    | none =>
      match v with
      | .tuple l => listBytearray l h
      | .ref r =>
        match h[r]? with
        | some (.list l) => listBytearray l h
        | _ => fail .stuck h
      | _ => fail .stuck h

/-- `isinstance(v, (bytes, bytearray))`. -/
def isBytes (v : Val) (h : Heap) : Bool := (bytesOf v h).isSome

/-- `range(lo, hi, step)` for a step which is not zero. -/
def pyRange (lo hi step : Int) : List Val :=
  let n := if 0 < step then (hi - lo + step - 1).fdiv step else (lo - hi - step - 1).fdiv (-step)
  (List.range n.toNat).map fun k : Nat => .int (lo + step * (k : Int))

/-- `len(v)`. -/
def pyLen (v : Val) (h : Heap) : Out Val :=
  match elems v h with
  | some l => ok (.int l.length) h
  | none => fail .stuck h

/-- `x.to_bytes(n, byteorder)`. -/
def toBytes (x n : Int) (order : String) (h : Heap) : Out Val :=
  if n < 0 then fail .value h
  else if x < 0 ∨ 256 ^ n.toNat ≤ x then fail .overflow h
  else
    let b : Bytes := (List.range n.toNat).map fun k => UInt8.ofNat (x.toNat / 256 ^ k % 256)
    ok (.bytes (if order = "big" then b.reverse else b)) h

/-- `int.from_bytes(v, 'big')`. -/
def fromBig (b : Bytes) : Nat := b.foldl (fun n x => n * 256 + x.toNat) 0

/-- `enumerate(v)`. -/
def enumerated (k : Nat) : List Val → List Val
  | [] => []
  | v :: l => .tuple [.int k, v] :: enumerated (k + 1) l

/-- The built-in functions. Every call of `os.urandom` returns the next element of `rand`, which
the cell 0 of the heap holds as a list. -/
def builtin (f : String) (args : List Val) (h : Heap) : Out Val :=
  match f, args with
  | "len", [v] => pyLen v h
  | "bytearray", [] => alloc (.bytearray []) h
  | "bytearray", [v] => newBytearray v h
  | "isbytes", [v] => ok (.bool (isBytes v h)) h
  | "min", [.int a, .int b] => ok (.int (min a b)) h
  | "range", [.int b] => ok (.tuple (pyRange 0 b 1)) h
  | "range", [.int a, .int b] => ok (.tuple (pyRange a b 1)) h
  | "range", [.int a, .int b, .int c] => if c = 0 then fail .value h else ok (.tuple (pyRange a b c)) h
  | "enumerate", [v] =>
    match elems v h with
    | some l => ok (.tuple (enumerated 0 l)) h
    | none => fail .stuck h
  | "tuple", [v] =>
    match elems v h with
    | some l => ok (.tuple l) h
    | none => fail .stuck h
  | "int.from_bytes", [v, .str "big"] =>
    match bytesOf v h with
    | some b => ok (.int (fromBig b)) h
    | none => fail .stuck h
  | "int", [.str s] =>
    match Oid.pyInt s.toList with
    | some i => ok (.int i) h
    | none => fail .value h
  | "hasattr", [.ref r, .str a] =>
    match h[r]? with
    | some (.inst _ l) => ok (.bool (findAttr a l).isSome) h
    | _ => fail .stuck h
  | "pack>I", [.int x] => if 0 ≤ x ∧ x < 2 ^ 32 then toBytes x 4 "big" h else fail .stuck h
  | "os.urandom", [.int n] =>
    match h[0]? with
    | some (Obj.list (Val.bytes b :: l)) =>
      if b.length = n then ok (.bytes b) (h.set 0 (.list l)) else fail .stuck h
    | _ => fail .stuck h
  | _, _ => fail .stuck h

/-- Methods of the built-in types. -/
def builtinMeth (v : Val) (m : String) (args : List Val) (h : Heap) : Out Val :=
  match m, v, args with
  | "to_bytes", .int x, [.int n, .str order] => toBytes x n order h
  | "bit_length", .int x, [] => ok (.int (Oid.bitLength x.natAbs)) h
  | "get", .dict l, [.str k, d] => ok ((findAttr k l).getD d) h
  | "split", .str s, [.str "."] =>
    alloc (.list ((Oid.splitDot s.toList).map fun w => .str (String.ofList w))) h
  | "append", .ref r, [x] =>
    match h[r]? with
    | some (.list l) => ok .none (h.set r (.list (l ++ [x])))
    | _ => fail .stuck h
  | "hex", v, [] =>
    match bytesOf v h with
    | some b => ok (.str (String.ofList (pyHex b))) h
    | none => fail .stuck h
  | _, _, _ => fail .stuck h

/-- The surroundings of a function: how functions of the package are called, the bound for loops,
the globals, the classes. -/
structure Ctx where
  call : String → List Val → Heap → Out Val
  loops : Nat
  globals : String → Option Val
  /-- The function which implements a method of a class, and whether it is static. -/
  method : String → String → Option (String × Bool)
  /-- The function which implements a property of a class. -/
  property : String → String → Option String
  /-- `deepcopy`. -/
  copy : Val → Heap → Out Val

/-- `v.a`. -/
def getAttr (C : Ctx) (v : Val) (a : String) (h : Heap) : Out Val :=
  match v with
  | .ref r =>
    match h[r]? with
    | some (.inst c l) =>
      match C.property c a with
      | some f => C.call f [v] h
      | none =>
        match findAttr a l with
        | some x => ok x h
        | none => fail .attribute h
    | _ => fail .stuck h
  | _ => fail .stuck h

/-- `v.m(args)`. -/
def callMeth (C : Ctx) (v : Val) (m : String) (args : List Val) (h : Heap) : Out Val :=
  match v with
  | .ref r =>
    match h[r]? with
    | some (.inst c _) =>
      match C.method c m with
      | some (f, static) => C.call f (if static then args else v :: args) h
      | none => fail .attribute h
    | _ => builtinMeth v m args h
  | v => builtinMeth v m args h

/-- An object of a class: `__init__` on a new instance. -/
def instantiate (C : Ctx) (cls : String) (args : List Val) (h : Heap) : Out Val :=
  match C.method cls "__init__" with
  | some (f, _) =>
    andThen (C.call f (.ref h.length :: args) (h ++ [.inst cls []])) fun _ h' => ok (.ref h.length) h'
  | none => fail .stuck h

/-- A built-in function, `deepcopy` included. -/
def applyBuiltin (C : Ctx) (f : String) (args : List Val) (h : Heap) : Out Val :=
  match f, args with
  | "deepcopy", [v] => C.copy v h
  | f, args => builtin f args h

/-- The elements of a comprehension. -/
def evalComp (f : Val → Heap → Out Val) : List Val → Heap → Out (List Val)
  | [], h => ok [] h
  | v :: vs, h => andThen (f v h) fun w h => andThen (evalComp f vs h) fun ws h => ok (w :: ws) h

mutual

/-- Expressions, from left to right. -/
def eval (C : Ctx) (env : Env) : Expr → Heap → Out Val
  | .none, h => ok .none h
  | .bool b, h => ok (.bool b) h
  | .int i, h => ok (.int i) h
  | .str s, h => ok (.str s) h
  | .bytes b, h => ok (.bytes b) h
  | .name x, h =>
    match env x with
    | some v => ok v h
    | none => fail .name h
  | .glob x, h =>
    match C.globals x with
    | some v => ok v h
    | none => fail .name h
  | .attr e a, h => andThen (eval C env e h) fun v h => getAttr C v a h
  | .bin op a b, h =>
    andThen (eval C env a h) fun x h => andThen (eval C env b h) fun y h => binop op x y h
  | .cmp op a b, h =>
    andThen (eval C env a h) fun x h => andThen (eval C env b h) fun y h => cmpop op x y h
  | .and a b, h =>
    andThen (eval C env a h) fun x h =>
      match truth x with
      | some true => eval C env b h
      | some false => ok x h
      | none => fail .stuck h
  | .or a b, h =>
    andThen (eval C env a h) fun x h =>
      match truth x with
      | some true => ok x h
      | some false => eval C env b h
      | none => fail .stuck h
  | .not a, h =>
    andThen (eval C env a h) fun x h =>
      match truth x with
      | some b => ok (.bool (!b)) h
      | none => fail .stuck h
  | .neg a, h =>
    andThen (eval C env a h) fun x h =>
      match x with
      | .int i => ok (.int (-i)) h
      | _ => fail .stuck h
  | .index e i, h =>
    andThen (eval C env e h) fun v h => andThen (eval C env i h) fun j h => getItem v j h
  | .slice e lo hi, h =>
    andThen (eval C env e h) fun v h =>
      andThen (evalOpt C env lo h) fun lo h => andThen (evalOpt C env hi h) fun hi h =>
        getSlice v lo hi h
  | .tuple es, h => andThen (evals C env es h) fun vs h => ok (.tuple vs) h
  | .list es, h => andThen (evals C env es h) fun vs h => alloc (.list vs) h
  | .comp elt x iter, h =>
    andThen (eval C env iter h) fun v h =>
      match elems v h with
      | some l => andThen (evalComp (fun w h => eval C (env.set x w) elt h) l h) fun vs h =>
          alloc (.list vs) h
      | none => fail .stuck h
  | .builtin f args, h =>
    andThen (evals C env args h) fun vs h => applyBuiltin C f vs h
  | .call f args, h => andThen (evals C env args h) fun vs h => C.call f vs h
  | .meth e m args, h =>
    andThen (eval C env e h) fun v h => andThen (evals C env args h) fun vs h => callMeth C v m vs h
  | .new cls args, h => andThen (evals C env args h) fun vs h => instantiate C cls vs h

def evals (C : Ctx) (env : Env) : List Expr → Heap → Out (List Val)
  | [], h => ok [] h
  | e :: es, h =>
    andThen (eval C env e h) fun v h => andThen (evals C env es h) fun vs h => ok (v :: vs) h

/-- A bound of a slice. -/
def evalOpt (C : Ctx) (env : Env) : Option Expr → Heap → Out (Option Int)
  | .none, h => ok none h
  | some e, h =>
    andThen (eval C env e h) fun v h =>
      match v with
      | .int i => ok (some i) h
      | _ => fail .stuck h

end

/-- How a statement ends: with new local variables, or with `return`. -/
inductive Flow where
  | next (env : Env)
  | ret (v : Val)

/-- Continue after a statement which did not return. -/
def thenRun (o : Out Flow) (f : Env → Heap → Out Flow) : Out Flow :=
  match o with
  | (.ok (.next env), h) => f env h
  | (.ok (.ret v), h) => (.ok (.ret v), h)
  | (.error e, h) => (.error e, h)

/-- `x_1, ..., x_n = v`. -/
def setNames : List String → List Val → Env → Option Env
  | [], [], env => some env
  | x :: xs, v :: vs, env => setNames xs vs (env.set x v)
  | _, _, _ => none

/-- Assignment. Python evaluates the right-hand side first. -/
def assign (C : Ctx) (env : Env) (t : Target) (v : Val) (h : Heap) : Out Flow :=
  match t with
  | .name x => ok (.next (env.set x v)) h
  | .attr e a =>
    andThen (eval C env e h) fun o h => andThen (setAttr o a v h) fun _ h => ok (.next env) h
  | .index e i =>
    andThen (eval C env e h) fun o h => andThen (eval C env i h) fun j h =>
      andThen (setItem o j v h) fun _ h => ok (.next env) h
  | .slice e lo hi =>
    andThen (eval C env e h) fun o h =>
      andThen (evalOpt C env lo h) fun lo h => andThen (evalOpt C env hi h) fun hi h =>
        andThen (setSlice o lo hi v h) fun _ h => ok (.next env) h
  | .names xs =>
    match elems v h with
    | some vs =>
      match setNames xs vs env with
      | some env => ok (.next env) h
      | none => fail .value h
    | none => fail .stuck h
  | .attrs xs =>
    match elems v h with
    | some vs => assignAttrs C env xs vs h
    | none => fail .stuck h
where
  /-- `e_1.a_1, ..., e_n.a_n = v`. -/
  assignAttrs (C : Ctx) (env : Env) : List (Expr × String) → List Val → Heap → Out Flow
    | [], [], h => ok (.next env) h
    | (e, a) :: xs, v :: vs, h =>
      andThen (eval C env e h) fun o h => andThen (setAttr o a v h) fun _ h =>
        assignAttrs C env xs vs h
    | _, _, h => fail .value h

/-- A loop over given elements. -/
def forLoop (x : String) (body : Env → Heap → Out Flow) : List Val → Env → Heap → Out Flow
  | [], env, h => ok (.next env) h
  | v :: vs, env, h => thenRun (body (env.set x v) h) fun env h => forLoop x body vs env h

/-- A loop with at most `n` turns. -/
def whileLoop (cond : Env → Heap → Out Val) (body : Env → Heap → Out Flow) :
    Nat → Env → Heap → Out Flow
  | 0, _, h => fail .fuel h
  | n + 1, env, h =>
    andThen (cond env h) fun v h =>
      match truth v with
      | some true => thenRun (body env h) fun env h => whileLoop cond body n env h
      | some false => ok (.next env) h
      | none => fail .stuck h

mutual

def exec (C : Ctx) : Stmt → Env → Heap → Out Flow
  | .pass, env, h => ok (.next env) h
  | .assign t e, env, h => andThen (eval C env e h) fun v h => assign C env t v h
  | .expr e, env, h => andThen (eval C env e h) fun _ h => ok (.next env) h
  | .ret e, env, h => andThen (eval C env e h) fun v h => ok (.ret v) h
  | .if_ c t e, env, h =>
    andThen (eval C env c h) fun v h =>
      match truth v with
      | some true => execs C t env h
      | some false => execs C e env h
      | none => fail .stuck h
  | .for_ x iter body, env, h =>
    andThen (eval C env iter h) fun v h =>
      match elems v h with
      | some l => forLoop x (fun env h => execs C body env h) l env h
      | none => fail .stuck h
  | .while_ c body, env, h =>
    whileLoop (fun env h => eval C env c h) (fun env h => execs C body env h) C.loops env h
  | .raise cls msg, _, h => fail (.raised cls msg) h
  | .tryValueError body handler, env, h =>
    match execs C body env h with
    | (.error .value, h) => execs C handler env h
    | o => o

def execs (C : Ctx) : List Stmt → Env → Heap → Out Flow
  | [], env, h => ok (.next env) h
  | s :: ss, env, h => thenRun (exec C s env h) fun env h => execs C ss env h

end

/-- The parameters of a call: the given arguments, then the default values. -/
def bindParams (C : Ctx) (d : FunDef) (args : List Val) (h : Heap) : Out (List Val) :=
  if args.length = d.params.length then ok args h
  else
    let missing := d.params.length - args.length
    if args.length < d.params.length ∧ missing ≤ d.defaults.length then
      andThen (evals C .empty (d.defaults.drop (d.defaults.length - missing)) h) fun vs h =>
        ok (args ++ vs) h
    else fail .type h

/-- A call of a function. -/
def run (C : Ctx) (d : FunDef) (args : List Val) (h : Heap) : Out Val :=
  andThen (bindParams C d args h) fun vs h =>
    match setNames d.params vs .empty with
    | some env =>
      andThen (execs C d.body env h) fun r h =>
        match r with
        | .ret v => ok v h
        | .next _ => ok .none h
    | none => fail .type h

/-- A program: functions, globals and classes. -/
structure Program where
  fn : String → Option FunDef
  globals : String → Option Val
  method : String → String → Option (String × Bool)
  property : String → String → Option String

/-- `deepcopy`: copies of all mutable objects, up to the given depth. An object reached twice is
copied twice; in the package only `oid` is shared, which never changes. -/
def copyVal : Nat → Val → Heap → Out Val
  | 0, _, h => fail .fuel h
  | n + 1, .ref r, h =>
    match h[r]? with
    | some (.bytearray b) => alloc (.bytearray b) h
    | some (.list l) => andThen (evalComp (copyVal n) l h) fun l h => alloc (.list l) h
    | some (.inst c l) => andThen (evalComp (copyVal n) (l.map (·.2)) h) fun vs h =>
        alloc (.inst c ((l.map (·.1)).zip vs)) h
    | none => fail .stuck h
  | _ + 1, v, h => ok v h

/-- A function of the program by its name. The number is a bound for the depth of calls, `L` a bound
for the turns of a `while` loop. -/
def call (P : Program) (L : Nat) : Nat → String → List Val → Heap → Out Val
  | 0, _, _, h => fail .fuel h
  | n + 1, f, args, h =>
    match P.fn f with
    | some d =>
      run { call := call P L n, loops := L, globals := P.globals, method := P.method,
            property := P.property, copy := copyVal 10 } d args h
    | none => fail .name h

end Gost.Src
