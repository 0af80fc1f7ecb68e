import Verif.Model.Oid

/-! A fragment of Python: the syntax in which the source text of the package is written down in
`Verif.Source.Text`. The text is produced from the files in /repo by `tools/gen_source.py`. -/

namespace Gost.Src

/-- Values. `bytes`, `tuple` and `dict` are immutable; `ref` is a reference to a mutable object. A
dictionary is only read by the package, so it is a value. -/
inductive Val where
  | none
  | bool (b : Bool)
  | int (i : Int)
  | str (s : String)
  | bytes (b : Bytes)
  | tuple (l : List Val)
  | dict (l : List (String × Val))
  | ref (r : Nat)

/-- A tuple of integers. -/
def ints (l : List Nat) : Val := .tuple (l.map fun n : Nat => .int n)

/-- Mutable objects: byte arrays, lists and instances of the classes of the package. -/
inductive Obj where
  | bytearray (b : Bytes)
  | list (l : List Val)
  | inst (cls : String) (attrs : List (String × Val))

/-- Exceptions. `stuck` is everything outside the fragment, `fuel` an exhausted bound. -/
inductive Exc where
  | raised (cls msg : String)
  | index
  | overflow
  | value
  | zeroDiv
  | type
  | attribute
  | name
  | stuck
  | fuel
deriving DecidableEq

inductive BinOp where
  | add | sub | mul | floordiv | mod | pow | band | bor | bxor | shl | shr

inductive CmpOp where
  | eq | ne | lt | le | gt | ge | isIn | notIn

inductive Expr where
  | none
  | bool (b : Bool)
  | int (i : Int)
  | str (s : String)
  | bytes (b : Bytes)
  | name (x : String)
  /-- A name of the module level. -/
  | glob (x : String)
  | attr (e : Expr) (a : String)
  | bin (op : BinOp) (a b : Expr)
  | cmp (op : CmpOp) (a b : Expr)
  | and (a b : Expr)
  | or (a b : Expr)
  | not (a : Expr)
  | neg (a : Expr)
  | index (e i : Expr)
  | slice (e : Expr) (lo hi : Option Expr)
  | tuple (es : List Expr)
  | list (es : List Expr)
  /-- `[elt for x in iter]`, also for the generator expression. -/
  | comp (elt : Expr) (x : String) (iter : Expr)
  /-- A built-in function. -/
  | builtin (f : String) (args : List Expr)
  /-- A function of the package by its full name. -/
  | call (f : String) (args : List Expr)
  /-- `e.m(args)`. -/
  | meth (e : Expr) (m : String) (args : List Expr)
  /-- An instance of a class. -/
  | new (cls : String) (args : List Expr)

inductive Target where
  | name (x : String)
  | attr (e : Expr) (a : String)
  | index (e i : Expr)
  | slice (e : Expr) (lo hi : Option Expr)
  | names (xs : List String)
  | attrs (xs : List (Expr × String))

inductive Stmt where
  | pass
  | assign (t : Target) (e : Expr)
  | expr (e : Expr)
  | ret (e : Expr)
  | if_ (c : Expr) (t e : List Stmt)
  | for_ (x : String) (iter : Expr) (body : List Stmt)
  | while_ (c : Expr) (body : List Stmt)
  | raise (cls msg : String)
  /-- `try: body; except ValueError: handler`. -/
  | tryValueError (body handler : List Stmt)

/-- A function or method. `static` methods do not get the object. `defaults` belong to the last
parameters. -/
structure FunDef where
  params : List String
  defaults : List Expr
  static : Bool
  body : List Stmt

end Gost.Src
