import Verif.Source.Text.Curves
import Verif.SourceProofs.SignatureNew
import Verif.Model.Curves

/-! The table `CURVES_R_1323565_1_024_2019` as it is written, gost_34_10_2012.py 40-461, has the values of
`Verif.Model.Curves`. -/

namespace Gost.Src

/-- `dict(k=e, ...)`: the arguments are evaluated from left to right. -/
def evalDict (C : Ctx) : List (String × Expr) → Heap → Out (List (String × Val))
  | [], h => ok [] h
  | (k, e) :: l, h =>
    andThen (eval C .empty e h) fun v h => andThen (evalDict C l h) fun vs h => ok ((k, v) :: vs) h

/-- `{key: dict(...), ...}`. -/
def evalTable (C : Ctx) : List (String × List (String × Expr)) → Heap → Out (List (String × Val))
  | [], h => ok [] h
  | (k, d) :: l, h =>
    andThen (evalDict C d h) fun v h => andThen (evalTable C l h) fun vs h => ok ((k, .dict v) :: vs) h

namespace SigSrc

/-- The numbers of a list of literals. -/
def litVals : List Expr → Option (List Val)
  | [] => some []
  | .int i :: l => (litVals l).map (.int i :: ·)
  | _ :: _ => none

/-- The value of a literal, or of `bytearray_to_int(bytearray([...]))` with literals. -/
def argVal : Expr → Option Int
  | .int i => some i
  | .call f [.builtin g [.list es]] =>
    if f = "Utils.bytearray_to_int" ∧ g = "bytearray" then
      (litVals es).bind fun vs => (intsToBytes vs).map fun b => (bytesToInt b : Int)
    else none
  | _ => none

theorem evals_lits (C : Ctx) (env : Env) (h : Heap) : ∀ {es : List Expr} {vs : List Val}, litVals es = some vs →
    evals C env es h = ok vs h
  | [], vs, e => by
    cases e
    rfl
  | .int i :: l, vs, e => by
    simp only [litVals, Option.map_eq_some_iff] at e
    obtain ⟨ws, e1, rfl⟩ := e
    simp only [evals, eval, andThen_ok, evals_lits C env h e1]

theorem eval_arg (L n : Nat) (env : Env) {e : Expr} {i : Int} (h : Heap) (a : argVal e = some i) :
    ∃ l, eval (ctx L (n + 1)) env e h = ok (.int i) (h ++ l) := by
  unfold argVal at a
  split at a
  · cases a
    exact ⟨[], by rw [List.append_nil]; rfl⟩
  · rename_i f g es
    split at a
    · rename_i hc
      obtain ⟨rfl, rfl⟩ := hc
      simp only [Option.bind_eq_some_iff, Option.map_eq_some_iff] at a
      obtain ⟨vs, e1, b, e2, rfl⟩ := a
      have f := bytearray_to_int_ok L n (v := .ref (h ++ [Obj.list vs]).length)
        (bytesOf_last b (h ++ [Obj.list vs]))
      refine ⟨[Obj.list vs] ++ [Obj.bytearray b], ?_⟩
      rw [← List.append_assoc]
      have g := evals_lits (ctx L (n + 1)) env h e1
      have k : listBytearray vs (h ++ [Obj.list vs]) = ok (.ref (h ++ [Obj.list vs]).length)
          (h ++ [Obj.list vs] ++ [Obj.bytearray b]) := by
        rw [listBytearray, e2]
        rfl
      py [g, k, f]
    · cases a
  · cases a

/-- A dictionary of arguments. -/
def dictVals : List (String × Expr) → Option (List (String × Int))
  | [] => some []
  | (k, e) :: l => (argVal e).bind fun i => (dictVals l).map ((k, i) :: ·)

/-- A dictionary of integers. -/
def intDict (l : List (String × Int)) : List (String × Val) := l.map fun x => (x.1, .int x.2)

theorem evalDict_ok (L n : Nat) : ∀ (l : List (String × Expr)) (vs : List (String × Int)) (h : Heap), dictVals l = some vs →
    ∃ k, evalDict (ctx L (n + 1)) l h = ok (intDict vs) (h ++ k)
  | [], vs, h, e => by
    cases e
    exact ⟨[], by rw [List.append_nil]; rfl⟩
  | (k, e) :: l, vs, h, a => by
    simp only [dictVals, Option.bind_eq_some_iff, Option.map_eq_some_iff] at a
    obtain ⟨i, e1, ws, e2, rfl⟩ := a
    obtain ⟨k1, f1⟩ := eval_arg L n .empty h e1
    obtain ⟨k2, f2⟩ := evalDict_ok L n l ws (h ++ k1) e2
    exact ⟨k1 ++ k2, by rw [evalDict, f1, andThen_ok, f2, andThen_ok, List.append_assoc]; rfl⟩

/-- The dictionaries of the table. -/
def tableVals : List (String × List (String × Expr)) → Option (List (String × List (String × Int)))
  | [] => some []
  | (k, d) :: l => (dictVals d).bind fun v => (tableVals l).map ((k, v) :: ·)

theorem evalTable_ok (L n : Nat) : ∀ (l : List (String × List (String × Expr))) (vs : List (String × List (String × Int)))
    (h : Heap), tableVals l = some vs →
    ∃ k, evalTable (ctx L (n + 1)) l h = ok (vs.map fun x => (x.1, .dict (intDict x.2))) (h ++ k)
  | [], vs, h, e => by
    cases e
    exact ⟨[], by rw [List.append_nil]; rfl⟩
  | (k, d) :: l, vs, h, a => by
    simp only [tableVals, Option.bind_eq_some_iff, Option.map_eq_some_iff] at a
    obtain ⟨v, e1, ws, e2, rfl⟩ := a
    obtain ⟨k1, f1⟩ := evalDict_ok L n d v h e1
    obtain ⟨k2, f2⟩ := evalTable_ok L n l ws (h ++ k1) e2
    exact ⟨k1 ++ k2, by rw [evalTable, f1, andThen_ok, f2, andThen_ok, List.append_assoc]; rfl⟩

/-- The parameters of a curve in the order of the arguments of `dict(...)`. -/
def curveInts (c : CurveParams) : List (String × Int) :=
  let o (k : String) (x : Option Int) : List (String × Int) := x.toList.map fun i => (k, i)
  o "p" c.p ++ (o "a" c.a ++ (o "b" c.b ++ (o "e" c.e ++ (o "d" c.d ++ (o "m" c.m ++ (o "q" c.q ++ (o "x" c.x ++ (o "y" c.y ++
    (o "u" c.u ++ o "v" c.v)))))))))

theorem tableVals_eq : tableVals Signature.curves = some (Curves.builtin.map fun nc => (nc.1, curveInts nc.2)) := by
  decide +kernel

theorem intDict_append (a b : List (String × Int)) : intDict (a ++ b) = intDict a ++ intDict b := List.map_append

theorem find_opt (k k' : String) (x : Option Int) (l : List (String × Val)) :
    findAttr k (intDict (x.toList.map fun i => (k', i)) ++ l) =
      if k' = k then (match x with | some i => some (.int i) | none => findAttr k l) else findAttr k l := by
  cases x with
  | none => split <;> rfl
  | some i => rfl

theorem curveDict (c : CurveParams) : CurveDict (intDict (curveInts c)) c := by
  have e : intDict (curveInts c) = intDict (curveInts c) ++ [] := (List.append_nil _).symm
  rw [e]
  unfold curveInts
  have f : ∀ k, findAttr k [] = none := fun _ => rfl
  constructor <;>
    simp only [intDict_append, List.append_assoc, find_opt, String.reduceEq, if_false, if_true, f] <;>
    split <;> simp_all

end SigSrc
end Gost.Src
