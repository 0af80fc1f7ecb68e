import Lean.Meta.Tactic.Simp.RegisterCommand
import Lean.Meta.Tactic.Simp.Simproc
import Verif.Source.Semantics

/-! The set of rewrite rules which execute a program of the fragment. -/

/-- Rules which execute a program of the fragment. -/
register_simp_attr pysem

namespace Gost.Src

open Lean Meta Simp

/-- Simplify only the first explicit argument of `f o k ...`, never the continuation. -/
def headOnly (pos : Nat) (e : Lean.Expr) : SimpM Step := do
  let args := e.getAppArgs
  let o := args[pos]!
  let r ← simp o
  if r.expr == o then return .done { expr := e }
  let args' := args.set! pos r.expr
  let e' := mkAppN e.getAppFn args'
  match r.proof? with
  | none => return .visit { expr := e' }
  | some p =>
    let motive ← withLocalDeclD `x (← inferType o) fun x =>
      mkLambdaFVars #[x] (mkAppN e.getAppFn (args.set! pos x))
    return .visit { expr := e', proof? := some (← mkCongrArg motive p) }

end Gost.Src
