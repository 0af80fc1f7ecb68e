import Verif.Source.Attr

namespace Gost.Src

simproc_decl andThenStep (andThen _ _) := fun e => headOnly 2 e
simproc_decl thenRunStep (thenRun _ _) := fun e => headOnly 0 e
simproc_decl forLoopStep (forLoop _ _ _ _ _) := fun e => headOnly 2 e
simproc_decl whileLoopStep (whileLoop _ _ _ _ _) := fun e => return .done { expr := e }
simproc_decl evalCompStep (evalComp _ _ _) := fun e => headOnly 1 e

end Gost.Src
