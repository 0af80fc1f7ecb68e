import Verif.Model.StreebogTables
import Verif.Spec.Streebog

/-! The tables of `gost_34_11_2012.py` compared entry by entry with the specification. -/

namespace Gost.Hash
open Spec Spec.Streebog

/-- Every entry of the eight tables of the code. -/
theorem tTable_rows : ∀ i : Fin 8, tTable.getD i [] =
    (List.range 256).map fun x => l ((pi (UInt8.ofNat x)).toNat * 256 ^ i.val) := by
  decide +kernel

end Gost.Hash
