import Verif.Model.Signature

/-! `_invert` with Python's limit on nested calls. -/

namespace Gost.Sig

/-- `gcdex`, gost_34_10_2012.py 585-591, when `L` more nested calls are possible. `none` is a
`RecursionError`: the call to be made has no frame left. -/
def gcdexLim : Nat → Int → Int → Option (Int × Int × Int)
  | 0, _, _ => none
  | L + 1, value, nMod =>
    if nMod = 0 then some (value, 1, 0)
    else match gcdexLim L nMod (value.fmod nMod) with
      | none => none
      | some (gcd, x, y) => some (gcd, y, x - y * (value.fdiv nMod))

/-- `_invert`, gost_34_10_2012.py 584-595, when `L` nested calls of `gcdex` are possible. -/
def invertLim (L : Nat) (value nMod : Int) : Option Int :=
  match gcdexLim L value nMod with
  | none => none
  | some r => some (if r.2.1 < 0 then r.2.1 + nMod else r.2.1)

end Gost.Sig
