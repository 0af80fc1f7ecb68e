import Mathlib.Algebra.Polynomial.Div
import Mathlib.Algebra.Field.ZMod

/-! Numbers as polynomials over GF(2), with the polynomials of Mathlib. -/

namespace Gost.Spec
open Polynomial

/-- The polynomial over GF(2) whose coefficients are the bits of the number. -/
noncomputable def bitPoly (a : Nat) : (ZMod 2)[X] :=
  ∑ i ∈ Finset.range a, if a.testBit i then X ^ i else 0

/-- The polynomial of the field of Kuznyechik (GOST R 34.12-2015, section 4.1.2). -/
noncomputable def kuzPoly : (ZMod 2)[X] := X ^ 8 + X ^ 7 + X ^ 6 + X + 1

/-- The polynomials of the MAC (GOST R 34.13-2015, section 5.6.1): x^64+x^4+x^3+x+1 and
x^128+x^7+x^2+x+1. -/
noncomputable def macPoly (n : Nat) : (ZMod 2)[X] :=
  if n = 8 then X ^ 64 + X ^ 4 + X ^ 3 + X + 1 else X ^ 128 + X ^ 7 + X ^ 2 + X + 1

end Gost.Spec
