import Verif.Spec.Oid
import Verif.Spec.Cipher

/-! The object identifiers of the algorithms in the register of the Technical Committee 26. -/

namespace Gost.Spec

/-- The algorithms. -/
inductive Registered where
  | cipher (a : Alg)
  | hash256
  | hash512
  | hmac256
  | hmac512
  | sign256
  | sign512
deriving DecidableEq

/-- The components of the identifier: iso(1) member-body(2) ru(643) rosstandart(7) tc26(1)
algorithms(1), then the class and the number of the algorithm. -/
def Registered.arcs : Registered → List Nat
  | .cipher .magma => [1, 2, 643, 7, 1, 1, 5, 1]
  | .cipher .kuznechik => [1, 2, 643, 7, 1, 1, 5, 2]
  | .hash256 => [1, 2, 643, 7, 1, 1, 2, 2]
  | .hash512 => [1, 2, 643, 7, 1, 1, 2, 3]
  | .hmac256 => [1, 2, 643, 7, 1, 1, 4, 1]
  | .hmac512 => [1, 2, 643, 7, 1, 1, 4, 2]
  | .sign256 => [1, 2, 643, 7, 1, 1, 1, 1]
  | .sign512 => [1, 2, 643, 7, 1, 1, 1, 2]

/-- The name in the register. -/
def Registered.regName : Registered → String
  | .cipher .magma => "id-tc26-cipher-gostr3412-2015-magma"
  | .cipher .kuznechik => "id-tc26-cipher-gostr3412-2015-kuznyechik"
  | .hash256 => "id-tc26-gost3411-12-256"
  | .hash512 => "id-tc26-gost3411-12-512"
  | .hmac256 => "id-tc26-hmac-gost-3411-12-256"
  | .hmac512 => "id-tc26-hmac-gost-3411-12-512"
  | .sign256 => "id-tc26-gost3410-12-256"
  | .sign512 => "id-tc26-gost3410-12-512"

end Gost.Spec
