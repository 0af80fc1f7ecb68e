import Verif.Spec.Kuznyechik
import Verif.Spec.Magma

/-! The two block ciphers of GOST R 34.12-2015 under one name. -/

namespace Gost.Spec

/-- The two algorithms of the standard. -/
inductive Alg where
  | kuznechik
  | magma
deriving DecidableEq, Repr

namespace Alg

/-- The name used in the package's interface. -/
def name : Alg → String
  | kuznechik => "kuznechik"
  | magma => "magma"

/-- Block size in bytes. -/
def blockSize : Alg → Nat
  | kuznechik => 16
  | magma => 8

/-- The encryption of one block. -/
def encrypt : Alg → List UInt8 → List UInt8 → List UInt8
  | kuznechik, key, b => Kuz.encrypt key b
  | magma, key, b => Magma.encrypt key b

end Alg
end Gost.Spec
