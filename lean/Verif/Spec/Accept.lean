import Verif.Spec.Cipher
import Verif.Py

/-! Which arguments `gostcipher.new` accepts according to its documentation
(gost_34_13_2015.py 110-151), and which exception it raises otherwise. -/

namespace Gost.Spec

/-- The arguments of `gostcipher.new`; a keyword argument which is not given is `none`. -/
structure CipherArgs where
  alg : String
  key : PyVal
  mode : Int
  pad : Option Int := none
  iv : Option PyVal := none
  data : Option PyVal := none

/-- The length of a byte object. -/
def byteLen : PyVal → Option Nat
  | .bytes b => some b.length
  | .bytearray b => some b.length
  | .other => none

/-- Bytes per block: 8 for 'magma', 16 otherwise. -/
def algBlock (alg : String) : Nat := if alg = "magma" then 8 else 16

/-- A padding mode which is not given is valid; PAD_MODE_1 is 0x800000f0, PAD_MODE_2 is 0x800000f1. -/
def padValid : Option Int → Bool
  | none => true
  | some m => m = 0x800000f0 || m = 0x800000f1

/-- The documented condition on the initialisation vector of CBC, CFB and OFB: not given, or a byte
object whose length is a positive multiple of the block size. -/
def ivValid (bs : Nat) : Option PyVal → Bool
  | none => true
  | some v => match byteLen v with
    | none => false
    | some n => 0 < n && n % bs = 0

/-- The documented condition on the initialisation vector of CTR: half a block. -/
def ivCtrValid (bs : Nat) : Option PyVal → Bool
  | none => true
  | some v => byteLen v = some (bs / 2)

/-- The text of MODE_MAC is not given or a byte object. -/
def dataValid : Option PyVal → Bool
  | none => true
  | some v => (byteLen v).isSome

/-- The first documented check which fails, as the message of the `GOSTCipherError`; `none` if the
arguments are valid. `ivOk` is the condition on the initialisation vector of CBC, CFB, OFB. -/
def faultWith (ivOk : Nat → Option PyVal → Bool) (a : CipherArgs) : Option String :=
  if a.mode ≠ 1 ∧ a.mode ≠ 2 ∧ a.mode ≠ 3 ∧ a.mode ≠ 5 ∧ a.mode ≠ 6 ∧ a.mode ≠ 255 then
    some "GOSTCipherError: unsupported cipher mode"
  else if a.alg ≠ "magma" ∧ a.alg ≠ "kuznechik" then
    some "GOSTCipherError: unsupported cipher algorithm"
  else if byteLen a.key ≠ some 32 then
    some "GOSTCipherError: invalid key value"
  else if (a.mode = 1 ∨ a.mode = 2) ∧ padValid a.pad = false then
    some "GOSTCipherError: invalid padding mode"
  else if (a.mode = 2 ∨ a.mode = 3 ∨ a.mode = 5) ∧ ivOk (algBlock a.alg) a.iv = false then
    some "GOSTCipherError: invalid initialization vector value"
  else if a.mode = 6 ∧ ivCtrValid (algBlock a.alg) a.iv = false then
    some "GOSTCipherError: invalid initialization vector value"
  else if a.mode = 255 ∧ dataValid a.data = false then
    some "GOSTCipherError: invalid text data"
  else none

/-- The documented behaviour. -/
def documentedFault : CipherArgs → Option String := faultWith ivValid

/-- The documented behaviour of `gosthash.new` (gost_34_11_2012.py 673-696): the message of the
`GOSTHashError`, `none` if the arguments are valid. -/
def hashFault (name : String) (data : Option PyVal) : Option String :=
  if name = "streebog256" ∨ name = "streebog512" then
    if dataValid data then none else some "GOSTHashError: invalid data value"
  else some "GOSTHashError: unsupported hash type"

end Gost.Spec
