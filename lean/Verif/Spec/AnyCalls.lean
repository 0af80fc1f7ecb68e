import Verif.Spec.Cipher
import Verif.Spec.CipherCalls

/-! What a cipher object of the package returns for calls of every kind, also refused ones and calls
after `clear`. A refused call and `clear` have the same effect: all round keys are overwritten by
copies of the four bytes `/x00`. -/

namespace Gost.Spec

/-- The bytes of `'/x00'`. -/
def clearWord : List UInt8 := [0x2f, 0x78, 0x30, 0x30]

/-- The 128-bit cipher with ten equal round keys. -/
def Kuz.encryptConst (k block : List UInt8) : List UInt8 :=
  Kuz.xor k ((List.range 9).foldl (fun a _ => Kuz.L (Kuz.S (Kuz.xor k a))) block)

/-- The encryption of a cleared object. For the 64-bit cipher this is the encryption with a known
key, because the round keys are parts of the key. -/
def Alg.cleared : Alg → List UInt8 → List UInt8
  | .kuznechik, b => Kuz.encryptConst (clearWord ++ clearWord ++ clearWord ++ clearWord) b
  | .magma, b => Magma.encrypt (List.replicate 8 clearWord).flatten b

/-- A call of any kind. -/
inductive AnyOp where
  | op (o : CipherOp)
  | badPlain
  | badCipher
  | clear

/-- An answer. -/
inductive AnyAns where
  | bytes (b : List UInt8)
  | badPlain
  | badCipher

/-- The state after a sequence of calls and the answers. The flag says that the object has been
cleared, by `clear` or by a refused call. -/
def anyRun {σ : Type} (call : Bool → σ → CipherOp → σ × List UInt8) :
    Bool → σ → List AnyOp → σ × List AnyAns
  | _, s, [] => (s, [])
  | c, s, .op o :: l =>
    ((anyRun call c (call c s o).1 l).1, .bytes (call c s o).2 :: (anyRun call c (call c s o).1 l).2)
  | _, s, .badPlain :: l => ((anyRun call true s l).1, .badPlain :: (anyRun call true s l).2)
  | _, s, .badCipher :: l => ((anyRun call true s l).1, .badCipher :: (anyRun call true s l).2)
  | _, s, .clear :: l => anyRun call true s l

end Gost.Spec
