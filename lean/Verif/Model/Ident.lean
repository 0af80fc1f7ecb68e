import Verif.Model.Modes
import Verif.Model.Hmac
import Verif.Model.Signature
import Verif.Model.Oid

/-! The attributes `oid`, `block_size` and `key_size` of the objects, and the methods of a cipher
object of any mode under one name. `oid` is assigned once, in the constructor, and holds an
`ObjectIdentifier` built from a string literal. -/

namespace Gost

/-- `oid` of a block cipher object, gost_34_12_2015.py 429 and 606. -/
def CipherObj.oid : CipherObj → String
  | .kuz _ => "1.2.643.7.1.1.5.2"
  | .magma _ => "1.2.643.7.1.1.5.1"

/-- `key_size` of a block cipher object, gost_34_12_2015.py 522-530 and 726-734. -/
def CipherObj.keySize : CipherObj → Nat
  | .kuz _ => 32
  | .magma _ => 32

/-- `_cipher_obj` of a cipher object, gost_34_13_2015.py 234-237. -/
def Cipher.obj : Cipher → CipherObj
  | .ecb s => s.obj
  | .cbc s => s.obj
  | .cfb s => s.obj
  | .ofb s => s.obj
  | .ctr s => s.obj
  | .mac s => s.obj

/-- `oid` of a cipher object, gost_34_13_2015.py 238. -/
def Cipher.oid (c : Cipher) : String := c.obj.oid

/-- `block_size` of a cipher object, gost_34_13_2015.py 271-279. -/
def Cipher.blockSize (c : Cipher) : Nat := c.obj.blockSize

/-- A call of a public method of a cipher object of any mode. -/
inductive MethodCall where
  | encrypt (v : PyVal)
  | decrypt (v : PyVal)
  | update (v : PyVal)
  | digest (n : Int)
  | hexdigest (n : Int)
  | macFinal
  | clear

/-- The object after a call, whether the call returns or raises. A method which the class of the
object does not have raises `AttributeError` and changes nothing. -/
def Cipher.after : Cipher → MethodCall → Cipher
  | .ecb s, .encrypt v => .ecb (s.encrypt v).1
  | .ecb s, .decrypt v => .ecb (s.decrypt v).1
  | .ecb s, .clear => .ecb s.clear
  | .cbc s, .encrypt v => .cbc (s.encrypt v).1
  | .cbc s, .decrypt v => .cbc (s.decrypt v).1
  | .cbc s, .clear => .cbc s.clear
  | .cfb s, .encrypt v => .cfb (Cfb.encrypt s v).1
  | .cfb s, .decrypt v => .cfb (Cfb.decrypt s v).1
  | .cfb s, .clear => .cfb s.clear
  | .ofb s, .encrypt v => .ofb (Ofb.encrypt s v).1
  | .ofb s, .decrypt v => .ofb (Ofb.decrypt s v).1
  | .ofb s, .clear => .ofb s.clear
  | .ctr s, .encrypt v => .ctr (s.encrypt v).1
  | .ctr s, .decrypt v => .ctr (s.decrypt v).1
  | .ctr s, .clear => .ctr s.clear
  | .mac s, .update v => .mac (s.update v).1
  | .mac s, .digest n => .mac (s.digest n).1
  | .mac s, .hexdigest n => .mac (s.hexdigest n).1
  | .mac s, .macFinal => .mac s.macFinal.1
  | .mac s, .clear => .mac s.clear
  | c, _ => c

/-- `oid` of the hash object made with `name`, gost_34_11_2012.py 749-752. -/
def HashObj.oidOf (name : String) : String :=
  if name = "streebog256" then "1.2.643.7.1.1.2.2" else "1.2.643.7.1.1.2.3"

/-- `oid` of the HMAC object made with `name`, r_50_1_113_2016.py 127-132. -/
def Hmac.oidOf (name : String) : String :=
  if name = "HMAC_GOSTR3411_2012_256" then "1.2.643.7.1.1.4.1" else "1.2.643.7.1.1.4.2"

/-- `oid` of the signature object made with `mode`, gost_34_10_2012.py 517-520. -/
def Sig.oidOf (mode : Int) : String :=
  if mode = mode256 then "1.2.643.7.1.1.1.1" else "1.2.643.7.1.1.1.2"

end Gost
