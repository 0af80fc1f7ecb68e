import Verif.Model.Ident
import Verif.Model.Pbkdf
import Verif.Model.Random

/-! The method `__del__` of the classes. It runs when an object is destroyed, also when the
constructor has raised an exception; then only the attributes assigned before that exist. The
definitions `…Attrs` give, for a call of a constructor, those attributes which `__del__` looks at,
as they are when the constructor ends, and how it ends. `none` is an attribute which does not exist. -/

namespace Gost

/-- How a call of `__del__` ends. (The interpreter prints the exception on stderr and goes on.) -/
inductive DelRes where
  | quiet
  | indexError
  | attributeError
deriving DecidableEq, Repr

/-! ### Block ciphers, gost_34_12_2015.py -/

/-- The loop `for i in range(n): self._cipher_iter_key[i] = zero_fill(self._cipher_iter_key[i])`,
gost_34_12_2015.py 572-573 and 786-787. The list of numbers is the remaining part of the range. -/
def clearLoop : List Nat → List Bytes → List Bytes × DelRes
  | [], ks => (ks, .quiet)
  | i :: is, ks =>
    match pyGet ks (i : Int) with
    | .error _ => (ks, .indexError)
    | .ok k => clearLoop is (ks.set i (zeroFill k))

/-- `__del__`, gost_34_12_2015.py 447-454 with 570-573, and 614-621 with 784-787. -/
def CipherObj.del : CipherObj → CipherObj × DelRes
  | .kuz ks => (.kuz (clearLoop (List.range 10) ks).1, (clearLoop (List.range 10) ks).2)
  | .magma ks => (.magma (clearLoop (List.range 32) ks).1, (clearLoop (List.range 32) ks).2)

/-- A loop which appends to the list `_cipher_iter_key`; an exception leaves the list as it is then. -/
def appendLoop {σ : Type} (f : σ → Nat → Res (σ × List Bytes)) :
    List Nat → σ → List Bytes → List Bytes × Res Unit
  | [], _, ks => (ks, .ok ())
  | i :: is, s, ks =>
    match f s i with
    | .error e => (ks, .error e)
    | .ok (s', new) => appendLoop f is s' (ks ++ new)

/-- `_cipher_iter_key` when `__init__` ends, gost_34_12_2015.py 419-445. -/
def Kuz.initKeys (key : Bytes) : List Bytes × Res Unit :=
  match Kuz.getC with
  | .error e => ([], .error e)
  | .ok c =>
    appendLoop (fun k i => do
        let k ← (List.range 8).foldlM (fun k j => Kuz.keyStep c k (i * 8 + j)) k
        pure (k, [k.1, k.2]))
      (List.range 4) (pyUpto key 16, pyFrom key 16) [pyUpto key 16, pyFrom key 16]

/-- `_cipher_iter_key` when `__init__` ends, gost_34_12_2015.py 599-612 with 623-640: the offsets of
the words in the order in which they are appended. -/
def Magma.initKeys (key : Bytes) : List Bytes × Res Unit :=
  appendLoop (fun (_ : Unit) off => do
      let w ← Magma.keyWord key off
      pure ((), [w]))
    ((List.range 8).map (· * 4) ++ (List.range 8).map (· * 4) ++ (List.range 8).map (· * 4) ++
      (List.range 8).map (28 - · * 4)) () []

/-! ### Modes, gost_34_13_2015.py. The attribute is `_cipher_obj`. -/

/-- `GOST34132015.__init__`, gost_34_13_2015.py 212-238; `old` is the attribute before the call. -/
def baseAttrs (old : Option CipherObj) (algorithm : String) (key : PyVal) : Option CipherObj × Res Unit :=
  match baseInit algorithm key with
  | .error e => (old, .error e)
  | .ok o => (some o, .ok ())

/-- `GOST34132015CipherPadding.__init__`, gost_34_13_2015.py 361-374. -/
def paddingAttrs (algorithm : String) (key : PyVal) (padMode : Int) : Option CipherObj × Res Unit :=
  match baseAttrs none algorithm key with
  | (a, .error e) => (a, .error e)
  | (a, .ok ()) =>
    if padMode ≠ padMode1 ∧ padMode ≠ padMode2 then
      (a.map CipherObj.clear, .error (.cipherError "GOSTCipherError: invalid padding mode"))
    else (a, .ok ())

/-- `GOST34132015CipherFeedBack.__init__`, gost_34_13_2015.py 448-463. -/
def feedbackAttrs (old : Option CipherObj) (algorithm : String) (key iv : PyVal) :
    Option CipherObj × Res Unit :=
  match baseInit algorithm key with
  | .error e => (old, .error e)
  | .ok o =>
    match checkIv o.blockSize iv with
    | .error e => (some o.clear, .error e)
    | .ok _ => (some o, .ok ())

/-- `GOST34132015cbc.__init__`, gost_34_13_2015.py 606-618. -/
def cbcAttrs (algorithm : String) (key iv : PyVal) (padMode : Int) : Option CipherObj × Res Unit :=
  match paddingAttrs algorithm key padMode with
  | (a, .error e) => (a, .error e)
  | (a, .ok ()) => feedbackAttrs a algorithm key iv

/-- `GOST34132015ctr.__init__`, gost_34_13_2015.py 821-839. -/
def ctrAttrs (algorithm : String) (key iv : PyVal) : Option CipherObj × Res Unit :=
  match baseInit algorithm key with
  | .error e => (none, .error e)
  | .ok o =>
    match iv.data? with
    | none => (some o.clear, .error (.cipherError "GOSTCipherError: invalid initialization vector value"))
    | some v =>
      if v.length ≠ o.blockSize / 2 then
        (some o.clear, .error (.cipherError "GOSTCipherError: invalid initialization vector value"))
      else (some o, .ok ())

/-- `GOST34132015mac.__init__`, gost_34_13_2015.py 923-940. -/
def macAttrs (algorithm : String) (key data : PyVal) : Option CipherObj × Res Unit :=
  match baseInit algorithm key with
  | .error e => (none, .error e)
  | .ok o =>
    match (do let r ← o.encrypt (zeros o.blockSize); Mac.getMacKey o.blockSize r : Res (Bytes × Bytes)) with
    | .error e => (some o, .error e)
    | .ok (k1, k2) =>
      let s : Mac := ⟨o, k1, k2, [], [], zeros o.blockSize, zeros o.blockSize⟩
      if data.isEmpty then (some o, .ok ())
      else (some (s.update data).1.obj, (s.update data).2)

/-- `new`, gost_34_13_2015.py 109-181. For an unknown mode there is no object, which is written here
as an object without attributes. -/
def newAttrs (algorithm : String) (key : PyVal) (mode : Int)
    (padMode : Option Int := none) (initVect : Option PyVal := none)
    (data : Option PyVal := none) : Option CipherObj × Res Unit :=
  let pad := padMode.getD padMode1
  if mode = modeEcb then paddingAttrs algorithm key pad
  else if mode = modeCbc then
    cbcAttrs algorithm key
      (initVect.getD (.bytearray (if algorithm = "magma" then defaultIvCbcMagma else defaultIvKuz))) pad
  else if mode = modeCfb ∨ mode = modeOfb then
    feedbackAttrs none algorithm key
      (initVect.getD (.bytearray (if algorithm = "magma" then defaultIvMagma else defaultIvKuz)))
  else if mode = modeCtr then
    ctrAttrs algorithm key
      (initVect.getD (.bytearray (if algorithm = "magma" then defaultIvCtrMagma else defaultIvCtrKuz)))
  else if mode = modeMac then macAttrs algorithm key (data.getD (.bytearray []))
  else (none, .error (.cipherError "GOSTCipherError: unsupported cipher mode"))

/-- `__del__`, gost_34_13_2015.py 240-247 with 266-269. -/
def modeDel : Option CipherObj → Option CipherObj × DelRes
  | none => (none, .quiet)
  | some o => (some o.del.1, o.del.2)

/-! ### HMAC, r_50_1_113_2016.py -/

/-- The attributes `_key` and `_hasher_obj`. -/
structure HmacAttrs where
  key : Option Bytes
  hasher : Option HashObj
deriving DecidableEq, Repr

/-- The attributes of a complete object. -/
def Hmac.attrs (s : Hmac) : HmacAttrs := ⟨some s.key, some s.hasher⟩

/-- `__init__`, r_50_1_113_2016.py 106-135: `_key` is assigned before `_hasher_obj`, and nothing
between the two raises. -/
def hmacAttrs (name : String) (key : PyVal) (data : Option PyVal := none) : HmacAttrs × Res Unit :=
  match Hmac.initKey name key with
  | .error e => (⟨none, none⟩, .error e)
  | .ok s =>
    let data := data.getD (.bytearray [])
    if data.isEmpty then (s.attrs, .ok ())
    else ((s.update data).1.attrs, (s.update data).2)

/-- `__del__`, r_50_1_113_2016.py 137-145 with 209-212. -/
def hmacDel (a : HmacAttrs) : HmacAttrs × DelRes :=
  match a.hasher with
  | none => (a, .quiet)
  | some h =>
    match a.key with
    | none => ({ a with hasher := some h.reset }, .attributeError)
    | some k => (⟨some (zeroFill k), some h.reset⟩, .quiet)

/-! ### PBKDF, r_50_1_111_2016.py. The attribute is `_password`. -/

/-- `__init__`, r_50_1_111_2016.py 65-91. -/
def pbkdfAttrs (rand : Bytes) (password : PyVal) (salt : Option PyVal := none) : Option Bytes × Res Unit :=
  match password.data? with
  | none => (none, .error (.pbkdfError "GOSTPBKDFError: invalid password value"))
  | some pw =>
    let salt := salt.getD (.bytearray [])
    let salt := if salt.isEmpty then .bytearray rand else salt
    match salt.data? with
    | none => (some (zeroFill pw), .error (.pbkdfError "GOSTPBKDFError: invalid salt value"))
    | some _ =>
      match Hmac.new "HMAC_GOSTR3411_2012_512" (.bytearray pw) (some (.bytearray [])) with
      | .error e => (some pw, .error e)
      | .ok _ => (some pw, .ok ())

/-- `__del__`, r_50_1_111_2016.py 93-100 with 166-168: there is no test for the attribute. -/
def pbkdfDel : Option Bytes → Option Bytes × DelRes
  | none => (none, .attributeError)
  | some pw => (some (zeroFill pw), .quiet)

/-! ### Generator, r_1323565_1_006_2017.py. The attribute is `_rand_u`. -/

/-- `__init__`, r_1323565_1_006_2017.py 71-94: `_rand_u` is assigned the empty byte string first. -/
def randAttrs (rand : Bytes) (randK : Option PyVal := none) (sizeS : Nat := 48) : Option Bytes × Res Unit :=
  match Rand.seed rand sizeS (randK.getD (.bytearray [])) with
  | .error e => (some [], .error e)
  | .ok u => (some u, .ok ())

/-- `__del__`, r_1323565_1_006_2017.py 96-103 with 167-170. -/
def randDel : Option Bytes → Option Bytes × DelRes
  | none => (none, .quiet)
  | some u => (some (zeroFill u), .quiet)

end Gost
