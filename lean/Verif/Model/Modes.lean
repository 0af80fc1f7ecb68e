import Verif.Model.BlockCipher

/-! Model of `gostcipher/gost_34_13_2015.py`: the modes of operation. -/

namespace Gost

/-! ### Constants, gost_34_13_2015.py 47-92 -/

def modeEcb : Int := 0x01
def modeCbc : Int := 0x02
def modeCfb : Int := 0x03
def modeOfb : Int := 0x05
def modeCtr : Int := 0x06
def modeMac : Int := 0xff

def padMode1 : Int := 0x800000f0
def padMode2 : Int := 0x800000f1

/-- `_DEFAULT_IV_CTR_KUZNECHIK`, gost_34_13_2015.py 59-61. -/
def defaultIvCtrKuz : Bytes := [0x12, 0x34, 0x56, 0x78, 0x90, 0xab, 0xce, 0xf0]

/-- `_DEFAULT_IV_CTR_MAGMA`, gost_34_13_2015.py 63-65. -/
def defaultIvCtrMagma : Bytes := [0x12, 0x34, 0x56, 0x78]

/-- `_DEFAULT_IV_KUZNECHIK`, gost_34_13_2015.py 67-72. -/
def defaultIvKuz : Bytes := [
  0x12, 0x34, 0x56, 0x78, 0x90, 0xab, 0xce, 0xf0,
  0xa1, 0xb2, 0xc3, 0xd4, 0xe5, 0xf0, 0x01, 0x12,
  0x23, 0x34, 0x45, 0x56, 0x67, 0x78, 0x89, 0x90,
  0x12, 0x13, 0x14, 0x15, 0x16, 0x17, 0x18, 0x19]

/-- `_DEFAULT_IV_MAGMA`, gost_34_13_2015.py 74-77. -/
def defaultIvMagma : Bytes := [
  0x12, 0x34, 0x56, 0x78, 0x90, 0xab, 0xcd, 0xef,
  0x23, 0x45, 0x67, 0x89, 0x0a, 0xbc, 0xde, 0xf1]

/-- `_DEFAULT_IV_CBC_MAGMA`, gost_34_13_2015.py 79-83. -/
def defaultIvCbcMagma : Bytes := [
  0x12, 0x34, 0x56, 0x78, 0x90, 0xab, 0xcd, 0xef,
  0x23, 0x45, 0x67, 0x89, 0x0a, 0xbc, 0xde, 0xf1,
  0x34, 0x56, 0x78, 0x90, 0xab, 0xcd, 0xef, 0x12]

/-- `_B_64`, gost_34_13_2015.py 85-87. -/
def b64 : Bytes := [0, 0, 0, 0, 0, 0, 0, 0x1b]

/-- `_B_128`, gost_34_13_2015.py 89-92. -/
def b128 : Bytes := [0, 0, 0, 0, 0, 0, 0, 0, 0, 0, 0, 0, 0, 0, 0, 0x87]

/-! ### Base class -/

/-- `_get_num_block`, gost_34_13_2015.py 249-250. -/
def getNumBlock (bs : Nat) (data : Bytes) : Nat := data.length / bs

/-- `_get_pad_size`, gost_34_13_2015.py 252-259. -/
def getPadSize (bs : Nat) (data : Bytes) : Nat :=
  if data.length < bs then bs - data.length
  else if data.length % bs == 0 then 0
  else bs - data.length % bs

/-- `_get_block`, gost_34_13_2015.py 261-264. -/
def getBlock (bs : Nat) (data : Bytes) (i : Nat) : Bytes :=
  pySlice data ((bs * i : Nat) : Int) ((bs + bs * i : Nat) : Int)

/-- `GOST34132015.__init__`, gost_34_13_2015.py 212-238. The algorithm is a string; a
value which is not one of the two names is rejected first, then the key. -/
def baseInit (algorithm : String) (key : PyVal) : Res CipherObj :=
  if algorithm ≠ "magma" ∧ algorithm ≠ "kuznechik" then
    .error (.cipherError "GOSTCipherError: unsupported cipher algorithm")
  else if !checkValue key 32 then
    .error (.cipherError "GOSTCipherError: invalid key value")
  else
    match key.data? with
    | none => .error (.cipherError "GOSTCipherError: invalid key value")
    | some k =>
      if algorithm = "kuznechik" then do
        let ks ← Kuz.init k
        pure (CipherObj.kuz ks)
      else do
        let ks ← Magma.init k
        pure (CipherObj.magma ks)

/-- The loop `for i in range(num_block): ...; result = result + X` shared by the
`encrypt` and `decrypt` methods. `step` gets the object state and block `i` and
returns the new state and the bytes appended to `result`; in all uses an
exception occurs before the state of that iteration is changed. The list is the
remaining part of the range. -/
def blockLoop {σ : Type} (step : σ → Bytes → Res (σ × Bytes)) (bs : Nat) (data : Bytes) :
    List Nat → σ → Bytes → σ × Res Bytes
  | [], s, result => (s, .ok result)
  | i :: is, s, result =>
    match step s (getBlock bs data i) with
    | .error e => (s, .error e)
    | .ok (s', out) => blockLoop step bs data is s' (result ++ out)

/-! ### Padding -/

/-- `_set_pad_mode_1`, gost_34_13_2015.py 376-377. -/
def setPadMode1 (bs : Nat) (data : Bytes) : Bytes :=
  data ++ zeros (getPadSize bs data)

/-- `_set_pad_mode_2`, gost_34_13_2015.py 379-380. -/
def setPadMode2 (bs : Nat) (data : Bytes) : Bytes :=
  data ++ [0x80] ++ zeros ((bs : Int) + getPadSize bs data - 1)

/-- `_set_padding`, gost_34_13_2015.py 382-388. -/
def setPadding (bs : Nat) (data : Bytes) (padMode : Int) : Bytes :=
  if padMode = padMode1 then setPadMode1 bs data
  else if padMode = padMode2 then setPadMode2 bs data
  else data

/-! ### ECB -/

/-- State of a `GOST34132015ecb` object. -/
structure Ecb where
  obj : CipherObj
  padMode : Int
deriving DecidableEq, Repr

namespace Ecb

/-- `GOST34132015CipherPadding.__init__`, gost_34_13_2015.py 361-374. -/
def init (algorithm : String) (key : PyVal) (padMode : Int) : Res Ecb := do
  let obj ← baseInit algorithm key
  if padMode ≠ padMode1 ∧ padMode ≠ padMode2 then
    .error (.cipherError "GOSTCipherError: invalid padding mode")
  else pure ⟨obj, padMode⟩

/-- `clear`, gost_34_13_2015.py 266-269. -/
def clear (s : Ecb) : Ecb := { s with obj := s.obj.clear }

/-- `encrypt`, gost_34_13_2015.py 545-563 with 301-319 and 390-405. -/
def encrypt (s : Ecb) (data : PyVal) : Ecb × Res Bytes :=
  match data.data? with
  | none => (s.clear, .error (.cipherError "GOSTCipherError: invalid plaintext data"))
  | some d =>
    let bs := s.obj.blockSize
    let d := setPadding bs d s.padMode
    blockLoop (fun (s : Ecb) b => do let c ← s.obj.encrypt b; pure (s, c)) bs d
      (List.range (getNumBlock bs d)) s []

/-- `decrypt`, gost_34_13_2015.py 565-583 with 321-339. -/
def decrypt (s : Ecb) (data : PyVal) : Ecb × Res Bytes :=
  match data.data? with
  | none => (s.clear, .error (.cipherError "GOSTCipherError: invalid ciphertext data"))
  | some d =>
    let bs := s.obj.blockSize
    blockLoop (fun (s : Ecb) b => do let c ← s.obj.decrypt b; pure (s, c)) bs d
      (List.range (getNumBlock bs d)) s []

end Ecb

/-! ### Feedback register -/

/-- `GOST34132015CipherFeedBack.__init__` after the base class part,
gost_34_13_2015.py 457-463: the check of the initialisation vector. -/
def checkIv (bs : Nat) (iv : PyVal) : Res Bytes :=
  match iv.data? with
  | none => .error (.cipherError "GOSTCipherError: invalid initialization vector value")
  | some v =>
    if v.length % bs ≠ 0 then
      .error (.cipherError "GOSTCipherError: invalid initialization vector value")
    else .ok v

/-- `_get_gamma`, gost_34_13_2015.py 465-466. -/
def getGamma (obj : CipherObj) (iv : Bytes) : Res Bytes :=
  obj.encrypt (pySlice iv 0 obj.blockSize)

/-- `_set_init_vect`, gost_34_13_2015.py 468-473. -/
def setInitVect (bs : Nat) (iv data : Bytes) : Bytes :=
  let hi := pySlice iv bs iv.length
  let iv := pySliceAssign iv 0 ((iv.length : Int) - bs) hi
  pySliceAssign iv ((iv.length : Int) - bs) iv.length data

/-- `_get_final_block`, gost_34_13_2015.py 475-476. -/
def getFinalBlock (bs : Nat) (data : Bytes) : Bytes :=
  pyFrom data ((bs * getNumBlock bs data : Nat) : Int)

/-- `_final_cipher`, gost_34_13_2015.py 478-481. -/
def finalCipher (obj : CipherObj) (iv data : Bytes) : Res Bytes := do
  let gamma ← getGamma obj iv
  pure (addXor gamma (getFinalBlock obj.blockSize data))

/-- The `iv` property, gost_34_13_2015.py 518-522. -/
def ivProp (bs : Nat) (iv : Bytes) : Bytes :=
  pyFrom iv ((iv.length : Int) - bs)

/-! ### CBC -/

/-- State of a `GOST34132015cbc` object. -/
structure Cbc where
  obj : CipherObj
  iv : Bytes
  padMode : Int
deriving DecidableEq, Repr

namespace Cbc

/-- `__init__`, gost_34_13_2015.py 606-618: first the padding part, then the feedback
part (each builds the cipher object from the same arguments). -/
def init (algorithm : String) (key iv : PyVal) (padMode : Int) : Res Cbc := do
  let e ← Ecb.init algorithm key padMode
  let obj ← baseInit algorithm key
  let v ← checkIv obj.blockSize iv
  pure ⟨obj, v, e.padMode⟩

/-- `clear`, gost_34_13_2015.py 266-269. -/
def clear (s : Cbc) : Cbc := { s with obj := s.obj.clear }

/-- One iteration of `encrypt`, gost_34_13_2015.py 636-639. -/
def encStep (s : Cbc) (block : Bytes) : Res (Cbc × Bytes) := do
  let bs := s.obj.blockSize
  let internal := addXor (pySlice s.iv 0 bs) block
  let cipherBlock ← s.obj.encrypt internal
  pure ({ s with iv := setInitVect bs s.iv (pySlice cipherBlock 0 bs) }, cipherBlock)

/-- `encrypt`, gost_34_13_2015.py 620-640. -/
def encrypt (s : Cbc) (data : PyVal) : Cbc × Res Bytes :=
  match data.data? with
  | none => (s.clear, .error (.cipherError "GOSTCipherError: invalid plaintext data"))
  | some d =>
    let bs := s.obj.blockSize
    let d := setPadding bs d s.padMode
    blockLoop encStep bs d (List.range (getNumBlock bs d)) s []

/-- One iteration of `decrypt`, gost_34_13_2015.py 659-662. -/
def decStep (s : Cbc) (block : Bytes) : Res (Cbc × Bytes) := do
  let bs := s.obj.blockSize
  let internal ← s.obj.decrypt block
  let cipherBlock := addXor (pySlice s.iv 0 bs) internal
  pure ({ s with iv := setInitVect bs s.iv block }, cipherBlock)

/-- `decrypt`, gost_34_13_2015.py 642-664. -/
def decrypt (s : Cbc) (data : PyVal) : Cbc × Res Bytes :=
  match data.data? with
  | none => (s.clear, .error (.cipherError "GOSTCipherError: invalid ciphertext data"))
  | some d =>
    let bs := s.obj.blockSize
    blockLoop decStep bs d (List.range (getNumBlock bs d)) s []

end Cbc

/-- State of a `GOST34132015cfb` or `GOST34132015ofb` object. -/
structure Fb where
  obj : CipherObj
  iv : Bytes
deriving DecidableEq, Repr

namespace Fb

/-- `GOST34132015CipherFeedBack.__init__`, gost_34_13_2015.py 448-463. -/
def init (algorithm : String) (key iv : PyVal) : Res Fb := do
  let obj ← baseInit algorithm key
  let v ← checkIv obj.blockSize iv
  pure ⟨obj, v⟩

/-- `clear`, gost_34_13_2015.py 266-269. -/
def clear (s : Fb) : Fb := { s with obj := s.obj.clear }

/-- The tail `if len(data) % block_size != 0: result = result + final`, run after
the block loop (gost_34_13_2015.py 710-711, 734-735, 781-782). -/
def tail (d : Bytes) (r : Fb × Res Bytes) : Fb × Res Bytes :=
  match r with
  | (s, .error e) => (s, .error e)
  | (s, .ok result) =>
    if d.length % s.obj.blockSize ≠ 0 then
      match finalCipher s.obj s.iv d with
      | .error e => (s, .error e)
      | .ok f => (s, .ok (result ++ f))
    else (s, .ok result)

end Fb

/-! ### CFB -/

namespace Cfb

/-- One iteration of `encrypt`, gost_34_13_2015.py 705-709. -/
def encStep (s : Fb) (block : Bytes) : Res (Fb × Bytes) := do
  let bs := s.obj.blockSize
  let gamma ← getGamma s.obj s.iv
  let cipherBlock := addXor gamma block
  pure ({ s with iv := setInitVect bs s.iv (pySlice cipherBlock 0 bs) }, cipherBlock)

/-- `encrypt`, gost_34_13_2015.py 686-712. -/
def encrypt (s : Fb) (data : PyVal) : Fb × Res Bytes :=
  match data.data? with
  | none => (s.clear, .error (.cipherError "GOSTCipherError: invalid plaintext data"))
  | some d =>
    let bs := s.obj.blockSize
    Fb.tail d (blockLoop encStep bs d (List.range (getNumBlock bs d)) s [])

/-- One iteration of `decrypt`, gost_34_13_2015.py 729-733. -/
def decStep (s : Fb) (block : Bytes) : Res (Fb × Bytes) := do
  let bs := s.obj.blockSize
  let gamma ← getGamma s.obj s.iv
  pure ({ s with iv := setInitVect bs s.iv block }, addXor gamma block)

/-- `decrypt`, gost_34_13_2015.py 714-736. -/
def decrypt (s : Fb) (data : PyVal) : Fb × Res Bytes :=
  match data.data? with
  | none => (s.clear, .error (.cipherError "GOSTCipherError: invalid ciphertext data"))
  | some d =>
    let bs := s.obj.blockSize
    Fb.tail d (blockLoop decStep bs d (List.range (getNumBlock bs d)) s [])

end Cfb

/-! ### OFB -/

namespace Ofb

/-- One iteration of `encrypt`, gost_34_13_2015.py 776-780. -/
def step (s : Fb) (block : Bytes) : Res (Fb × Bytes) := do
  let bs := s.obj.blockSize
  let gamma ← getGamma s.obj s.iv
  pure ({ s with iv := setInitVect bs s.iv (pySlice gamma 0 bs) }, addXor gamma block)

/-- `encrypt`, gost_34_13_2015.py 758-783. -/
def encrypt (s : Fb) (data : PyVal) : Fb × Res Bytes :=
  match data.data? with
  | none => (s.clear, .error (.cipherError "GOSTCipherError: invalid plaintext data"))
  | some d =>
    let bs := s.obj.blockSize
    Fb.tail d (blockLoop step bs d (List.range (getNumBlock bs d)) s [])

/-- `decrypt`, gost_34_13_2015.py 785-799: the check of `decrypt`, then `encrypt`. -/
def decrypt (s : Fb) (data : PyVal) : Fb × Res Bytes :=
  match data.data? with
  | none => (s.clear, .error (.cipherError "GOSTCipherError: invalid ciphertext data"))
  | some _ => encrypt s data

end Ofb

/-! ### CTR -/

/-- State of a `GOST34132015ctr` object. -/
structure Ctr where
  obj : CipherObj
  initVect : Bytes
  counter : Bytes
deriving DecidableEq, Repr

namespace Ctr

/-- `__init__`, gost_34_13_2015.py 821-839. -/
def init (algorithm : String) (key iv : PyVal) : Res Ctr := do
  let obj ← baseInit algorithm key
  match iv.data? with
  | none => .error (.cipherError "GOSTCipherError: invalid initialization vector value")
  | some v =>
    if v.length ≠ obj.blockSize / 2 then
      .error (.cipherError "GOSTCipherError: invalid initialization vector value")
    else pure ⟨obj, v, v ++ zeros (obj.blockSize / 2 : Nat)⟩

/-- `clear`, gost_34_13_2015.py 266-269. -/
def clear (s : Ctr) : Ctr := { s with obj := s.obj.clear }

/-- `_inc_ctr`, gost_34_13_2015.py 841-848. The loop keeps (`internal`, `ctr`);
`internal` is an unbounded integer. -/
def incCtr (bs : Nat) (ctr : Bytes) : Res Bytes := do
  let bit := (List.replicate bs (0 : UInt8)).set (bs - 1) 1
  let r ← (List.range bs).foldlM (fun (st : Nat × Bytes) (i : Nat) => do
      let c ← pyGet st.2 (i : Int)
      let b ← pyGet bit (i : Int)
      let internal := c.toNat + b.toNat + (st.1 <<< 8)
      pure (internal, st.2.set i (UInt8.ofNat (internal &&& 0xff)))) (0, ctr)
  pure r.2

/-- One iteration of `encrypt`, gost_34_13_2015.py 873-876 (and 877-881 for the
last short block). -/
def step (s : Ctr) (block : Bytes) : Res (Ctr × Bytes) := do
  let gamma ← s.obj.encrypt s.counter
  let c ← incCtr s.obj.blockSize s.counter
  pure ({ s with counter := c }, addXor block gamma)

/-- `encrypt`, gost_34_13_2015.py 855-882. -/
def encrypt (s : Ctr) (data : PyVal) : Ctr × Res Bytes :=
  match data.data? with
  | none => (s.clear, .error (.cipherError "GOSTCipherError: invalid plaintext data"))
  | some d =>
    let bs := s.obj.blockSize
    match blockLoop step bs d (List.range (getNumBlock bs d)) s [] with
    | (s, .error e) => (s, .error e)
    | (s, .ok result) =>
      if d.length % bs ≠ 0 then
        match step s (pyFrom d ((bs * getNumBlock bs d : Nat) : Int)) with
        | .error e => (s, .error e)
        | .ok (s, f) => (s, .ok (result ++ f))
      else (s, .ok result)

/-- `decrypt`, gost_34_13_2015.py 884-899. -/
def decrypt (s : Ctr) (data : PyVal) : Ctr × Res Bytes :=
  match data.data? with
  | none => (s.clear, .error (.cipherError "GOSTCipherError: invalid ciphertext data"))
  | some _ => encrypt s data

end Ctr

/-! ### MAC -/

/-- State of a `GOST34132015mac` object. -/
structure Mac where
  obj : CipherObj
  key1 : Bytes
  key2 : Bytes
  finBuff : Bytes
  iterBuf : Bytes
  prevMac : Bytes
  curMac : Bytes
deriving DecidableEq, Repr

namespace Mac

/-- `clear`, gost_34_13_2015.py 266-269: only the round keys. -/
def clear (s : Mac) : Mac := { s with obj := s.obj.clear }

/-- `_set_pad_mode_3`, gost_34_13_2015.py 942-947. -/
def setPadMode3 (bs : Nat) (data : Bytes) : Bytes :=
  if getPadSize bs data = 0 then data
  else data ++ [0x80] ++ zeros ((getPadSize bs data : Int) - 1)

/-- One half of `_get_mac_key`, gost_34_13_2015.py 955-960 (and 961-966). -/
def double (bs : Nat) (b v : Bytes) : Res Bytes := do
  let m ← msb v
  let int := bytesToInt v <<< 1
  if m = 0 then pure (intToBytes int bs)
  else pure (addXor (intToBytes int bs) b)

/-- `_get_mac_key`, gost_34_13_2015.py 949-967. -/
def getMacKey (bs : Nat) (r : Bytes) : Res (Bytes × Bytes) := do
  let b := if bs = 16 then b128 else if bs = 8 then b64 else []
  let k1 ← double bs b r
  let k2 ← double bs b k1
  pure (k1, k2)

/-- The loop of `update`, gost_34_13_2015.py 990-992. -/
def chain (obj : CipherObj) (data : Bytes) : List Nat → Bytes → Res Bytes
  | [], prev => .ok prev
  | i :: is, prev => do
    let block ← obj.encrypt (addXor prev (getBlock obj.blockSize data i))
    chain obj data is block

/-- `update`, gost_34_13_2015.py 969-1012. All attribute writes come after the last
operation which can raise. -/
def update (s : Mac) (data : PyVal) : Mac × Res Unit :=
  match data.data? with
  | none => (s.clear, .error (.cipherError "GOSTCipherError: invalid text data"))
  | some d =>
    let bs := s.obj.blockSize
    let data := s.iterBuf ++ d
    let n : Int := data.length
    let pad : Int := getPadSize bs data
    match chain s.obj data (List.range (getNumBlock bs data - 1)) s.curMac with
    | .error e => (s, .error e)
    | .ok prev =>
      let fin := pyFrom data ((bs : Int) * ((getNumBlock bs data : Int) - 1))
      if getPadSize bs data = 0 then
        match s.obj.encrypt (addXor prev (pySlice data (n - bs) n)) with
        | .error e => (s, .error e)
        | .ok block =>
          ({ s with curMac := block, prevMac := prev, iterBuf := [], finBuff := fin }, .ok ())
      else
        match s.obj.encrypt (addXor prev (pySlice data (n - 2 * bs + pad) (n - bs + pad))) with
        | .error e => (s, .error e)
        | .ok block =>
          ({ s with curMac := block, prevMac := block,
                    iterBuf := pyFrom data (n - bs + pad), finBuff := fin }, .ok ())

/-- `__init__`, gost_34_13_2015.py 923-940. -/
def init (algorithm : String) (key data : PyVal) : Res Mac := do
  let obj ← baseInit algorithm key
  let r ← obj.encrypt (zeros obj.blockSize)
  let (k1, k2) ← getMacKey obj.blockSize r
  let s : Mac := ⟨obj, k1, k2, [], [], zeros obj.blockSize, zeros obj.blockSize⟩
  if data.isEmpty then pure s
  else
    match s.update data with
    | (s, .ok ()) => pure s
    | (_, .error e) => .error e

/-- `mac_final`, gost_34_13_2015.py 1014-1025. It changes `_fin_buff`. -/
def macFinal (s : Mac) : Mac × Res Bytes :=
  let bs := s.obj.blockSize
  let finalKey := if getPadSize bs s.finBuff = 0 then s.key1 else s.key2
  let s := if getPadSize bs s.finBuff = 0 then s
    else { s with finBuff := setPadMode3 bs (pyFrom s.finBuff bs) }
  (s, s.obj.encrypt (addXor (addXor s.finBuff s.prevMac) finalKey))

/-- `digest`, gost_34_13_2015.py 1027-1050: everything happens on a deep copy, so the object
itself is returned as it was. -/
def digest (s : Mac) (macSize : Int) : Mac × Res Bytes :=
  let temp := s
  if macSize > temp.obj.blockSize then
    (s, .error (.cipherError "GOSTCipherError: invalid message authentication code size"))
  else
    (s, do
      let r ← temp.macFinal.2
      pure (pyUpto r macSize))

/-- `hexdigest`, gost_34_13_2015.py 1052-1072. -/
def hexdigest (s : Mac) (macSize : Int) : Mac × Res (List Char) :=
  let (s, r) := s.digest macSize
  (s, do
    let r ← r
    pure (pyHex r))

end Mac

/-! ### `new` -/

/-- A cipher object as returned by `new`. -/
inductive Cipher where
  | ecb (s : Ecb)
  | cbc (s : Cbc)
  | cfb (s : Fb)
  | ofb (s : Fb)
  | ctr (s : Ctr)
  | mac (s : Mac)
deriving DecidableEq, Repr

/-- `new`, gost_34_13_2015.py 109-186. A keyword argument which is not given is `none`. -/
def newCipher (algorithm : String) (key : PyVal) (mode : Int)
    (padMode : Option Int := none) (initVect : Option PyVal := none)
    (data : Option PyVal := none) : Res Cipher :=
  let pad := padMode.getD padMode1
  if mode = modeEcb then do
    let s ← Ecb.init algorithm key pad
    pure (.ecb s)
  else if mode = modeCbc then do
    let iv := initVect.getD (.bytearray (if algorithm = "magma" then defaultIvCbcMagma else defaultIvKuz))
    let s ← Cbc.init algorithm key iv pad
    pure (.cbc s)
  else if mode = modeCfb then do
    let iv := initVect.getD (.bytearray (if algorithm = "magma" then defaultIvMagma else defaultIvKuz))
    let s ← Fb.init algorithm key iv
    pure (.cfb s)
  else if mode = modeOfb then do
    let iv := initVect.getD (.bytearray (if algorithm = "magma" then defaultIvMagma else defaultIvKuz))
    let s ← Fb.init algorithm key iv
    pure (.ofb s)
  else if mode = modeCtr then do
    let iv := initVect.getD (.bytearray (if algorithm = "magma" then defaultIvCtrMagma else defaultIvCtrKuz))
    let s ← Ctr.init algorithm key iv
    pure (.ctr s)
  else if mode = modeMac then do
    let s ← Mac.init algorithm key (data.getD (.bytearray []))
    pure (.mac s)
  else .error (.cipherError "GOSTCipherError: unsupported cipher mode")

end Gost
