import Verif.Model.Streebog

/-! Model of `gosthmac/r_50_1_113_2016.py`. Buffers are values here; the sharing of a
64-byte key with the caller is modelled in `Verif.Model.Alias`. -/

namespace Gost

/-- `_I_PAD`, r_50_1_113_2016.py 26-35. -/
def iPad : Bytes := List.replicate 64 0x36

/-- `_O_PAD`, r_50_1_113_2016.py 37-46. -/
def oPad : Bytes := List.replicate 64 0x5c

/-- State of an `R5011132016` object. -/
structure Hmac where
  key : Bytes
  hasher : HashObj
  counter : Nat
deriving DecidableEq, Repr

namespace Hmac

/-- `update` on a byte object, r_50_1_113_2016.py 163-167. -/
def updateBytes (s : Hmac) (d : Bytes) : Hmac :=
  let counter := s.counter + 1
  if counter = 1 then
    { s with counter := counter, hasher := s.hasher.updateBytes (addXor s.key iPad ++ d) }
  else { s with counter := counter, hasher := s.hasher.updateBytes d }

/-- `update`, r_50_1_113_2016.py 147-167. -/
def update (s : Hmac) (data : PyVal) : Hmac × Res Unit :=
  match data.data? with
  | none => (s, .error (.hmacError "GOSTHMACError: invalid data value"))
  | some d => (s.updateBytes d, .ok ())

/-- `__init__` up to the handling of `data`, r_50_1_113_2016.py 116-133. -/
def initKey (name : String) (key : PyVal) : Res Hmac :=
  if name ≠ "HMAC_GOSTR3411_2012_256" ∧ name ≠ "HMAC_GOSTR3411_2012_512" then
    .error (.hmacError "GOSTHMACError: unsupported mode")
  else match key.data? with
    | none => .error (.hmacError "GOSTHMACError: invalid key value")
    | some k =>
      if k.length > 64 then .error (.hmacError "GOSTHMACError: invalid key value")
      else
        let key := if k.length < 64 then k ++ zeros (64 - k.length : Nat) else k
        let hname := if name = "HMAC_GOSTR3411_2012_256" then "streebog256" else "streebog512"
        .ok ⟨key, HashObj.hashInit hname, 0⟩

/-- `__init__` and `new`, r_50_1_113_2016.py 49-76 and 106-135. -/
def new (name : String) (key : PyVal) (data : Option PyVal := none) : Res Hmac := do
  let s ← initKey name key
  let data := data.getD (.bytearray [])
  if data.isEmpty then pure s
  else match s.update data with
    | (s, .ok ()) => pure s
    | (_, .error e) => .error e

/-- `digest`, r_50_1_113_2016.py 169-182. -/
def digest (s : Hmac) : Bytes :=
  let fin := HashObj.hashInit s.hasher.name
  let fin := fin.updateBytes (addXor s.key oPad ++ s.hasher.digest)
  fin.digest

/-- `hexdigest`, r_50_1_113_2016.py 184-193. -/
def hexdigest (s : Hmac) : List Char := pyHex s.digest

/-- `reset`, r_50_1_113_2016.py 204-207. -/
def reset (s : Hmac) : Hmac := { s with hasher := s.hasher.reset, counter := 0 }

/-- `clear`, r_50_1_113_2016.py 209-212: the counter is kept. -/
def clear (s : Hmac) : Hmac := { s with hasher := s.hasher.reset, key := zeroFill s.key }

/-- `digest_size`, r_50_1_113_2016.py 214-222. -/
def digestSize (s : Hmac) : Nat := s.hasher.digestSize

/-- `copy`, r_50_1_113_2016.py 195-202 (`deepcopy`). -/
def copy (s : Hmac) : Hmac := s

/-- `block_size`, r_50_1_113_2016.py 224-232. -/
def blockSize (s : Hmac) : Nat := s.hasher.blockSize

/-- `name`, r_50_1_113_2016.py 234-245. -/
def nameProp (s : Hmac) : String :=
  if s.hasher.name = "streebog512" then "HMAC_GOSTR3411_2012_512" else "HMAC_GOSTR3411_2012_256"

end Hmac
end Gost
