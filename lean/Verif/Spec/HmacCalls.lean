import Verif.Spec.Hmac

/-! What any sequence of calls on any number of HMAC objects must return. -/

namespace Gost.Spec

/-- Calls on a collection of HMAC objects, numbered in the order of their creation. `none` as an
argument is a value which is not a byte object; the outer `Option` of `new` tells whether the
argument `data` is given. -/
inductive HmacOp where
  | new (name : String) (key : Option (List UInt8)) (data : Option (Option (List UInt8)))
  | update (i : Nat) (v : Option (List UInt8))
  | digest (i : Nat)
  | hexdigest (i : Nat)
  | copy (i : Nat)
  | reset (i : Nat)
  | clear (i : Nat)
  | digestSize (i : Nat)
  | blockSize (i : Nat)
  | name (i : Nat)

/-- What a call returns. -/
inductive HmacRes where
  | done
  | rejected (msg : String)
  | bytes (b : List UInt8)
  | text (t : List Char)
  | num (n : Nat)
  | str (s : String)
  | noObject
deriving DecidableEq

/-- An object is a name, a key of 64 bytes, the message of the inner hash function, and whether the
first update, which puts the key in front of the data, is still to come. -/
structure HmacEntry where
  name : String
  key : List UInt8
  started : Bool
  inner : List UInt8
deriving DecidableEq

/-- An accepted update. -/
def HmacEntry.update (e : HmacEntry) (d : List UInt8) : HmacEntry :=
  if e.started then { e with inner := effective e.inner d }
  else { e with started := true, inner := xorByte e.key 0x36 ++ d }

/-- The code returned by `digest`. -/
def HmacEntry.digest (e : HmacEntry) : List UInt8 :=
  hashOf (hmacHash e.name) (xorByte e.key 0x5c ++ hashOf (hmacHash e.name) e.inner)

/-- The key which `clear` leaves: the four characters `/x00` sixteen times. -/
def clearedKey : List UInt8 := (List.replicate 16 [0x2f, 0x78, 0x30, 0x30]).flatten

/-- What `new` must do. -/
def hmacNew (name : String) (key : Option (List UInt8)) (data : Option (Option (List UInt8))) :
    Except String HmacEntry :=
  if name = "HMAC_GOSTR3411_2012_256" ∨ name = "HMAC_GOSTR3411_2012_512" then
    match key with
    | none => .error "GOSTHMACError: invalid key value"
    | some k =>
      if k.length ≤ 64 then
        match data with
        | none => .ok ⟨name, hmacKey k, false, []⟩
        | some none => .error "GOSTHMACError: invalid data value"
        | some (some []) => .ok ⟨name, hmacKey k, false, []⟩
        | some (some (b :: d)) => .ok ((⟨name, hmacKey k, false, []⟩ : HmacEntry).update (b :: d))
      else .error "GOSTHMACError: invalid key value"
  else .error "GOSTHMACError: unsupported mode"

/-- What the calls must do. -/
def hmacLog (hexOf : List UInt8 → List Char) (objs : List HmacEntry) :
    HmacOp → List HmacEntry × HmacRes
  | .new name key data =>
    match hmacNew name key data with
    | .ok e => (objs ++ [e], .done)
    | .error m => (objs, .rejected m)
  | .update i v =>
    match objs[i]?, v with
    | some e, some d => (objs.set i (e.update d), .done)
    | some _, none => (objs, .rejected "GOSTHMACError: invalid data value")
    | none, _ => (objs, .noObject)
  | .digest i =>
    match objs[i]? with
    | some e => (objs, .bytes e.digest)
    | none => (objs, .noObject)
  | .hexdigest i =>
    match objs[i]? with
    | some e => (objs, .text (hexOf e.digest))
    | none => (objs, .noObject)
  | .copy i =>
    match objs[i]? with
    | some e => (objs ++ [e], .done)
    | none => (objs, .noObject)
  | .reset i =>
    match objs[i]? with
    | some e => (objs.set i { e with started := false, inner := [] }, .done)
    | none => (objs, .noObject)
  | .clear i =>
    match objs[i]? with
    | some e => (objs.set i { e with key := clearedKey, inner := [] }, .done)
    | none => (objs, .noObject)
  | .digestSize i =>
    match objs[i]? with
    | some e => (objs, .num (if e.name = "HMAC_GOSTR3411_2012_512" then 64 else 32))
    | none => (objs, .noObject)
  | .blockSize i =>
    match objs[i]? with
    | some _ => (objs, .num 64)
    | none => (objs, .noObject)
  | .name i =>
    match objs[i]? with
    | some e => (objs, .str e.name)
    | none => (objs, .noObject)

/-- The outputs of a sequence of calls. -/
def hmacOutputs {σ : Type} (f : σ → HmacOp → σ × HmacRes) (s : σ) : List HmacOp → List HmacRes
  | [] => []
  | c :: cs => (f s c).2 :: hmacOutputs f (f s c).1 cs

end Gost.Spec
