import Verif.Spec.Hmac

/-! What any sequence of calls on any number of key derivation objects must return. -/

namespace Gost.Spec

/-- Calls on a collection of objects, numbered in the order of their creation. `none` as an
argument is a value which is not a byte object; the outer `Option` of the salt tells whether it is
given. `rand` is what the random source of the system returns to this call of `new`. -/
inductive PbkdfOp where
  | new (rand : List UInt8) (password : Option (List UInt8)) (salt : Option (Option (List UInt8)))
      (iterations : Int)
  | derive (i : Nat) (n : Int)
  | hexderive (i : Nat) (n : Int)
  | clear (i : Nat)
  | salt (i : Nat)

/-- What a call returns. -/
inductive PbkdfRes where
  | done
  | rejected (msg : String)
  | bytes (b : List UInt8)
  | text (t : List Char)
  | noObject
deriving DecidableEq

/-- An object is a password, a salt and a number of iterations. -/
structure PbkdfEntry where
  password : List UInt8
  salt : List UInt8
  iterations : Int
deriving DecidableEq

/-- The derived key; a number of iterations below 1 counts as 1, a length below 0 as 0. -/
def PbkdfEntry.derive (e : PbkdfEntry) (n : Int) : List UInt8 :=
  pbkdf2 (hmac (hashOf "streebog512") e.password) e.salt (max 1 e.iterations).toNat n.toNat

/-- What `new` must do. -/
def pbkdfNew (rand : List UInt8) (password : Option (List UInt8))
    (salt : Option (Option (List UInt8))) (iterations : Int) : Except String PbkdfEntry :=
  match password, salt with
  | none, _ => .error "GOSTPBKDFError: invalid password value"
  | some _, some none => .error "GOSTPBKDFError: invalid salt value"
  | some pw, none => check pw rand
  | some pw, some (some []) => check pw rand
  | some pw, some (some (b :: sl)) => check pw (b :: sl)
where
  check (pw sl : List UInt8) : Except String PbkdfEntry :=
    if pw.length ≤ 64 then .ok ⟨pw, sl, iterations⟩ else .error "GOSTHMACError: invalid key value"

/-- What the calls must do; `clear` does nothing. -/
def pbkdfLog (hexOf : List UInt8 → List Char) (objs : List PbkdfEntry) :
    PbkdfOp → List PbkdfEntry × PbkdfRes
  | .new rand pw salt c =>
    match pbkdfNew rand pw salt c with
    | .ok e => (objs ++ [e], .done)
    | .error m => (objs, .rejected m)
  | .derive i n =>
    match objs[i]? with
    | some e =>
      if n ≤ (2 ^ 32 - 1) * 64 then (objs, .bytes (e.derive n))
      else (objs, .rejected "GOSTPBKDFError: invalid size of the derived key")
    | none => (objs, .noObject)
  | .hexderive i n =>
    match objs[i]? with
    | some e =>
      if n ≤ (2 ^ 32 - 1) * 64 then (objs, .text (hexOf (e.derive n)))
      else (objs, .rejected "GOSTPBKDFError: invalid size of the derived key")
    | none => (objs, .noObject)
  | .clear i =>
    match objs[i]? with
    | some _ => (objs, .done)
    | none => (objs, .noObject)
  | .salt i =>
    match objs[i]? with
    | some e => (objs, .bytes e.salt)
    | none => (objs, .noObject)

/-- The outputs of a sequence of calls. -/
def pbkdfOutputs {σ : Type} (f : σ → PbkdfOp → σ × PbkdfRes) (s : σ) : List PbkdfOp → List PbkdfRes
  | [] => []
  | c :: cs => (f s c).2 :: pbkdfOutputs f (f s c).1 cs

end Gost.Spec
