import Verif.Spec.Streebog

/-! The message for which a hash object stands after a number of `update` calls. -/

namespace Gost.Spec

/-- The message hashed after `update(d)` on an object which stands for the message `M`.
When `M` has an incomplete last block and `d` completes a block exactly, the code keeps
the incomplete block of `M` and hashes it once more. -/
def effective (M d : List UInt8) : List UInt8 :=
  if (rest 64 M).length ≠ 0 ∧ (M.length + d.length) % 64 = 0 then M ++ d ++ rest 64 M else M ++ d

/-- The update `d` after the message `M` does not complete a started block exactly. -/
def Harmless (M d : List UInt8) : Prop := M.length % 64 = 0 ∨ (M.length + d.length) % 64 ≠ 0

/-- None of the updates completes a started block exactly. -/
def AllHarmless (M : List UInt8) : List (List UInt8) → Prop
  | [] => True
  | d :: ds => Harmless M d ∧ AllHarmless (M ++ d) ds

/-- The hash of the standard selected by the name used in the package. -/
def hashOf (name : String) (M : List UInt8) : List UInt8 :=
  if name = "streebog512" then Streebog.hash512 M else Streebog.hash256 M

/-- The two names. -/
def IsHashName (name : String) : Prop := name = "streebog512" ∨ name = "streebog256"

/-- Calls on a collection of hash objects; the objects are numbered in the order of
their creation. `none` as an argument is a value which is not a byte object. -/
inductive HashCall where
  | new (big : Bool)
  | update (i : Nat) (v : Option (List UInt8))
  | digest (i : Nat)
  | hexdigest (i : Nat)
  | copy (i : Nat)
  | reset (i : Nat)

/-- What a call returns. -/
inductive HashOut where
  | done
  | rejected
  | bytes (b : List UInt8)
  | text (s : List Char)
  | noObject
deriving DecidableEq

/-- What the calls must do: every object is a name and a message, nothing else. -/
def hashLog (hexOf : List UInt8 → List Char) (objs : List (String × List UInt8)) :
    HashCall → List (String × List UInt8) × HashOut
  | .new big => (objs ++ [(if big then "streebog512" else "streebog256", [])], .done)
  | .update i v =>
    match objs[i]?, v with
    | some (n, M), some d => (objs.set i (n, effective M d), .done)
    | some _, none => (objs, .rejected)
    | none, _ => (objs, .noObject)
  | .digest i =>
    match objs[i]? with
    | some (n, M) => (objs, .bytes (hashOf n M))
    | none => (objs, .noObject)
  | .hexdigest i =>
    match objs[i]? with
    | some (n, M) => (objs, .text (hexOf (hashOf n M)))
    | none => (objs, .noObject)
  | .copy i =>
    match objs[i]? with
    | some o => (objs ++ [o], .done)
    | none => (objs, .noObject)
  | .reset i =>
    match objs[i]? with
    | some (n, _) => (objs.set i (n, []), .done)
    | none => (objs, .noObject)

/-- The outputs of a sequence of calls. -/
def outputs {σ : Type} (f : σ → HashCall → σ × HashOut) (s : σ) : List HashCall → List HashOut
  | [] => []
  | c :: cs => (f s c).2 :: outputs f (f s c).1 cs

end Gost.Spec
