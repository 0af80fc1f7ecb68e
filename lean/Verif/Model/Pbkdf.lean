import Verif.Model.Hmac

/-! Model of `gostpbkdf/r_50_1_111_2016.py`. -/

namespace Gost

/-- State of an `R5011112016` object. (`_num_block` is a scratch attribute which is
written before it is read and is not kept.) -/
structure Pbkdf where
  password : Bytes
  salt : Bytes
  iterations : Int
  counter : Nat
  hmac : Hmac
deriving DecidableEq, Repr

namespace Pbkdf

/-- `__init__` and `new`, r_50_1_111_2016.py 27-49 and 65-91. `rand` is what
`os.urandom(32)` returns if it is called. A salt is `none` when not given. -/
def new (rand : Bytes) (password : PyVal) (salt : Option PyVal := none)
    (counter : Int := 1000) : Res Pbkdf :=
  match password.data? with
  | none => .error (.pbkdfError "GOSTPBKDFError: invalid password value")
  | some pw =>
    let salt := salt.getD (.bytearray [])
    let salt := if salt.isEmpty then .bytearray rand else salt
    match salt.data? with
    | none => .error (.pbkdfError "GOSTPBKDFError: invalid salt value")
    | some sl =>
      match Hmac.new "HMAC_GOSTR3411_2012_512" (.bytearray pw) (some (.bytearray [])) with
      | .error e => .error e
      | .ok hm => .ok ⟨pw, sl, counter, 0, hm⟩

/-- `_u_first`, r_50_1_111_2016.py 102-105. -/
def uFirst (s : Pbkdf) : Pbkdf × Bytes :=
  let hm := s.hmac.reset
  let hm := hm.updateBytes (s.salt ++ intToBytes s.counter 4)
  ({ s with hmac := hm }, hm.digest)

/-- `_u_iter`, r_50_1_111_2016.py 107-110. -/
def uIter (s : Pbkdf) (uPrev : Bytes) : Pbkdf × Bytes :=
  let hm := s.hmac.reset
  let hm := hm.updateBytes uPrev
  ({ s with hmac := hm }, hm.digest)

/-- `_f`, r_50_1_111_2016.py 112-118. -/
def f (s : Pbkdf) : Pbkdf × Bytes :=
  let (s, t) := s.uFirst
  let (s, internal) := s.uFirst
  let r := (List.range (s.iterations - 1).toNat).foldl
    (fun (st : Pbkdf × Bytes × Bytes) _ =>
      let (s, u) := st.1.uIter st.2.1
      (s, u, addXor st.2.2 u)) (s, internal, t)
  (r.1, r.2.2)

/-- `_calculate_pbkdf`, r_50_1_111_2016.py 120-128. -/
def calculate (s : Pbkdf) (dkLen : Int) : Pbkdf × Bytes :=
  let numBlock := dkLen.fdiv 64
  let numBlock := if dkLen.fmod 64 ≠ 0 then numBlock + 1 else numBlock
  (List.range numBlock.toNat).foldl (fun (st : Pbkdf × Bytes) i =>
    let (s, t) := f { st.1 with counter := i + 1 }
    (s, st.2 ++ t)) (s, [])

/-- `derive`, r_50_1_111_2016.py 130-146. -/
def derive (s : Pbkdf) (dkLen : Int) : Pbkdf × Res Bytes :=
  if dkLen > (2 ^ 32 - 1) * 64 then
    (s, .error (.pbkdfError "GOSTPBKDFError: invalid size of the derived key"))
  else
    let (s, r) := s.calculate dkLen
    (s, .ok (pyUpto r dkLen))

/-- `hexderive`, r_50_1_111_2016.py 148-164. -/
def hexderive (s : Pbkdf) (dkLen : Int) : Pbkdf × Res (List Char) :=
  match s.derive dkLen with
  | (s, .ok r) => (s, .ok (pyHex r))
  | (s, .error e) => (s, .error e)

/-- `clear`, r_50_1_111_2016.py 166-168. -/
def clear (s : Pbkdf) : Pbkdf := { s with password := zeroFill s.password }

/-- `salt`, r_50_1_111_2016.py 170-173. -/
def saltProp (s : Pbkdf) : Bytes := s.salt

end Pbkdf
end Gost
