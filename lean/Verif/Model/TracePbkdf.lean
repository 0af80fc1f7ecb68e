import Verif.Model.Pbkdf

/-! The derivation of keys once more, with a record of the messages which are passed to the HMAC object. -/

namespace Gost.Pbkdf

/-- `_u_first`, r_50_1_111_2016.py 102-105. -/
def uFirstT (s : Pbkdf) (t : List Bytes) : List Bytes × Pbkdf × Bytes :=
  let hm := s.hmac.reset
  let hm := hm.updateBytes (s.salt ++ intToBytes s.counter 4)
  (t ++ [s.salt ++ intToBytes s.counter 4], { s with hmac := hm }, hm.digest)

/-- `_u_iter`, r_50_1_111_2016.py 107-110. -/
def uIterT (s : Pbkdf) (uPrev : Bytes) (t : List Bytes) : List Bytes × Pbkdf × Bytes :=
  let hm := s.hmac.reset
  let hm := hm.updateBytes uPrev
  (t ++ [uPrev], { s with hmac := hm }, hm.digest)

/-- The loop of `_f`, r_50_1_111_2016.py 115-117; the first argument counts the iterations. -/
def fLoopT : Nat → Pbkdf → Bytes → Bytes → List Bytes → List Bytes × Pbkdf × Bytes
  | 0, s, _, acc, t => (t, s, acc)
  | n + 1, s, internal, acc, t =>
    let (t, s, u) := s.uIterT internal t
    fLoopT n s u (addXor acc u) t

/-- `_f`, r_50_1_111_2016.py 112-118. -/
def fT (s : Pbkdf) (t : List Bytes) : List Bytes × Pbkdf × Bytes :=
  let (t, s, acc) := s.uFirstT t
  let (t, s, internal) := s.uFirstT t
  fLoopT (s.iterations - 1).toNat s internal acc t

/-- The loop of `_calculate_pbkdf`, r_50_1_111_2016.py 125-127; `is` are the values of `i` which remain. -/
def blocksT : List Nat → Pbkdf → Bytes → List Bytes → List Bytes × Pbkdf × Bytes
  | [], s, r, t => (t, s, r)
  | i :: is, s, r, t =>
    let (t, s, b) := fT { s with counter := i } t
    blocksT is s (r ++ b) t

/-- `derive`, r_50_1_111_2016.py 120-146. -/
def deriveT (s : Pbkdf) (dkLen : Int) : List Bytes × Pbkdf × Res Bytes :=
  if dkLen > (2 ^ 32 - 1) * 64 then
    ([], s, .error (.pbkdfError "GOSTPBKDFError: invalid size of the derived key"))
  else
    let numBlock := dkLen.fdiv 64
    let numBlock := if dkLen.fmod 64 ≠ 0 then numBlock + 1 else numBlock
    let (t, s, r) := blocksT ((List.range numBlock.toNat).map (· + 1)) s [] []
    (t, s, .ok (pyUpto r dkLen))

end Gost.Pbkdf
