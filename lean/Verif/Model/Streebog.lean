import Verif.Model.Utils
import Verif.Model.StreebogTables

/-! Model of `gosthash/gost_34_11_2012.py`.

The chaining values, the counters and the blocks passed to the compression
function always have 64 bytes (proved in `Verif.Proofs.Hash`), so reading
`data[i]` with `i < 64` cannot raise; it is modelled with a default value. -/

namespace Gost
namespace Hash

/-- `_V_0`, gost_34_11_2012.py 25. -/
def v0 : Bytes := List.replicate 64 0

/-- `_V_512`, gost_34_11_2012.py 28-37. -/
def v512 : Bytes := v512Table.map UInt8.ofNat

/-- `_C[i]`, gost_34_11_2012.py 562-670. -/
def cConst (i : Nat) : Bytes := (cTable.getD i []).map UInt8.ofNat

/-- `_T[i][b]`, gost_34_11_2012.py 40-560. -/
def tEntry (i : Nat) (b : UInt8) : Nat := (tTable.getD i []).getD b.toNat 0

/-- `x.to_bytes(8, byteorder='little')` for `x < 2^64`. -/
def toBytes8le (x : Nat) : Bytes :=
  (List.range 8).map fun i => UInt8.ofNat (x / 256 ^ i % 256)

/-- `_hash_add_512`, gost_34_11_2012.py 769-777. The fold keeps (`op_c`, result). -/
def add512 (a b : Bytes) : Bytes :=
  ((List.range 64).foldl (fun (st : Nat × Bytes) i =>
    let c := (a.getD i 0).toNat + (b.getD i 0).toNat + (st.1 >>> 8)
    (c, st.2 ++ [UInt8.ofNat (c &&& 0xff)])) (0, [])).2

/-- The 64-bit word number `j` of `_hash_lps`, gost_34_11_2012.py 782-813. -/
def lpsWord (data : Bytes) (j : Nat) : Nat :=
  tEntry 0 (data.getD (0 + j) 0) ^^^ tEntry 1 (data.getD (8 + j) 0) ^^^
  tEntry 2 (data.getD (16 + j) 0) ^^^ tEntry 3 (data.getD (24 + j) 0) ^^^
  tEntry 4 (data.getD (32 + j) 0) ^^^ tEntry 5 (data.getD (40 + j) 0) ^^^
  tEntry 6 (data.getD (48 + j) 0) ^^^ tEntry 7 (data.getD (56 + j) 0)

/-- `_hash_lps`, gost_34_11_2012.py 780-814. `internal[8*j::] = w` replaces
everything from position `8*j` on, so the eight words are appended in order. -/
def lps (data : Bytes) : Bytes :=
  (List.range 8).flatMap fun j => toBytes8le (lpsWord data j)

/-- `_hash_get_key`, gost_34_11_2012.py 816-820. -/
def getKey (k : Bytes) (i : Nat) : Bytes := lps (addXor k (cConst i))

/-- `_hash_e`, gost_34_11_2012.py 822-828. The fold keeps (`k`, `internal`). -/
def hashE (k data : Bytes) : Bytes :=
  ((List.range 12).foldl (fun (st : Bytes × Bytes) i =>
    let internal := lps st.2
    let k := getKey st.1 i
    (k, addXor internal k)) (k, addXor k data)).2

/-- `_hash_g`, gost_34_11_2012.py 830-837. -/
def hashG (h n data : Bytes) : Bytes :=
  let k := lps (addXor n h)
  let internal := addXor (hashE k data) h
  addXor internal data

end Hash

/-- State of a `GOST34112012` object. (`_num_block` and `_pad_block_size` are always
rewritten before they are read and are not kept.) -/
structure HashObj where
  name : String
  buff : Bytes
  h : Bytes
  n : Bytes
  sigma : Bytes
deriving DecidableEq, Repr

namespace HashObj
open Hash

/-- `_hash_init`, gost_34_11_2012.py 757-766. -/
def hashInit (name : String) : HashObj where
  name := name
  buff := []
  h := if name = "streebog256" then List.replicate 64 1 else List.replicate 64 0
  n := List.replicate 64 0
  sigma := List.replicate 64 0

/-- The body of the loop of `update`, gost_34_11_2012.py 857-861. -/
def absorb (s : HashObj) (block : Bytes) : HashObj :=
  { s with
    h := hashG s.h s.n block
    n := add512 s.n v512
    sigma := add512 s.sigma block }

/-- `update` on a byte object, gost_34_11_2012.py 854-864. `_buff` is only assigned
when the total length is not a multiple of 64. -/
def updateBytes (s : HashObj) (d : Bytes) : HashObj :=
  let data := s.buff ++ d
  let numBlock := data.length / 64
  let s := (List.range numBlock).foldl (fun s i =>
    s.absorb (pySlice data ((i * 64 : Nat) : Int) ((i * 64 + 64 : Nat) : Int))) s
  let pad := 64 - data.length % 64
  if pad < 64 then { s with buff := pyFrom data (-((64 - pad : Nat) : Int)) } else s

/-- `update`, gost_34_11_2012.py 839-864. -/
def update (s : HashObj) (data : PyVal) : HashObj × Res Unit :=
  match data.data? with
  | none => (s, .error (.hashError "GOSTHashError: invalid data value"))
  | some d => (s.updateBytes d, .ok ())

/-- `__init__`, gost_34_11_2012.py 732-754. -/
def init (name : String) (data : PyVal) : Res HashObj :=
  let s := hashInit name
  if data.isEmpty then .ok s
  else match s.update data with
    | (s, .ok ()) => .ok s
    | (_, .error e) => .error e

/-- `new`, gost_34_11_2012.py 673-700. -/
def new (name : String) (data : Option PyVal := none) : Res HashObj :=
  if name ≠ "streebog512" ∧ name ≠ "streebog256" then
    .error (.hashError "GOSTHashError: unsupported hash type")
  else init name (data.getD (.bytearray []))

/-- `digest_size`, gost_34_11_2012.py 921-933. -/
def digestSize (s : HashObj) : Nat := if s.name = "streebog512" then 64 else 32

/-- `hash_final`, gost_34_11_2012.py 866-880. -/
def hashFinal (s : HashObj) : HashObj :=
  let pad : Int := 64 - (s.buff.length : Int)
  let bits : Nat := ((64 - pad) * 8).toNat
  let internal : Bytes := ((List.replicate 64 (0 : UInt8)).set 1
    (UInt8.ofNat ((bits >>> 8) &&& 0xff))).set 0 (UInt8.ofNat (bits &&& 0xff))
  let buff := if pad ≤ 64 then s.buff ++ [0x01] ++ zeros (pad - 1) else s.buff
  let h := hashG s.h s.n buff
  let n := add512 s.n internal
  let sigma := add512 s.sigma buff
  let h := hashG h v0 n
  let h := hashG h v0 sigma
  { s with buff := buff, h := h, n := n, sigma := sigma }

/-- `get_hash`, gost_34_11_2012.py 882-884. -/
def getHash (s : HashObj) : Bytes := pyFrom s.h (-(s.digestSize : Int))

/-- `digest`, gost_34_11_2012.py 886-896: on a deep copy. -/
def digest (s : HashObj) : Bytes := s.hashFinal.getHash

/-- `hexdigest`, gost_34_11_2012.py 898-907. -/
def hexdigest (s : HashObj) : List Char := pyHex s.digest

/-- `reset`, gost_34_11_2012.py 909-911. -/
def reset (s : HashObj) : HashObj := hashInit s.name

/-- `copy`, gost_34_11_2012.py 913-920 (`deepcopy`). -/
def copy (s : HashObj) : HashObj := s

/-- `block_size`, gost_34_11_2012.py 936-944. -/
def blockSize (_ : HashObj) : Nat := 64

end HashObj
end Gost
