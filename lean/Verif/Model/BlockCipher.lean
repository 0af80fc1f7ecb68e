import Verif.Model.Utils
import Verif.Model.CipherTables

/-! Model of `gostcipher/gost_34_12_2015.py`: the block ciphers Kuznechik and Magma.

A table lookup `T[i]` never leaves the table (256 or 16 entries, index one byte
or one nibble), so it is modelled with a default value; the sizes are checked in
`Verif.Proofs.Tables`. An index into a *block* can fail and raises `IndexError`. -/

namespace Gost

/-- `_S_BOX_KUZNECHIK[b]`, gost_34_12_2015.py 306-339. -/
def sKuz (b : UInt8) : UInt8 := UInt8.ofNat (sBoxKuznechik.getD b.toNat 0)

/-- `_S_BOX_REVERSE_KUZNECHIK[b]`, gost_34_12_2015.py 341-374. -/
def sKuzRev (b : UInt8) : UInt8 := UInt8.ofNat (sBoxReverseKuznechik.getD b.toNat 0)

/-- `_GF[i][b]`, gost_34_12_2015.py 31-303. -/
def gf (i : Nat) (b : UInt8) : UInt8 := UInt8.ofNat ((gfTable.getD i []).getD b.toNat 0)

namespace Kuz

/-- `_cipher_s`, gost_34_12_2015.py 457-461. -/
def cipherS (data : Bytes) : Res Bytes :=
  (List.range 16).mapM fun (i : Nat) => do
    let b ← pyGet data (i : Int)
    pure (sKuz b)

/-- `_cipher_s_reverse`, gost_34_12_2015.py 464-468. -/
def cipherSRev (data : Bytes) : Res Bytes :=
  (List.range 16).mapM fun (i : Nat) => do
    let b ← pyGet data (i : Int)
    pure (sKuzRev b)

/-- `_cipher_r`, gost_34_12_2015.py 471-478. The loop is split in two: first
`result[i] = data[i-1]` (index -1 for i = 0), then the sum `a_0`. -/
def cipherR (data : Bytes) : Res Bytes := do
  let result ← (List.range 16).mapM fun (i : Nat) => pyGet data ((i : Int) - 1)
  let a0 := (List.range 16).foldl (fun a i => a ^^^ gf i (result.getD i 0)) 0
  pure (result.set 0 a0)

/-- `_cipher_r_reverse`, gost_34_12_2015.py 481-488. The loop runs from 15 down to 0:
`result[i-1] = data[i]` fills positions 14..0 and (i = 0) position -1 = 15,
which is then overwritten by the sum. -/
def cipherRRev (data : Bytes) : Res Bytes := do
  let d ← (List.range 16).mapM fun (i : Nat) => pyGet data (i : Int)
  let a15 := (List.range 16).reverse.foldl (fun a i => a ^^^ gf i (d.getD i 0)) 0
  let result := (List.range 16).map fun i => d.getD ((i + 1) % 16) 0
  pure (result.set 15 a15)

/-- `_cipher_l`, gost_34_12_2015.py 491-496. -/
def cipherL (data : Bytes) : Res Bytes :=
  (List.range 16).foldlM (fun r _ => cipherR r) data

/-- `_cipher_l_reverse`, gost_34_12_2015.py 499-504. -/
def cipherLRev (data : Bytes) : Res Bytes :=
  (List.range 16).foldlM (fun r _ => cipherRRev r) data

/-- `_cipher_get_c`, gost_34_12_2015.py 506-510: the 32 constants. -/
def getC : Res (List Bytes) :=
  (List.range 32).mapM fun i =>
    cipherL ((List.replicate 16 (0 : UInt8)).set 15 (UInt8.ofNat (i + 1)))

/-- One step of the key schedule loop, gost_34_12_2015.py 435-438. -/
def keyStep (c : List Bytes) (k : Bytes × Bytes) (n : Nat) : Res (Bytes × Bytes) := do
  let internal := addXor k.1 (← pyGet c n)
  let internal ← cipherS internal
  let internal ← cipherL internal
  pure (addXor internal k.2, k.1)

/-- `__init__`, gost_34_12_2015.py 419-445: the ten round keys. -/
def init (key : Bytes) : Res (List Bytes) := do
  let c ← getC
  let key1 := pyUpto key 16
  let key2 := pyFrom key 16
  let r ← (List.range 4).foldlM (fun (st : (Bytes × Bytes) × List Bytes) i => do
      let k ← (List.range 8).foldlM (fun k j => keyStep c k (i * 8 + j)) st.1
      pure (k, st.2 ++ [k.1, k.2])) ((key1, key2), [key1, key2])
  pure r.2

/-- `encrypt`, gost_34_12_2015.py 551-568. -/
def encrypt (iterKey : List Bytes) (block : Bytes) : Res Bytes := do
  let b ← (List.range 9).foldlM (fun b (i : Nat) => do
      let k ← pyGet iterKey i
      let b ← cipherS (addXor k b)
      cipherL b) block
  let k ← pyGet iterKey 9
  pure (addXor k b)

/-- `decrypt`, gost_34_12_2015.py 532-549. -/
def decrypt (iterKey : List Bytes) (block : Bytes) : Res Bytes := do
  let k ← pyGet iterKey 9
  (List.range 9).reverse.foldlM (fun b (i : Nat) => do
      let b ← cipherLRev b
      let b ← cipherSRev b
      let k ← pyGet iterKey i
      pure (addXor k b)) (addXor k block)

/-- `clear`, gost_34_12_2015.py 570-573 (the list always has ten keys). -/
def clear (iterKey : List Bytes) : List Bytes := iterKey.map zeroFill

end Kuz

namespace Magma

/-- One word of `_expand_iter_key`, gost_34_12_2015.py 626-629. -/
def keyWord (key : Bytes) (off : Nat) : Res Bytes :=
  (List.range 4).mapM fun i => pyGet key ((off + i : Nat) : Int)

/-- `_expand_iter_key`, gost_34_12_2015.py 623-631. -/
def expand (key : Bytes) : Res (List Bytes) :=
  (List.range 8).mapM fun j => keyWord key (j * 4)

/-- `_expand_iter_key_final`, gost_34_12_2015.py 633-640. -/
def expandFinal (key : Bytes) : Res (List Bytes) :=
  (List.range 8).mapM fun j => keyWord key (28 - j * 4)

/-- `__init__`, gost_34_12_2015.py 599-612: the 32 round keys. -/
def init (key : Bytes) : Res (List Bytes) := do
  let a ← expand key
  let b ← expand key
  let c ← expand key
  let d ← expandFinal key
  pure (a ++ b ++ c ++ d)

/-- `_S_BOX_MAGMA[i][x]`, gost_34_12_2015.py 376-393. -/
def sbox (i x : Nat) : Nat := (sBoxMagma.getD i []).getD x 0

/-- `_cipher_t`, gost_34_12_2015.py 643-652. -/
def cipherT (data : Bytes) : Res Bytes :=
  (List.range 4).mapM fun (i : Nat) => do
    let b ← pyGet data (i : Int)
    let lo := b.toNat &&& 0x0f
    let hi := (b.toNat &&& 0xf0) >>> 4
    let lo := sbox ((3 - i) * 2) lo
    let hi := sbox ((3 - i) * 2 + 1) hi
    pure (UInt8.ofNat ((hi <<< 4) ||| lo))

/-- `_cipher_add_32`, gost_34_12_2015.py 655-663: bytes 3 down to 0 with carry. The
fold keeps (`internal`, bytes produced so far, most significant first). -/
def add32 (a b : Bytes) : Res Bytes := do
  let r ← (List.range 4).reverse.foldlM (fun (st : Nat × Bytes) (i : Nat) => do
      let x ← pyGet a (i : Int)
      let y ← pyGet b (i : Int)
      let internal := x.toNat + y.toNat + (st.1 >>> 8)
      pure (internal, UInt8.ofNat (internal &&& 0xff) :: st.2)) (0, [])
  pure r.2

/-- `_cipher_g`, gost_34_12_2015.py 666-681. -/
def cipherG (k a : Bytes) : Res Bytes := do
  let internal ← add32 k a
  let internal ← cipherT internal
  let b0 ← pyGet internal 0
  let b1 ← pyGet internal 1
  let b2 ← pyGet internal 2
  let b3 ← pyGet internal 3
  let r := b0.toNat
  let r := (r <<< 8) + b1.toNat
  let r := (r <<< 8) + b2.toNat
  let r := (r <<< 8) + b3.toNat
  let r := (r <<< 11) ||| (r >>> 21)
  let r := r &&& 0xffffffff
  pure (intToBytes r 4)

/-- `_cipher_g_iter`, gost_34_12_2015.py 691-701: returns `(a_0, a_1, g)`. -/
def gIter (k a : Bytes) : Res (Bytes × Bytes × Bytes) := do
  let a1 := pySlice a 0 4
  let a0 := pySlice a 4 8
  let g ← cipherG k a0
  pure (a0, a1, addXor a1 g)

/-- `_cipher_g_iter_result`, gost_34_12_2015.py 684-688 (both halves have at most four
bytes; the slice assignments put `a_1` before `a_0`). -/
def gIterResult (a0 a1 : Bytes) : Bytes :=
  pySliceAssign (pySliceAssign (List.replicate 8 0) 0 4 a1) 4 8 a0

/-- `_cipher_g_prev`, gost_34_12_2015.py 704-708. -/
def gPrev (k a : Bytes) : Res Bytes := do
  let (a0, _, g) ← gIter k a
  pure (gIterResult g a0)

/-- `_cipher_g_fin`, gost_34_12_2015.py 711-714. -/
def gFin (k a : Bytes) : Res Bytes := do
  let (a0, _, g) ← gIter k a
  pure (gIterResult a0 g)

/-- `encrypt`, gost_34_12_2015.py 760-782. -/
def encrypt (iterKey : List Bytes) (block : Bytes) : Res Bytes := do
  let r ← gPrev (← pyGet iterKey 0) block
  let r ← (List.range' 1 30).foldlM (fun r (i : Nat) => do gPrev (← pyGet iterKey i) r) r
  gFin (← pyGet iterKey 31) r

/-- `decrypt`, gost_34_12_2015.py 736-758. -/
def decrypt (iterKey : List Bytes) (block : Bytes) : Res Bytes := do
  let r ← gPrev (← pyGet iterKey 31) block
  let r ← (List.range' 1 30).reverse.foldlM (fun r (i : Nat) => do gPrev (← pyGet iterKey i) r) r
  gFin (← pyGet iterKey 0) r

/-- `clear`, gost_34_12_2015.py 784-787 (the list always has 32 keys). -/
def clear (iterKey : List Bytes) : List Bytes := iterKey.map zeroFill

end Magma

/-- The object held in `_cipher_obj`: one of the two classes with its round keys. -/
inductive CipherObj where
  | kuz (iterKey : List Bytes)
  | magma (iterKey : List Bytes)
deriving DecidableEq, Repr

namespace CipherObj

/-- `block_size`, gost_34_12_2015.py 512-520 and 716-724. -/
def blockSize : CipherObj → Nat
  | kuz _ => 16
  | magma _ => 8

/-- `encrypt` of either class. -/
def encrypt : CipherObj → Bytes → Res Bytes
  | kuz k, b => Kuz.encrypt k b
  | magma k, b => Magma.encrypt k b

/-- `decrypt` of either class. -/
def decrypt : CipherObj → Bytes → Res Bytes
  | kuz k, b => Kuz.decrypt k b
  | magma k, b => Magma.decrypt k b

/-- `clear` of either class. -/
def clear : CipherObj → CipherObj
  | kuz k => kuz (Kuz.clear k)
  | magma k => magma (Magma.clear k)

end CipherObj

end Gost
