import Verif.Spec.Blocks
import Verif.Spec.Modes

/-! What a cipher object must return for any mixture of `encrypt` and `decrypt` calls
(GOST R 34.13-2015, clauses 5.1 to 5.5, with the call structure of the package). -/

namespace Gost.Spec

/-- A call with a byte object. -/
inductive CipherOp where
  | encrypt (d : List UInt8)
  | decrypt (d : List UInt8)

/-- The feedback register as a log: all blocks which were ever put into it, the initialisation
vector first. With a register of `m` blocks the block in use is the `m`-th from the end. -/
def tap (m : Nat) (X : List (List UInt8)) : List UInt8 := X.getD (X.length - m) []

/-- Processing of blocks: `h` is what is appended to the log, `g` is what is returned. -/
def feed (m : Nat) (g h : List UInt8 → List UInt8 → List UInt8) :
    List (List UInt8) → List (List UInt8) → List (List UInt8) × List (List UInt8)
  | X, [] => (X, [])
  | X, b :: bl => ((feed m g h (X ++ [h (tap m X) b]) bl).1,
      g (tap m X) b :: (feed m g h (X ++ [h (tap m X) b]) bl).2)

/-- A call in CBC mode; `P` pads, `n` is the block size. -/
def cbcCall (E D P : List UInt8 → List UInt8) (n m : Nat) (X : List (List UInt8)) :
    CipherOp → List (List UInt8) × List UInt8
  | .encrypt d =>
    let r := feed m (fun t b => E (xor t b)) (fun t b => E (xor t b)) X (blocks n (P d))
    (r.1, r.2.flatten)
  | .decrypt d =>
    let r := feed m (fun t b => xor t (D b)) (fun _ b => b) X (blocks n d)
    (r.1, r.2.flatten)

/-- A call in CFB mode. The last short block is masked but not logged. -/
def cfbCall (E : List UInt8 → List UInt8) (n m : Nat) (X : List (List UInt8)) :
    CipherOp → List (List UInt8) × List UInt8
  | .encrypt d =>
    let r := feed m (fun t b => xor (E t) b) (fun t b => xor (E t) b) X (blocks n d)
    (r.1, r.2.flatten ++ xor (E (tap m r.1)) (rest n d))
  | .decrypt d =>
    let r := feed m (fun t b => xor (E t) b) (fun _ b => b) X (blocks n d)
    (r.1, r.2.flatten ++ xor (E (tap m r.1)) (rest n d))

/-- The data of a call. -/
def CipherOp.data : CipherOp → List UInt8
  | .encrypt d => d
  | .decrypt d => d

/-- A call in OFB mode, the same for both directions. The last short block is masked, the
keystream block used for it is not logged. -/
def ofbCall (E : List UInt8 → List UInt8) (n m : Nat) (X : List (List UInt8)) (op : CipherOp) :
    List (List UInt8) × List UInt8 :=
  let r := feed m (fun t b => xor (E t) b) (fun t _ => E t) X (blocks n op.data)
  (r.1, r.2.flatten ++ xor (E (tap m r.1)) (rest n op.data))

/-- The counter block number `i` which the package uses: the initialisation vector, zeros, and one
byte which counts (see C13 for the difference from the standard). -/
def byteCounter (n : Nat) (iv : List UInt8) (i : Nat) : List UInt8 :=
  iv ++ List.replicate (n / 2 - 1) 0 ++ [UInt8.ofNat i]

/-- A call in CTR mode, the same for both directions, on an object which has used `N` counter
blocks. A short last block uses up a whole counter block. -/
def ctrCall (E : List UInt8 → List UInt8) (n : Nat) (iv : List UInt8) (N : Nat) (op : CipherOp) :
    Nat × List UInt8 :=
  (N + blockCount n op.data,
    xor op.data ((List.range (blockCount n op.data)).map fun j => E (byteCounter n iv (N + j))).flatten)

/-- A call in ECB mode: nothing is remembered. -/
def ecbCall (E D P : List UInt8 → List UInt8) (n : Nat) (u : Unit) : CipherOp → Unit × List UInt8
  | .encrypt d => (u, ((blocks n (P d)).map E).flatten)
  | .decrypt d => (u, ((blocks n d).map D).flatten)

/-- The state after a sequence of calls and the results of the calls. -/
def opsRun {σ : Type} (call : σ → CipherOp → σ × List UInt8) : σ → List CipherOp → σ × List (List UInt8)
  | s, [] => (s, [])
  | s, op :: ops => ((opsRun call (call s op).1 ops).1, (call s op).2 :: (opsRun call (call s op).1 ops).2)

/-- `D` undoes `E` on blocks of `n` bytes, and the other way round. -/
def InverseOn (n : Nat) (E D : List UInt8 → List UInt8) : Prop :=
  ∀ b : List UInt8, b.length = n → D (E b) = b ∧ E (D b) = b

end Gost.Spec
