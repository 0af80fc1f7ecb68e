import Verif.Model.Modes
import Verif.Model.Pbkdf

/-! Objects which refer to byte buffers of the caller.

The other model files treat byte strings as values. Python's `bytearray` objects are mutable and
shared by reference. Here the one attribute of an object whose buffer can be reached by the caller,
through an argument of the constructor or through an attribute of the object, lives in a heap of
cells; the rest of the object stays a value. The methods of the package never keep a
reference to their arguments (the results of slicing, of `+` and of `bytearray(x)` are new
objects), so method arguments stay values. -/

namespace Gost.Alias

/-- Contents of the mutable `bytearray` objects. -/
abbrev Heap := List Bytes

def read (h : Heap) (r : Nat) : Bytes := h.getD r []

/-- An argument: an immutable `bytes` object, a reference to a `bytearray`, or anything else. -/
inductive Arg where
  | bytes (b : Bytes)
  | bytearray (r : Nat)
  | other

def Arg.val (h : Heap) : Arg → PyVal
  | .bytes b => .bytes b
  | .bytearray r => .bytearray (read h r)
  | .other => .other

/-- How the buffer can be read from outside: not at all, as a new object, as the object itself. -/
inductive Access (σ : Type) where
  | hidden
  | copied (f : σ → Bytes)
  | exposed

/-- A class of objects with states `σ`, calls `ι` and results `ο`. `rebinds` are the calls after
which the attribute is a new buffer; all other calls change the buffer in place or not at all. -/
structure Cls (σ ι ο : Type) where
  buf : σ → Bytes
  setBuf : σ → Bytes → σ
  call : σ → ι → σ × ο
  rebinds : ι → Bool
  access : Access σ

/-- The heap, the cells to which the caller has a reference, the cell of the object's buffer, and
the object (whose own copy of the buffer is not used). -/
structure World (σ : Type) where
  heap : Heap
  held : List Nat
  cell : Nat
  obj : σ

/-- What a program does: change one of its buffers, call a method, read the attribute. -/
inductive Ev (ι : Type) where
  | write (r : Nat) (b : Bytes)
  | call (x : ι)
  | attr

/-- What it observes. -/
inductive Obs (ο : Type) where
  | nothing
  | result (o : ο)
  | bytes (b : Bytes)

/-- The object with the current contents of its buffer. -/
def World.state {σ ι ο : Type} (C : Cls σ ι ο) (w : World σ) : σ := C.setBuf w.obj (read w.heap w.cell)

/-- One step. A write to a cell to which the caller has no reference does nothing. -/
def step {σ ι ο : Type} (C : Cls σ ι ο) (w : World σ) : Ev ι → World σ × Obs ο
  | .write r b =>
    ({ w with heap := if r ∈ w.held then w.heap.set r b else w.heap }, .nothing)
  | .call x =>
    let r := C.call (w.state C) x
    if C.rebinds x then
      ({ w with heap := w.heap ++ [C.buf r.1], cell := w.heap.length, obj := r.1 }, .result r.2)
    else ({ w with heap := w.heap.set w.cell (C.buf r.1), obj := r.1 }, .result r.2)
  | .attr =>
    match C.access with
    | .hidden => (w, .nothing)
    | .copied f =>
      ({ w with heap := w.heap ++ [f (w.state C)], held := w.heap.length :: w.held },
        .bytes (f (w.state C)))
    | .exposed => ({ w with held := w.cell :: w.held }, .bytes (read w.heap w.cell))

def run {σ ι ο : Type} (C : Cls σ ι ο) (w : World σ) : List (Ev ι) → List (Obs ο)
  | [] => []
  | e :: es => (step C w e).2 :: run C (step C w e).1 es

def after {σ ι ο : Type} (C : Cls σ ι ο) (w : World σ) : List (Ev ι) → World σ
  | [] => w
  | e :: es => after C (step C w e).1 es

/-- A new object with a buffer of its own; the caller holds everything that was there before. -/
def fresh {σ : Type} (h : Heap) (b : Bytes) (s : σ) : World σ := ⟨h ++ [b], List.range h.length, h.length, s⟩

/-! ### HMAC -/

/-- Calls on an HMAC object. -/
inductive HmacOp where
  | update (v : PyVal)
  | digest
  | hexdigest
  | reset
  | clear

inductive HmacRes where
  | unit (r : Res Unit)
  | bytes (b : Bytes)
  | text (s : List Char)

def hmacCall (s : Hmac) : HmacOp → Hmac × HmacRes
  | .update v => ((s.update v).1, .unit (s.update v).2)
  | .digest => (s, .bytes s.digest)
  | .hexdigest => (s, .text s.hexdigest)
  | .reset => (s.reset, .unit (.ok ()))
  | .clear => (s.clear, .unit (.ok ()))

/-- The attribute `_key` (r_50_1_113_2016.py 119-125) has no accessor. `clear` binds a new object
(r_50_1_113_2016.py 212). -/
def hmacCls : Cls Hmac HmacOp HmacRes where
  buf := Hmac.key
  setBuf s b := { s with key := b }
  call := hmacCall
  rebinds
    | .clear => true
    | _ => false
  access := .hidden

/-- `new` of HMAC, r_50_1_113_2016.py 116-135: a `bytearray` of 64 bytes becomes the attribute
itself (line 125), any other key is copied (lines 120-123) or immutable. -/
def hmacNew (h : Heap) (name : String) (key : Arg) : Res (World Hmac) :=
  match Hmac.new name (key.val h) with
  | .error e => .error e
  | .ok s =>
    match key with
    | .bytearray r =>
      if (read h r).length = 64 then .ok ⟨h, List.range h.length, r, s⟩ else .ok (fresh h s.key s)
    | _ => .ok (fresh h s.key s)

/-! ### The cipher modes -/

/-- Calls on a cipher object. -/
inductive CipherOp where
  | encrypt (v : PyVal)
  | decrypt (v : PyVal)
  | clear

def cipherCall {σ : Type} (enc dec : σ → PyVal → σ × Res Bytes) (clr : σ → σ) (s : σ) :
    CipherOp → σ × Option (Res Bytes)
  | .encrypt v => ((enc s v).1, some (enc s v).2)
  | .decrypt v => ((dec s v).1, some (dec s v).2)
  | .clear => (clr s, none)

/-- CBC: `_init_vect` is changed in place by `_set_init_vect` (gost_34_13_2015.py 468-473); the
attribute `iv` is a slice, a new object (gost_34_13_2015.py 523). -/
def cbcCls : Cls Cbc CipherOp (Option (Res Bytes)) where
  buf := Cbc.iv
  setBuf s b := { s with iv := b }
  call := cipherCall Cbc.encrypt Cbc.decrypt Cbc.clear
  rebinds _ := false
  access := .copied fun s => ivProp s.obj.blockSize s.iv

/-- CFB, as CBC. -/
def cfbCls : Cls Fb CipherOp (Option (Res Bytes)) where
  buf := Fb.iv
  setBuf s b := { s with iv := b }
  call := cipherCall Cfb.encrypt Cfb.decrypt Fb.clear
  rebinds _ := false
  access := .copied fun s => ivProp s.obj.blockSize s.iv

/-- OFB, as CBC. -/
def ofbCls : Cls Fb CipherOp (Option (Res Bytes)) where
  buf := Fb.iv
  setBuf s b := { s with iv := b }
  call := cipherCall Ofb.encrypt Ofb.decrypt Fb.clear
  rebinds _ := false
  access := .copied fun s => ivProp s.obj.blockSize s.iv

/-- CTR: `_inc_ctr` changes the counter in place and returns the same object
(gost_34_13_2015.py 841-848, 874, 878); the attribute `counter` returns the object itself
(gost_34_13_2015.py 853). -/
def ctrCls : Cls Ctr CipherOp (Option (Res Bytes)) where
  buf := Ctr.counter
  setBuf s b := { s with counter := b }
  call := cipherCall Ctr.encrypt Ctr.decrypt Ctr.clear
  rebinds _ := false
  access := .exposed

/-- The constructors copy the initialization vector: `bytearray(self._init_vect)`,
gost_34_13_2015.py 463; the counter is the result of a `+`, gost_34_13_2015.py 838-839. The key is
only sliced (gost_34_12_2015.py 428-434 and 621-638). -/
def cbcNew (h : Heap) (alg : String) (key iv : Arg) (pad : Int) : Res (World Cbc) :=
  match Cbc.init alg (key.val h) (iv.val h) pad with
  | .error e => .error e
  | .ok s => .ok (fresh h s.iv s)

/-- As `cbcNew`, for CFB and OFB. -/
def fbNew (h : Heap) (alg : String) (key iv : Arg) : Res (World Fb) :=
  match Fb.init alg (key.val h) (iv.val h) with
  | .error e => .error e
  | .ok s => .ok (fresh h s.iv s)

/-- As `cbcNew`, for CTR. -/
def ctrNew (h : Heap) (alg : String) (key iv : Arg) : Res (World Ctr) :=
  match Ctr.init alg (key.val h) (iv.val h) with
  | .error e => .error e
  | .ok s => .ok (fresh h s.counter s)

/-! ### PBKDF -/

/-- Calls on a PBKDF object. -/
inductive PbkdfOp where
  | derive (n : Int)
  | hexderive (n : Int)
  | clear

inductive PbkdfRes where
  | unit
  | bytes (r : Res Bytes)
  | text (r : Res (List Char))

def pbkdfCall (s : Pbkdf) : PbkdfOp → Pbkdf × PbkdfRes
  | .derive n => ((s.derive n).1, .bytes (s.derive n).2)
  | .hexderive n => ((s.hexderive n).1, .text (s.hexderive n).2)
  | .clear => (s.clear, .unit)

/-- The attribute `salt` returns the object itself (r_50_1_111_2016.py 173). -/
def pbkdfCls : Cls Pbkdf PbkdfOp PbkdfRes where
  buf := Pbkdf.salt
  setBuf s b := { s with salt := b }
  call := pbkdfCall
  rebinds _ := false
  access := .exposed

/-- The constructor copies password and salt, r_50_1_111_2016.py 77 and 85. -/
def pbkdfNew (h : Heap) (rand : Bytes) (password : Arg) (salt : Option Arg) (c : Int) :
    Res (World Pbkdf) :=
  match Pbkdf.new rand (password.val h) (salt.map (Arg.val h)) c with
  | .error e => .error e
  | .ok s => .ok (fresh h s.salt s)

end Gost.Alias
