import Verif.SourceProofs.Block
import Verif.Props.BlockCipher
import Verif.Props.Examples

/-! C96: the text of `gost_34_12_2015.py` computes the functions of the model, and the ciphers of the
standard. -/

namespace Gost.Src

/-- C96, constructors: `GOST34122015Kuznechik(key)` and `GOST34122015Magma(key)` as they are written,
for any byte object `key` of any length in any memory, give a new object with the round keys of the model
or raise the exception of the model; nothing that existed before is changed, the key included. -/
theorem C96_new (L n : Nat) (h : Heap) (v : Val) (key : Bytes) (e : bytesOf v h = some key) :
    Agree (instantiate (ctx L (n + 4)) "GOST34122015Kuznechik" [v] h) (Kuz.init key)
      (fun ks x h' => x = .ref h.length ∧ Ext h h' ∧ ∃ kr, h.length < kr ∧ CipherRep (.kuz ks) h.length kr h')
      (Ext h) ∧
    Agree (instantiate (ctx L (n + 4)) "GOST34122015Magma" [v] h) (Magma.init key)
      (fun ks x h' => x = .ref h.length ∧ Ext h h' ∧ ∃ kr, h.length < kr ∧ CipherRep (.magma ks) h.length kr h')
      (Ext h) :=
  ⟨kuz_new L n e, magma_new L (n + 1) e⟩

/-- C96, methods: on any cipher object `c`, with any round keys, and any byte object, `encrypt` and
`decrypt` as they are written return a new byte array with the bytes of the model, or raise its exception,
and change nothing; `block_size` and `key_size` are those of the model; `clear` changes the list of the round
keys only. -/
theorem C96_methods (L n : Nat) (h : Heap) (c : CipherObj) (self kr : Nat) (r : CipherRep c self kr h) :
    (∀ v b, bytesOf v h = some b →
      Returns (callMeth (ctx L (n + 5)) (.ref self) "encrypt" [v] h) h (c.encrypt b) ∧
      Returns (callMeth (ctx L (n + 5)) (.ref self) "decrypt" [v] h) h (c.decrypt b)) ∧
    getAttr (ctx L (n + 5)) (.ref self) "block_size" h = ok (.int c.blockSize) h ∧
    getAttr (ctx L (n + 5)) (.ref self) "key_size" h = ok (.int 32) h ∧
    ((CipherObj.keys c).length = CipherObj.rounds c →
      ∃ v h', callMeth (ctx L (n + 5)) (.ref self) "clear" [] h = ok v h' ∧ Frame [kr] h h' ∧
        CipherRep c.clear self kr h') :=
  ⟨fun _ _ e => ⟨cipher_encrypt L n r e, cipher_decrypt L n r e⟩, cipher_block_size L (n + 4) r,
    cipher_key_size L (n + 4) r, cipher_clear L (n + 3) r⟩

/-- `cls(key).encrypt(block)`. -/
def encryptOnce (C : Ctx) (cls : String) (key block : Val) (h : Heap) : Out Val :=
  andThen (instantiate C cls [key] h) fun c h => callMeth C c "encrypt" [block] h

/-- C96, standard: for all keys of 32 bytes and all blocks, `GOST34122015Kuznechik(key).encrypt(block)` and
`GOST34122015Magma(key).encrypt(block)` as they are written return the ciphertext blocks of GOST R 34.12-2015. -/
theorem C96_standard (L n : Nat) (h : Heap) (v w : Val) (key b : Bytes) (ek : bytesOf v h = some key)
    (eb : bytesOf w h = some b) (hk : key.length = 32) :
    (b.length = 16 →
      NewBytes (encryptOnce (ctx L (n + 5)) "GOST34122015Kuznechik" v w h) h (Spec.Kuz.encrypt key b)) ∧
    (b.length = 8 →
      NewBytes (encryptOnce (ctx L (n + 5)) "GOST34122015Magma" v w h) h (Spec.Magma.encrypt key b)) := by
  constructor
  · intro hb
    have h1 := kuz_new L (n + 1) ek
    have h2 := C03_kuznechik_standard key b hk hb
    generalize Kuz.init key = res at h1 h2
    cases res with
    | error x => cases h2
    | ok ks =>
      obtain ⟨_, _, e1, rfl, ⟨l, rfl⟩, kr, -, r⟩ := h1
      have h3 := cipher_encrypt L n r (bytesOf_mono eb l)
      rw [show (CipherObj.kuz ks).encrypt b = .ok (Spec.Kuz.encrypt key b) from h2] at h3
      obtain ⟨m, l', e2, hm, hb'⟩ := NewBytes.elim h3
      unfold encryptOnce
      rw [e1, andThen_ok, e2]
      exact .intro (((Ext.refl _).add _).add _) (by simp at hm; omega) hb'
  · intro hb
    have h1 := magma_new L (n + 2) ek
    have h2 := C04_magma_standard key b hk hb
    generalize Magma.init key = res at h1 h2
    cases res with
    | error x => cases h2
    | ok ks =>
      obtain ⟨_, _, e1, rfl, ⟨l, rfl⟩, kr, -, r⟩ := h1
      have h3 := cipher_encrypt L n r (bytesOf_mono eb l)
      rw [show (CipherObj.magma ks).encrypt b = .ok (Spec.Magma.encrypt key b) from h2] at h3
      obtain ⟨m, l', e2, hm, hb'⟩ := NewBytes.elim h3
      unfold encryptOnce
      rw [e1, andThen_ok, e2]
      exact .intro (((Ext.refl _).add _).add _) (by simp at hm; omega) hb'

/-! The Magma example of the standard, on the text of the package: the key is a byte string, the block a byte
array. -/

example : NewBytes (encryptOnce (ctx 0 (0 + 5)) "GOST34122015Magma"
      (.bytes [0xff, 0xee, 0xdd, 0xcc, 0xbb, 0xaa, 0x99, 0x88, 0x77, 0x66, 0x55, 0x44, 0x33, 0x22, 0x11, 0x00,
        0xf0, 0xf1, 0xf2, 0xf3, 0xf4, 0xf5, 0xf6, 0xf7, 0xf8, 0xf9, 0xfa, 0xfb, 0xfc, 0xfd, 0xfe, 0xff])
      (.ref 0) [.bytearray [0xfe, 0xdc, 0xba, 0x98, 0x76, 0x54, 0x32, 0x10]])
    [.bytearray [0xfe, 0xdc, 0xba, 0x98, 0x76, 0x54, 0x32, 0x10]]
    [0x4e, 0xe9, 0x01, 0xe5, 0xc2, 0xd8, 0xca, 0x3d] := by
  have := (C96_standard 0 0 [.bytearray [0xfe, 0xdc, 0xba, 0x98, 0x76, 0x54, 0x32, 0x10]]
    (.bytes [0xff, 0xee, 0xdd, 0xcc, 0xbb, 0xaa, 0x99, 0x88, 0x77, 0x66, 0x55, 0x44, 0x33, 0x22, 0x11, 0x00,
        0xf0, 0xf1, 0xf2, 0xf3, 0xf4, 0xf5, 0xf6, 0xf7, 0xf8, 0xf9, 0xfa, 0xfb, 0xfc, 0xfd, 0xfe, 0xff])
    (.ref 0) _ _ rfl rfl (by decide)).2 (by decide)
  rwa [show Spec.Magma.encrypt _ _ = [0x4e, 0xe9, 0x01, 0xe5, 0xc2, 0xd8, 0xca, 0x3d] by decide +kernel] at this

/-- A key of 31 bytes: the exception is the one of the model. -/
example : ∃ h', instantiate (ctx 0 (0 + 4)) "GOST34122015Magma" [.bytes (Ex.key.take 31)] [] = fail .index h' := by
  have := (C96_new 0 0 [] (.bytes (Ex.key.take 31)) _ rfl).2
  rw [show Magma.init (Ex.key.take 31) = .error .indexError by decide +kernel] at this
  obtain ⟨h', e, -⟩ := this
  exact ⟨h', e⟩

/-- An object which the hypothesis of `C96_methods` is about. -/
example : CipherRep (.magma [[1, 2, 3, 4]]) 0 1
    [.inst "GOST34122015Magma" [("_cipher_iter_key", .ref 1)], .list [.bytes [1, 2, 3, 4]]] :=
  ⟨_, _, rfl, rfl, rfl, rfl⟩

end Gost.Src
