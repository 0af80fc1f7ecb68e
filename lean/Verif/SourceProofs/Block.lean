import Verif.SourceProofs.Kuz
import Verif.SourceProofs.Magma

/-! Objects of the two block ciphers. -/

namespace Gost.Src

/-- The class of a cipher object. -/
def className : CipherObj → String
  | .kuz _ => "GOST34122015Kuznechik"
  | .magma _ => "GOST34122015Magma"

/-- The round keys. -/
def CipherObj.keys : CipherObj → List Bytes
  | .kuz ks => ks
  | .magma ks => ks

/-- The number of round keys. -/
def CipherObj.rounds : CipherObj → Nat
  | .kuz _ => 10
  | .magma _ => 32

/-- The cell `self` is the object `c`: an instance of its class whose attribute `_cipher_iter_key` is
the list `kr`, and the elements of this list are byte objects with the round keys. -/
def CipherRep (c : CipherObj) (self kr : Nat) (h : Heap) : Prop :=
  ∃ attrs vs, h[self]? = some (.inst (className c) attrs) ∧
    findAttr "_cipher_iter_key" attrs = some (.ref kr) ∧ h[kr]? = some (.list vs) ∧
    BytesList vs h (CipherObj.keys c)

theorem CipherRep.ext {c : CipherObj} {self kr : Nat} {h h' : Heap} (r : CipherRep c self kr h) (x : Ext h h') :
    CipherRep c self kr h' := by
  obtain ⟨attrs, vs, h1, h2, h3, h4⟩ := r
  exact ⟨attrs, vs, x.get h1, h2, x.get h3, x.bytesList h4⟩

theorem kuz_new (L n : Nat) {h : Heap} {v : Val} {key : Bytes} (e : bytesOf v h = some key) :
    Agree (instantiate (ctx L (n + 4)) "GOST34122015Kuznechik" [v] h) (Kuz.init key)
      (fun ks x h' => x = .ref h.length ∧ Ext h h' ∧ ∃ kr, h.length < kr ∧ CipherRep (.kuz ks) h.length kr h')
      (Ext h) := by
  unfold instantiate
  py []
  have := Kuz.init_ok L n (get_last h (.inst "GOST34122015Kuznechik" [])) (bytesOf_mono e _)
  have hx : ∀ {h'}, Frame [h.length] (h ++ [Obj.inst "GOST34122015Kuznechik" []]) h' → Ext h h' := fun f =>
    Frame.ext (((Frame.refl [] h).add _).then f (by simp))
  generalize Kuz.init key = res at this
  cases res with
  | ok ks =>
    obtain ⟨_, _, e1, f, kr, hk, r, -⟩ := this
    py [e1]
    exact ⟨_, _, rfl, rfl, hx f, kr, by simp at hk; omega, r⟩
  | error x =>
    obtain ⟨_, e1, f⟩ := this
    py [e1]
    exact ⟨_, rfl, hx f⟩

theorem magma_new (L n : Nat) {h : Heap} {v : Val} {key : Bytes} (e : bytesOf v h = some key) :
    Agree (instantiate (ctx L (n + 3)) "GOST34122015Magma" [v] h) (Magma.init key)
      (fun ks x h' => x = .ref h.length ∧ Ext h h' ∧ ∃ kr, h.length < kr ∧ CipherRep (.magma ks) h.length kr h')
      (Ext h) := by
  unfold instantiate
  py []
  have := Magma.init_ok L n (get_last h (.inst "GOST34122015Magma" [])) (bytesOf_mono e _)
  have hx : ∀ {h'}, Frame [h.length] (h ++ [Obj.inst "GOST34122015Magma" []]) h' → Ext h h' := fun f =>
    Frame.ext (((Frame.refl [] h).add _).then f (by simp))
  generalize Magma.init key = res at this
  cases res with
  | ok ks =>
    obtain ⟨_, _, e1, f, kr, hk, r, -⟩ := this
    py [e1]
    exact ⟨_, _, rfl, rfl, hx f, kr, by simp at hk; omega, r⟩
  | error x =>
    obtain ⟨_, e1, f⟩ := this
    py [e1]
    exact ⟨_, rfl, hx f⟩

/-- A method of a cipher object. -/
theorem callMeth_cipher (L n : Nat) {c : CipherObj} {self kr : Nat} {h : Heap} (r : CipherRep c self kr h)
    (m : String) (args : List Val) :
    callMeth (ctx L n) (.ref self) m args h =
      match package.method (className c) m with
      | some (f, static) => call package L n f (if static then args else .ref self :: args) h
      | none => fail .attribute h := by
  obtain ⟨attrs, vs, h1, -⟩ := r
  rw [callMeth_ref, h1]
  rfl

theorem cipher_encrypt (L n : Nat) {c : CipherObj} {self kr : Nat} {h : Heap} (r : CipherRep c self kr h)
    {v : Val} {b : Bytes} (e : bytesOf v h = some b) :
    Returns (callMeth (ctx L (n + 5)) (.ref self) "encrypt" [v] h) h (c.encrypt b) := by
  rw [callMeth_cipher L _ r]
  cases c with
  | kuz ks =>
    py [className]
    exact Kuz.encrypt_ok L (n + 2) r e
  | magma ks =>
    py [className]
    exact Magma.encrypt_ok L n r e

theorem cipher_decrypt (L n : Nat) {c : CipherObj} {self kr : Nat} {h : Heap} (r : CipherRep c self kr h)
    {v : Val} {b : Bytes} (e : bytesOf v h = some b) :
    Returns (callMeth (ctx L (n + 5)) (.ref self) "decrypt" [v] h) h (c.decrypt b) := by
  rw [callMeth_cipher L _ r]
  cases c with
  | kuz ks =>
    py [className]
    exact Kuz.decrypt_ok L (n + 2) r e
  | magma ks =>
    py [className]
    exact Magma.decrypt_ok L n r e

theorem cipher_clear (L n : Nat) {c : CipherObj} {self kr : Nat} {h : Heap} (r : CipherRep c self kr h)
    (hk : (CipherObj.keys c).length = CipherObj.rounds c) :
    ∃ v h', callMeth (ctx L (n + 2)) (.ref self) "clear" [] h = ok v h' ∧ Frame [kr] h h' ∧
      CipherRep c.clear self kr h' := by
  rw [callMeth_cipher L _ r]
  cases c with
  | kuz ks =>
    py [className]
    obtain ⟨v, h', a, b, c, -⟩ := Kuz.clear_ok L n r hk
    exact ⟨v, h', a, b, c⟩
  | magma ks =>
    py [className]
    obtain ⟨v, h', a, b, c, -⟩ := Magma.clear_ok L n r hk
    exact ⟨v, h', a, b, c⟩

theorem cipher_block_size (L n : Nat) {c : CipherObj} {self kr : Nat} {h : Heap} (r : CipherRep c self kr h) :
    getAttr (ctx L (n + 1)) (.ref self) "block_size" h = ok (.int c.blockSize) h := by
  obtain ⟨attrs, vs, h1, -⟩ := r
  cases c with
  | kuz ks =>
    py [h1, className]
    exact Kuz.block_size_ok L n _ h
  | magma ks =>
    py [h1, className]
    exact Magma.block_size_ok L n _ h

theorem cipher_key_size (L n : Nat) {c : CipherObj} {self kr : Nat} {h : Heap} (r : CipherRep c self kr h) :
    getAttr (ctx L (n + 1)) (.ref self) "key_size" h = ok (.int 32) h := by
  obtain ⟨attrs, vs, h1, -⟩ := r
  cases c with
  | kuz ks =>
    py [h1, className]
    exact Kuz.key_size_ok L n _ h
  | magma ks =>
    py [h1, className]
    exact Magma.key_size_ok L n _ h

end Gost.Src
