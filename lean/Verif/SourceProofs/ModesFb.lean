import Verif.SourceProofs.ModesEcb

/-! `gost_34_13_2015.py`: the modes with feedback, CBC, CFB and OFB. -/

namespace Gost.Src

namespace ModesSrc

open Streebog (get_of_bytes)

variable {cls : String} {c : CipherObj} {me cr kr iv : Nat} {W : List Nat} {tl : List (String × Val)} {h : Heap}

/-- The classes with a feedback register. -/
def IsFb (cls : String) : Prop := cls = "GOST34132015cbc" ∨ cls = "GOST34132015cfb" ∨ cls = "GOST34132015ofb"

namespace IsFb

theorem mode (p : IsFb cls) : IsMode cls := by
  rcases p with p | p | p
  · exact Or.inr (Or.inl p)
  · exact Or.inr (Or.inr (Or.inl p))
  · exact Or.inr (Or.inr (Or.inr (Or.inl p)))

theorem init_vect (p : IsFb cls) : package.property cls "_init_vect" = none := by
  rcases p with rfl | rfl | rfl <;> py []

theorem get_gamma (p : IsFb cls) :
    package.method cls "_get_gamma" = some ("GOST34132015CipherFeedBack._get_gamma", false) := by
  rcases p with rfl | rfl | rfl <;> py []

theorem set_init_vect (p : IsFb cls) :
    package.method cls "_set_init_vect" = some ("GOST34132015CipherFeedBack._set_init_vect", false) := by
  rcases p with rfl | rfl | rfl <;> py []

theorem get_final_block (p : IsFb cls) :
    package.method cls "_get_final_block" = some ("GOST34132015CipherFeedBack._get_final_block", false) := by
  rcases p with rfl | rfl | rfl <;> py []

theorem final_cipher (p : IsFb cls) :
    package.method cls "_final_cipher" = some ("GOST34132015CipherFeedBack._final_cipher", false) := by
  rcases p with rfl | rfl | rfl <;> py []

end IsFb

/-- An object with the feedback register `iv`, which holds `b`. -/
structure FbAt (cls : String) (c : CipherObj) (b : Bytes) (me cr kr iv : Nat) (tl : List (String × Val)) (h : Heap) :
    Prop where
  fb : IsFb cls
  mode : ModeAt cls c me cr kr [iv] tl h
  vec : h[iv]? = some (.bytearray b)
  has : findAttr "_init_vect" tl = some (.ref iv)

variable {b : Bytes}

theorem FbAt.bytes (a : FbAt cls c b me cr kr iv tl h) : bytesOf (.ref iv) h = some b := by
  simp only [bytesOf, a.vec]

theorem FbAt.ext (a : FbAt cls c b me cr kr iv tl h) {h' : Heap} (x : Ext h h') : FbAt cls c b me cr kr iv tl h' :=
  ⟨a.fb, a.mode.ext x, x.get a.vec, a.has⟩

theorem FbAt.me_ne (a : FbAt cls c b me cr kr iv tl h) : iv ≠ me := by
  obtain ⟨l, o⟩ := a.mode.inst
  exact ne_of_get a.vec o (by simp)

/-- A change of the register. -/
theorem FbAt.frame (a : FbAt cls c b me cr kr iv tl h) {h' : Heap} (f : Frame [iv] h h') :
    ModeAt cls c me cr kr [iv] tl h' := by
  refine a.mode.frame f fun w hw => ?_
  simp only [List.mem_singleton] at hw
  subst hw
  exact ⟨a.me_ne, Or.inl ⟨by simp, b, a.vec⟩⟩

theorem gamma_ok (L n : Nat) (a : FbAt cls c b me cr kr iv tl h) :
    Returns (call package L (n + 6) "GOST34132015CipherFeedBack._get_gamma" [.ref me] h) h (getGamma c b) := by
  rw [call_succ Fn.GOST34132015CipherFeedBack._get_gamma]
  obtain ⟨o, l, g, g2⟩ := a.mode.get
  have hb := block_size_ok L (n + 3) a.mode.hasBs
  have f0 : getSlice (.ref iv) (some 0) (some (c.blockSize : Int)) h = _ := getSlice_ref a.bytes _ _
  unfold cut at f0
  simp only at f0
  have x := (Ext.refl h).add [.bytearray (pySlice b 0 c.blockSize)]
  have f1 := enc_ok L n (a.mode.ext x) (bytesOf_last (pySlice b 0 c.blockSize) h)
  unfold getGamma
  generalize c.encrypt (pySlice b 0 c.blockSize) = res at f1
  rcases f1.cases with ⟨y, w, l1, rfl, f1', hw, b1⟩ | ⟨y, l1, rfl, f1'⟩
  · py [GOST34132015CipherFeedBack.m__get_gamma, g, a.mode.mode.cipher_obj, a.mode.mode.block_size, a.fb.init_vect, a.has, hb,
      f0, g2, meth_enc, f1']
    exact .intro (x.add l1) (Nat.le_trans x.length hw) b1
  · py [GOST34132015CipherFeedBack.m__get_gamma, g, a.mode.mode.cipher_obj, a.mode.mode.block_size, a.fb.init_vect, a.has, hb,
      f0, g2, meth_enc, f1']
    exact ⟨_, by rw [List.append_assoc]⟩

theorem set_vect_ok (L n : Nat) (a : FbAt cls c b me cr kr iv tl h) {v : Val} {d : Bytes} (e : bytesOf v h = some d)
    (hv : v ≠ .ref iv) :
    ∃ h', call package L (n + 3) "GOST34132015CipherFeedBack._set_init_vect" [.ref me, v] h = ok .none h' ∧
      Frame [iv] h h' ∧ FbAt cls c (setInitVect c.blockSize b d) me cr kr iv tl h' := by
  rw [call_succ Fn.GOST34132015CipherFeedBack._set_init_vect]
  obtain ⟨o, l, g, -⟩ := a.mode.get
  have hb := block_size_ok L n a.mode.hasBs
  have f0 : getSlice (.ref iv) (some (c.blockSize : Int)) (some (b.length : Int)) h = _ := getSlice_ref a.bytes _ _
  unfold cut at f0
  simp only at f0
  have x := (Ext.refl h).add [.bytearray (pySlice b c.blockSize b.length)]
  have s1 := setSlice_bytes (x.get a.vec) (bytesOf_last (pySlice b c.blockSize b.length) h) 0
    ((b.length : Int) - c.blockSize)
  have hb1 := block_size_ok L n (a.mode.ext x).hasBs
  have f1 : Frame [iv] h ((h ++ [Obj.bytearray (pySlice b c.blockSize b.length)]).set iv
      (.bytearray (pySliceAssign b 0 ((b.length : Int) - c.blockSize) (pySlice b c.blockSize b.length)))) :=
    (x.frame [iv]).set (List.mem_singleton.mpr rfl) _
  have v1 := get_set_same (h := h ++ [Obj.bytearray (pySlice b c.blockSize b.length)]) (r := iv)
    (.bytearray (pySliceAssign b 0 ((b.length : Int) - c.blockSize) (pySlice b c.blockSize b.length))) (by rw [x.get a.vec]; rfl)
  have e1 : bytesOf v ((h ++ [Obj.bytearray (pySlice b c.blockSize b.length)]).set iv
      (.bytearray (pySliceAssign b 0 ((b.length : Int) - c.blockSize) (pySlice b c.blockSize b.length)))) = some d := by
    rw [bytesOf_set_ne _ hv]
    exact x.bytesOf e
  have g1 := f1.get g (by simpa using a.me_ne.symm)
  have hb2 := block_size_ok L n (a.frame f1).hasBs
  generalize hH : List.set _ _ (Obj.bytearray _) = H at *
  generalize hb' : pySliceAssign b 0 ((b.length : Int) - c.blockSize) (pySlice b c.blockSize b.length) = b' at *
  have bv : bytesOf (.ref iv) H = some b' := by simp only [bytesOf, v1]
  have s2 := setSlice_bytes v1 e1 ((b'.length : Int) - c.blockSize) b'.length
  have f2 : Frame [iv] h (H.set iv (.bytearray (pySliceAssign b' ((b'.length : Int) - c.blockSize) b'.length d))) :=
    f1.set (by simp) _
  have v2 := get_set_same (h := H) (r := iv) (.bytearray (pySliceAssign b' ((b'.length : Int) - c.blockSize) b'.length d))
    (by rw [v1]; rfl)
  have hm : setInitVect c.blockSize b d = pySliceAssign b' ((b'.length : Int) - c.blockSize) b'.length d := by
    simp only [setInitVect, hb']
  rw [hm]
  py [GOST34132015CipherFeedBack.m__set_init_vect, g, a.mode.mode.block_size, a.fb.init_vect, a.has, hb, hb1, a.bytes, f0, s1,
    g1, hb2, bv, s2]
  exact ⟨_, rfl, f2, a.fb, a.frame f2, v2, a.has⟩

theorem final_block_ok (L n : Nat) (a : FbAt cls c b me cr kr iv tl h) {v : Val} {d : Bytes} (e : bytesOf v h = some d) :
    NewVal (call package L (n + 4) "GOST34132015CipherFeedBack._get_final_block" [.ref me, v] h) h
      (getFinalBlock c.blockSize d) := by
  rw [call_succ Fn.GOST34132015CipherFeedBack._get_final_block]
  obtain ⟨o, l, g, -⟩ := a.mode.get
  have hb := block_size_ok L (n + 1) a.mode.hasBs
  have hn := num_block_ok L n a.mode e
  obtain ⟨w, l1, f, b1, hw⟩ := slice_new e (some ((c.blockSize * getNumBlock c.blockSize d : Nat) : Int)) none
  py [GOST34132015CipherFeedBack.m__get_final_block, g, a.mode.mode.block_size, a.mode.mode.num_block, hb, hn, arith_mul_nat, f]
  exact ⟨w, l1, rfl, b1, hw⟩

theorem final_cipher_ok (L n : Nat) (a : FbAt cls c b me cr kr iv tl h) {v : Val} {d : Bytes} (e : bytesOf v h = some d) :
    Returns (call package L (n + 7) "GOST34132015CipherFeedBack._final_cipher" [.ref me, v] h) h (finalCipher c b d) := by
  rw [call_succ Fn.GOST34132015CipherFeedBack._final_cipher]
  obtain ⟨o, l, g, -⟩ := a.mode.get
  have f1 := gamma_ok L n a
  unfold finalCipher
  generalize getGamma c b = res at f1
  rcases f1.cases with ⟨y, w, l1, rfl, f1', hw, b1⟩ | ⟨y, l1, rfl, f1'⟩
  · have x := (Ext.refl h).add l1
    obtain ⟨w2, l2, f2, b2, -⟩ := final_block_ok L (n + 2) (a.ext x) (x.bytesOf e)
    obtain ⟨w3, l3, f3, hw3, b3⟩ := (add_xor_ok L (n + 5) (bytesOf_mono b1 l2) b2).elim
    rw [ok_bind]
    py [GOST34132015CipherFeedBack.m__final_cipher, g, a.fb.get_gamma, a.fb.get_final_block, f1', f2, f3]
    exact .intro ((x.add l2).add l3) (Nat.le_trans (x.add l2).length hw3) b3
  · rw [error_bind]
    py [GOST34132015CipherFeedBack.m__final_cipher, g, a.fb.get_gamma, f1']
    exact ⟨_, rfl⟩

/-- The property `iv`. -/
theorem iv_ok (L n : Nat) (a : FbAt cls c b me cr kr iv tl h) :
    NewBytes (call package L (n + 3) "GOST34132015CipherFeedBack.iv" [.ref me] h) h (ivProp c.blockSize b) := by
  rw [call_succ Fn.GOST34132015CipherFeedBack.iv]
  obtain ⟨o, l, g, -⟩ := a.mode.get
  have hb := block_size_ok L n a.mode.hasBs
  have f0 : getSlice (.ref iv) (some ((b.length : Int) - c.blockSize)) none h = _ := getSlice_ref a.bytes _ _
  unfold cut at f0
  simp only at f0
  py [GOST34132015CipherFeedBack.m_iv, g, a.mode.mode.block_size, a.fb.init_vect, a.has, hb, a.bytes, f0]
  exact .last (Ext.refl _) _

theorem fb_enc_ok (L n : Nat) (me : Nat) {v : Val} {d : Bytes} (e : bytesOf v h = some d) :
    call package L (n + 2) "GOST34132015CipherFeedBack.encrypt" [.ref me, v] h = ok v h := by
  rw [call_succ Fn.GOST34132015CipherFeedBack.encrypt]
  have f0 := check_enc_ok L n me e
  py [GOST34132015CipherFeedBack.m_encrypt, f0]

theorem fb_dec_ok (L n : Nat) (me : Nat) {v : Val} {d : Bytes} (e : bytesOf v h = some d) :
    call package L (n + 2) "GOST34132015CipherFeedBack.decrypt" [.ref me, v] h = ok v h := by
  rw [call_succ Fn.GOST34132015CipherFeedBack.decrypt]
  have f0 := check_dec_ok L n me e
  py [GOST34132015CipherFeedBack.m_decrypt, f0]

theorem FbAt.clear (a : FbAt cls c b me cr kr iv tl h) {h' : Heap} (f : Frame [kr] h h')
    (m : ModeAt cls c.clear me cr kr [iv] tl h') : FbAt cls c.clear b me cr kr iv tl h' := by
  obtain ⟨_, vs, -, -, h1, -⟩ := a.mode.rep
  exact ⟨a.fb, m, f.get a.vec (by simpa using ne_of_get a.vec h1 (by simp)), a.has⟩

theorem fb_enc_bad (L n : Nat) (a : FbAt cls c b me cr kr iv tl h) {v : Val} (e : bytesOf v h = none) :
    ∃ h', call package L (n + 5) "GOST34132015CipherFeedBack.encrypt" [.ref me, v] h =
        fail (.raised "GOSTCipherError" "GOSTCipherError: invalid plaintext data") h' ∧ Frame [kr] h h' ∧
      FbAt cls c.clear b me cr kr iv tl h' := by
  rw [call_succ Fn.GOST34132015CipherFeedBack.encrypt]
  obtain ⟨h', f, k, a'⟩ := check_enc_bad L n a.mode (by simpa using get_lt a.vec) e
  py [GOST34132015CipherFeedBack.m_encrypt, f]
  exact ⟨h', rfl, k, a.clear k a'⟩

theorem fb_dec_bad (L n : Nat) (a : FbAt cls c b me cr kr iv tl h) {v : Val} (e : bytesOf v h = none) :
    ∃ h', call package L (n + 5) "GOST34132015CipherFeedBack.decrypt" [.ref me, v] h =
        fail (.raised "GOSTCipherError" "GOSTCipherError: invalid ciphertext data") h' ∧ Frame [kr] h h' ∧
      FbAt cls c.clear b me cr kr iv tl h' := by
  rw [call_succ Fn.GOST34132015CipherFeedBack.decrypt]
  obtain ⟨h', f, k, a'⟩ := check_dec_bad L n a.mode (by simpa using get_lt a.vec) e
  py [GOST34132015CipherFeedBack.m_decrypt, f]
  exact ⟨h', rfl, k, a.clear k a'⟩

end ModesSrc

end Gost.Src
