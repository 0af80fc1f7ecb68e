import Verif.SourceProofs.ModesCbc

/-! `gost_34_13_2015.py`: the modes CFB and OFB. -/

namespace Gost.Src

namespace ModesSrc

variable {cls : String} {c : CipherObj} {me cr kr iv : Nat} {tl : List (String × Val)} {h : Heap}

/-- The cell `me` is an object of the class `cls` with the register `iv`. -/
def RegAt (cls : String) (me cr kr iv : Nat) (s : Fb) (h : Heap) : Prop :=
  FbAt cls s.obj s.iv me cr kr iv [("_init_vect", .ref iv)] h

/-- The statements after the loop. -/
def fbTail : List Stmt :=
  [.if_ (.cmp .ne (.bin .mod (.builtin "len" [.name "data"]) (.attr (.name "self") "block_size")) (.int 0))
    [.assign (.name "result") (.bin .add (.name "result") (.meth (.name "self") "_final_cipher" [.name "data"]))] [],
   .ret (.name "result")]

theorem fb_tail (L n : Nat) {s s' : Fb} {v : Val} {d y : Bytes} {env : Env} {h' : Heap}
    (q : LoopAt (fun s' h => RegAt cls me cr kr iv s' h ∧ s'.obj = s.obj) [iv, kr] h me v d s' y env h') :
    Method (atEnd (execs (ctx L (n + 7)) fbTail env h')) h [iv, kr] (RegAt cls me cr kr iv) (Fb.tail d (s', .ok y)) := by
  obtain ⟨⟨a, ho⟩, e1, e2, b, k, w, e3, hw, b2⟩ := q
  obtain ⟨o, l, g, -⟩ := a.mode.get
  have hbs := block_size_ok L (n + 5) a.mode.hasBs
  have hm := arith_mod_nat (m := d.length) a.mode.hasBs.pos
  unfold Fb.tail atEnd fbTail
  simp only
  by_cases hd : d.length % s'.obj.blockSize = 0
  · have hd' : (((d.length % s'.obj.blockSize : Nat) : Int) = 0) = True := by simp only [eq_iff_iff, iff_true]; omega
    rw [if_neg (not_not_intro hd)]
    py [e1, e2, e3, b, g, a.mode.mode.block_size, hbs, hm, hd', decide_true, Bool.not_true]
    exact .returns rfl k hw b2 a
  · have hd' : (((d.length % s'.obj.blockSize : Nat) : Int) = 0) = False := by simp only [eq_iff_iff, iff_false]; omega
    rw [if_pos hd]
    have f1 := final_cipher_ok L n a b
    generalize finalCipher s'.obj s'.iv d = res at f1
    rcases f1.cases with ⟨z, w1, l1, rfl, f1', hw1, b1⟩ | ⟨z, l1, rfl, f1'⟩
    · have x := (Ext.refl h').add l1
      py [e1, e2, e3, b, g, a.mode.mode.block_size, a.fb.final_cipher, hbs, hm, hd', decide_false, Bool.not_false, f1', x.bytesOf b2, b1]
      exact .returns rfl (k.trans ((x.add _).frame _)) (Nat.le_trans k.1 x.length) (bytesOf_last _ _) (a.ext (x.add _))
    · have x := (Ext.refl h').add l1
      py [e1, e2, e3, b, g, a.mode.mode.block_size, a.fb.final_cipher, hbs, hm, hd', decide_false, Bool.not_false, f1']
      exact .fails rfl (k.trans (x.frame _)) (a.ext x)

theorem Known.ext {v : Val} (k : Known v h) {h' : Heap} (x : Ext h h') : Src.bytesOf v h' = Src.bytesOf v h :=
  k.frame (x.frame []) (by simp [Apart])

theorem cfb_encrypt (L n : Nat) {s : Fb} (a : RegAt "GOST34132015cfb" me cr kr iv s h) {v : Val} (hk : Known v h)
    (hv : v ≠ .ref iv) :
    Method (call package L (n + 8) "GOST34132015cfb.encrypt" [.ref me, v] h) h [iv, kr]
      (RegAt "GOST34132015cfb" me cr kr iv) (Cfb.encrypt s (pyVal v h)) := by
  rw [call_succ Fn.GOST34132015cfb.encrypt]
  unfold Cfb.encrypt
  rw [pyVal_data]
  have x := ((Ext.refl h).add [.bytearray []]).add [.bytearray []]
  cases e : bytesOf v h with
  | none =>
    obtain ⟨h', f, k, a'⟩ := fb_enc_bad L (n + 2) (a.ext x) ((hk.ext x).trans e)
    py [GOST34132015cfb.m_encrypt, f]
    exact .fails rfl ((x.frame _).trans (frame_kr k)) a'
  | some d =>
    simp only
    have f := fb_enc_ok L (n + 5) me (x.bytesOf e)
    have a1 := a.ext x
    have b := x.bytesOf e
    have hb : bytesOf (.ref h.length) (h ++ [.bytearray []] ++ [.bytearray []]) = some [] :=
      bytesOf_mono (bytesOf_last _ _) _
    have f1 := num_block_ok L (n + 4) a1.mode b
    obtain ⟨o, l1, g, -⟩ := a1.mode.get
    py [GOST34132015cfb.m_encrypt, f, g, f1]
    rw [pyRange_up]
    generalize hl : forLoop _ _ _ _ _ = lo
    have := for_blocks hl (At := fun s' h => RegAt "GOST34132015cfb" me cr kr iv s' h ∧ s'.obj = s.obj) (h0 := h)
      (bs := s.obj.blockSize) (me := me) Cfb.encStep (a1.apart b hv)
      ⟨⟨a1, rfl⟩, by py [], by py [], b, x.frame _, h.length, by py [], Nat.le_refl _, hb⟩
      (by
        rintro i s' acc env h1 ⟨⟨q, ho⟩, e1, e2, b1, k, w1, e3, hw1, b2⟩
        rw [← ho]
        unfold Cfb.encStep
        simp only
        obtain ⟨o, l2, g, -⟩ := q.mode.get
        have f6 := gamma_ok L (n + 1) q
        generalize getGamma s'.obj s'.iv = res at f6
        rcases f6.cases with ⟨y, w6, l6, rfl, f6', hw6, b6⟩ | ⟨y, l6, rfl, f6'⟩
        · have x6 := (Ext.refl h1).add l6
          obtain ⟨w2, l3, f2, b3, -⟩ := get_block_ok L (n + 4) (q.mode.ext x6) (x6.bytesOf b1) i
          have x3 := x6.add l3
          obtain ⟨w5, l5, f5, hw5, b5⟩ := (add_xor_ok L (n + 6) (bytesOf_mono b6 l3) b3).elim
          have x5 := x3.add l5
          have x8 := x5.add [.bytearray (acc ++ addXor y (getBlock s'.obj.blockSize d i))]
          have hbs := block_size_ok L (n + 5) (q.mode.ext x8).hasBs
          have f0 : getSlice (.ref w5) (some 0) (some (s'.obj.blockSize : Int)) _ = _ :=
            getSlice_ref (bytesOf_mono b5 [.bytearray (acc ++ addXor y (getBlock s'.obj.blockSize d i))]) _ _
          unfold cut at f0
          simp only at f0
          have x9 := x8.add [.bytearray (pySlice (addXor y (getBlock s'.obj.blockSize d i)) 0 s'.obj.blockSize)]
          obtain ⟨h8, f8, k8, a8⟩ := set_vect_ok L (n + 4) (q.ext x9)
            (bytesOf_last (pySlice (addXor y (getBlock s'.obj.blockSize d i)) 0 s'.obj.blockSize) _) (by
            have := get_lt (x8.get q.vec)
            simp only [ne_eq, Val.ref.injEq]
            omega)
          rw [ok_bind, pure_ok]
          py [e1, e2, e3, g, f0, hbs, f2, f5, f6', b5, bytesOf_mono b2, f8]
          exact ⟨_, h8, _, rfl, (x9.frame _).trans (frame_iv k8), ⟨a8, rfl⟩, by py [e1], by py [e2], by py [], x5.length,
            k8.bytesOf (bytesOf_mono (bytesOf_last _ _) _) (by
              rintro r hr hm
              simp only [Val.ref.injEq, List.mem_singleton] at hr hm
              have := get_lt (x5.get q.vec)
              omega)⟩
        · rw [error_bind]
          py [e1, e2, e3, g, f6']
          exact ⟨_, rfl, ((Ext.refl h1).add l6).frame _, q.ext ((Ext.refl h1).add l6), rfl⟩)
    generalize blockLoop _ _ _ _ _ _ = r at this
    obtain ⟨s', r⟩ := r
    cases r with
    | error e =>
      obtain ⟨h', rfl, k, a'⟩ := this
      py []
      exact .fails rfl k a'.1
    | ok y =>
      obtain ⟨env, h', rfl, q⟩ := this
      exact fb_tail L n q

theorem cfb_decrypt (L n : Nat) {s : Fb} (a : RegAt "GOST34132015cfb" me cr kr iv s h) {v : Val} (hk : Known v h)
    (hv : v ≠ .ref iv) :
    Method (call package L (n + 8) "GOST34132015cfb.decrypt" [.ref me, v] h) h [iv, kr]
      (RegAt "GOST34132015cfb" me cr kr iv) (Cfb.decrypt s (pyVal v h)) := by
  rw [call_succ Fn.GOST34132015cfb.decrypt]
  unfold Cfb.decrypt
  rw [pyVal_data]
  have x := ((Ext.refl h).add [.bytearray []]).add [.bytearray []]
  cases e : bytesOf v h with
  | none =>
    obtain ⟨h', f, k, a'⟩ := fb_dec_bad L (n + 2) (a.ext x) ((hk.ext x).trans e)
    py [GOST34132015cfb.m_decrypt, f]
    exact .fails rfl ((x.frame _).trans (frame_kr k)) a'
  | some d =>
    simp only
    have f := fb_dec_ok L (n + 5) me (x.bytesOf e)
    have a1 := a.ext x
    have b := x.bytesOf e
    have hb : bytesOf (.ref h.length) (h ++ [.bytearray []] ++ [.bytearray []]) = some [] :=
      bytesOf_mono (bytesOf_last _ _) _
    have f1 := num_block_ok L (n + 4) a1.mode b
    obtain ⟨o, l1, g, -⟩ := a1.mode.get
    py [GOST34132015cfb.m_decrypt, f, g, f1]
    rw [pyRange_up]
    generalize hl : forLoop _ _ _ _ _ = lo
    have := for_blocks hl (At := fun s' h => RegAt "GOST34132015cfb" me cr kr iv s' h ∧ s'.obj = s.obj) (h0 := h)
      (bs := s.obj.blockSize) (me := me) Cfb.decStep (a1.apart b hv)
      ⟨⟨a1, rfl⟩, by py [], by py [], b, x.frame _, h.length, by py [], Nat.le_refl _, hb⟩
      (by
        rintro i s' acc env h1 ⟨⟨q, ho⟩, e1, e2, b1, k, w1, e3, hw1, b2⟩
        rw [← ho]
        unfold Cfb.decStep
        simp only
        obtain ⟨o, l2, g, -⟩ := q.mode.get
        have f6 := gamma_ok L (n + 1) q
        generalize getGamma s'.obj s'.iv = res at f6
        rcases f6.cases with ⟨y, w6, l6, rfl, f6', hw6, b6⟩ | ⟨y, l6, rfl, f6'⟩
        · have x6 := (Ext.refl h1).add l6
          obtain ⟨w2, l3, f2, b3, hw2⟩ := get_block_ok L (n + 4) (q.mode.ext x6) (x6.bytesOf b1) i
          have x3 := x6.add l3
          obtain ⟨w5, l5, f5, hw5, b5⟩ := (add_xor_ok L (n + 6) (bytesOf_mono b6 l3) b3).elim
          have x5 := x3.add l5
          have x8 := x5.add [.bytearray (acc ++ addXor y (getBlock s'.obj.blockSize d i))]
          obtain ⟨h8, f8, k8, a8⟩ := set_vect_ok L (n + 4) (q.ext x8)
            (bytesOf_mono (bytesOf_mono b3 l5) [.bytearray (acc ++ addXor y (getBlock s'.obj.blockSize d i))]) (by
            rintro rfl
            have := get_lt (x6.get q.vec)
            have := hw2 _ rfl
            omega)
          rw [ok_bind, pure_ok]
          py [e1, e2, e3, g, f2, f5, f6', b5, bytesOf_mono b2, f8]
          exact ⟨_, h8, _, rfl, (x8.frame _).trans (frame_iv k8), ⟨a8, rfl⟩, by py [e1], by py [e2], by py [], x5.length,
            k8.bytesOf (bytesOf_last _ _) (by
              rintro r hr hm
              simp only [Val.ref.injEq, List.mem_singleton] at hr hm
              have := get_lt (x5.get q.vec)
              omega)⟩
        · rw [error_bind]
          py [e1, e2, e3, g, f6']
          exact ⟨_, rfl, ((Ext.refl h1).add l6).frame _, q.ext ((Ext.refl h1).add l6), rfl⟩)
    generalize blockLoop _ _ _ _ _ _ = r at this
    obtain ⟨s', r⟩ := r
    cases r with
    | error e =>
      obtain ⟨h', rfl, k, a'⟩ := this
      py []
      exact .fails rfl k a'.1
    | ok y =>
      obtain ⟨env, h', rfl, q⟩ := this
      exact fb_tail L n q

theorem ofb_encrypt (L n : Nat) {s : Fb} (a : RegAt "GOST34132015ofb" me cr kr iv s h) {v : Val} (hk : Known v h)
    (hv : v ≠ .ref iv) :
    Method (call package L (n + 8) "GOST34132015ofb.encrypt" [.ref me, v] h) h [iv, kr]
      (RegAt "GOST34132015ofb" me cr kr iv) (Ofb.encrypt s (pyVal v h)) := by
  rw [call_succ Fn.GOST34132015ofb.encrypt]
  unfold Ofb.encrypt
  rw [pyVal_data]
  have x := ((Ext.refl h).add [.bytearray []]).add [.bytearray []]
  cases e : bytesOf v h with
  | none =>
    obtain ⟨h', f, k, a'⟩ := fb_enc_bad L (n + 2) (a.ext x) ((hk.ext x).trans e)
    py [GOST34132015ofb.m_encrypt, f]
    exact .fails rfl ((x.frame _).trans (frame_kr k)) a'
  | some d =>
    simp only
    have f := fb_enc_ok L (n + 5) me (x.bytesOf e)
    have a1 := a.ext x
    have b := x.bytesOf e
    have hb : bytesOf (.ref h.length) (h ++ [.bytearray []] ++ [.bytearray []]) = some [] :=
      bytesOf_mono (bytesOf_last _ _) _
    have f1 := num_block_ok L (n + 4) a1.mode b
    obtain ⟨o, l1, g, -⟩ := a1.mode.get
    py [GOST34132015ofb.m_encrypt, f, g, f1]
    rw [pyRange_up]
    generalize hl : forLoop _ _ _ _ _ = lo
    have := for_blocks hl (At := fun s' h => RegAt "GOST34132015ofb" me cr kr iv s' h ∧ s'.obj = s.obj) (h0 := h)
      (bs := s.obj.blockSize) (me := me) Ofb.step (a1.apart b hv)
      ⟨⟨a1, rfl⟩, by py [], by py [], b, x.frame _, h.length, by py [], Nat.le_refl _, hb⟩
      (by
        rintro i s' acc env h1 ⟨⟨q, ho⟩, e1, e2, b1, k, w1, e3, hw1, b2⟩
        rw [← ho]
        unfold Ofb.step
        simp only
        obtain ⟨o, l2, g, -⟩ := q.mode.get
        have f6 := gamma_ok L (n + 1) q
        generalize getGamma s'.obj s'.iv = res at f6
        rcases f6.cases with ⟨y, w6, l6, rfl, f6', hw6, b6⟩ | ⟨y, l6, rfl, f6'⟩
        · have x6 := (Ext.refl h1).add l6
          obtain ⟨w2, l3, f2, b3, -⟩ := get_block_ok L (n + 4) (q.mode.ext x6) (x6.bytesOf b1) i
          have x3 := x6.add l3
          obtain ⟨w5, l5, f5, hw5, b5⟩ := (add_xor_ok L (n + 6) (bytesOf_mono b6 l3) b3).elim
          have x5 := x3.add l5
          have x8 := x5.add [.bytearray (acc ++ addXor y (getBlock s'.obj.blockSize d i))]
          have hbs := block_size_ok L (n + 5) (q.mode.ext x8).hasBs
          have f0 : getSlice (.ref w6) (some 0) (some (s'.obj.blockSize : Int)) _ = _ :=
            getSlice_ref (bytesOf_mono (bytesOf_mono (bytesOf_mono b6 l3) l5)
              [.bytearray (acc ++ addXor y (getBlock s'.obj.blockSize d i))]) _ _
          unfold cut at f0
          simp only at f0
          have x9 := x8.add [.bytearray (pySlice y 0 s'.obj.blockSize)]
          obtain ⟨h8, f8, k8, a8⟩ := set_vect_ok L (n + 4) (q.ext x9)
            (bytesOf_last (pySlice y 0 s'.obj.blockSize) _) (by
            have := get_lt (x8.get q.vec)
            simp only [ne_eq, Val.ref.injEq]
            omega)
          rw [ok_bind, pure_ok]
          py [e1, e2, e3, g, f0, hbs, f2, f5, f6', b5, bytesOf_mono b2, f8]
          exact ⟨_, h8, _, rfl, (x9.frame _).trans (frame_iv k8), ⟨a8, rfl⟩, by py [e1], by py [e2], by py [], x5.length,
            k8.bytesOf (bytesOf_mono (bytesOf_last _ _) _) (by
              rintro r hr hm
              simp only [Val.ref.injEq, List.mem_singleton] at hr hm
              have := get_lt (x5.get q.vec)
              omega)⟩
        · rw [error_bind]
          py [e1, e2, e3, g, f6']
          exact ⟨_, rfl, ((Ext.refl h1).add l6).frame _, q.ext ((Ext.refl h1).add l6), rfl⟩)
    generalize blockLoop _ _ _ _ _ _ = r at this
    obtain ⟨s', r⟩ := r
    cases r with
    | error e =>
      obtain ⟨h', rfl, k, a'⟩ := this
      py []
      exact .fails rfl k a'.1
    | ok y =>
      obtain ⟨env, h', rfl, q⟩ := this
      exact fb_tail L n q

theorem ofb_decrypt (L n : Nat) {s : Fb} (a : RegAt "GOST34132015ofb" me cr kr iv s h) {v : Val} (hk : Known v h)
    (hv : v ≠ .ref iv) :
    Method (call package L (n + 9) "GOST34132015ofb.decrypt" [.ref me, v] h) h [iv, kr]
      (RegAt "GOST34132015ofb" me cr kr iv) (Ofb.decrypt s (pyVal v h)) := by
  rw [call_succ Fn.GOST34132015ofb.decrypt]
  unfold Ofb.decrypt
  rw [pyVal_data]
  cases e : bytesOf v h with
  | none =>
    obtain ⟨h', f, k, a'⟩ := fb_dec_bad L (n + 3) a e
    py [GOST34132015ofb.m_decrypt, f]
    exact .fails rfl (frame_kr k) a'
  | some d =>
    simp only
    have f := fb_dec_ok L (n + 6) me e
    obtain ⟨o, l1, g, -⟩ := a.mode.get
    have := ofb_encrypt L n a hk hv
    generalize hr : call package L (n + 8) "GOST34132015ofb.encrypt" [.ref me, v] h = r at this
    generalize Ofb.encrypt s (pyVal v h) = m at this
    obtain ⟨s', m⟩ := m
    cases m with
    | ok y =>
      obtain ⟨w, h', rfl, k, hw, b, a'⟩ := this
      py [GOST34132015ofb.m_decrypt, f, g, hr]
      exact .returns rfl k hw b a'
    | error y =>
      obtain ⟨h', rfl, k, a'⟩ := this
      py [GOST34132015ofb.m_decrypt, f, g, hr]
      exact .fails rfl k a'

end ModesSrc

end Gost.Src
