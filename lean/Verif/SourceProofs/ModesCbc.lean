import Verif.SourceProofs.ModesFb

/-! `gost_34_13_2015.py`: the mode CBC. -/

namespace Gost.Src

namespace ModesSrc

variable {cls : String} {c : CipherObj} {me cr kr iv : Nat} {tl : List (String × Val)} {h : Heap}

/-- The cell `me` is an object of `GOST34132015cbc` with the register `iv`. -/
def CbcAt (me cr kr iv : Nat) (s : Cbc) (h : Heap) : Prop :=
  FbAt "GOST34132015cbc" s.obj s.iv me cr kr iv [("_pad_mode", .int s.padMode), ("_init_vect", .ref iv)] h

theorem FbAt.apart {b : Bytes} (a : FbAt cls c b me cr kr iv tl h) {v : Val} {d : Bytes} (e : bytesOf v h = some d)
    (hv : v ≠ .ref iv) : Apart [iv, kr] v := by
  obtain ⟨_, vs, -, -, h1, -⟩ := a.mode.rep
  have : Apart [kr] v := by
    refine apart_of_noBytes e fun w hw => ?_
    simp only [List.mem_singleton] at hw
    subst hw
    rw [h1]
    rfl
  rintro r rfl hr
  rcases List.mem_cons.mp hr with rfl | hr
  · exact hv rfl
  · exact this r rfl hr

theorem frame_iv {h h' : Heap} (f : Frame [iv] h h') : Frame [iv, kr] h h' := f.mono (by simp)

theorem frame_kr {h h' : Heap} (f : Frame [kr] h h') : Frame [iv, kr] h h' := f.mono (by simp)

theorem cbc_encrypt (L n : Nat) {s : Cbc} (a : CbcAt me cr kr iv s h) {v : Val} (hk : Known v h) (hv : v ≠ .ref iv) :
    Method (call package L (n + 7) "GOST34132015cbc.encrypt" [.ref me, v] h) h [iv, kr] (CbcAt me cr kr iv)
      (s.encrypt (pyVal v h)) := by
  rw [call_succ Fn.GOST34132015cbc.encrypt]
  unfold Cbc.encrypt
  rw [pyVal_data]
  have x := (Ext.refl h).add [.bytearray []]
  cases e : bytesOf v h with
  | none =>
    obtain ⟨h', f, k, a'⟩ := pad_enc_bad L (n + 1) (a.mode.ext x) (by
      have := get_lt (x.get a.vec)
      simpa using this) ((hk.bytesOf _).trans e)
    py [GOST34132015cbc.m_encrypt, f]
    exact .fails rfl ((x.frame _).trans (frame_kr k)) (FbAt.clear (a.ext x) k a')
  | some d =>
    simp only
    obtain ⟨w, l, f, b, hw⟩ := pad_enc_ok L n (a.mode.ext x) (Or.inr rfl) (x.bytesOf e)
    have x1 := x.add l
    have a1 := a.ext x1
    have hb : bytesOf (.ref h.length) (h ++ [.bytearray []] ++ l) = some [] := bytesOf_mono (bytesOf_last _ _) l
    have hw' : w ≠ .ref iv := by
      rintro rfl
      rcases hw iv rfl with hw | hw
      · exact hv hw
      · have := get_lt (x.get a.vec)
        omega
    generalize h ++ [.bytearray []] ++ l = H at *
    have f1 := num_block_ok L (n + 3) a1.mode b
    obtain ⟨o, l1, g, -⟩ := a1.mode.get
    py [GOST34132015cbc.m_encrypt, f, g, f1]
    rw [pyRange_up]
    generalize setPadding s.obj.blockSize d s.padMode = d' at *
    generalize hl : forLoop _ _ _ _ _ = lo
    have := for_blocks hl (At := fun s' h => CbcAt me cr kr iv s' h ∧ s'.obj = s.obj) (h0 := h) (bs := s.obj.blockSize)
      (me := me) Cbc.encStep (a1.apart b hw')
      ⟨⟨a1, rfl⟩, by py [], by py [], b, x1.frame _, h.length, by py [], Nat.le_refl _, hb⟩
      (by
        rintro i s' acc env h1 ⟨⟨q, ho⟩, e1, e2, b1, k, w1, e3, hw1, b2⟩
        rw [← ho]
        obtain ⟨o, l2, g, g2⟩ := q.mode.get
        have hbs := block_size_ok L (n + 4) q.mode.hasBs
        have f0 : getSlice (.ref iv) (some 0) (some (s'.obj.blockSize : Int)) h1 = _ := getSlice_ref q.bytes _ _
        unfold cut at f0
        simp only at f0
        have x2 := (Ext.refl h1).add [.bytearray (pySlice s'.iv 0 s'.obj.blockSize)]
        have b4 := bytesOf_last (pySlice s'.iv 0 s'.obj.blockSize) h1
        obtain ⟨w2, l3, f2, b3, -⟩ := get_block_ok L (n + 3) (q.mode.ext x2) (x2.bytesOf b1) i
        have x3 := x2.add l3
        obtain ⟨w5, l5, f5, hw5, b5⟩ := (add_xor_ok L (n + 5) (bytesOf_mono b4 l3) b3).elim
        have x5 := x3.add l5
        unfold Cbc.encStep
        simp only
        rcases (enc_ok L (n + 1) (q.mode.ext x5) b5).cases with ⟨y, w6, l6, hr, f6, hw6, b6⟩ | ⟨y, l6, hr, f6⟩
        · have x6 := x5.add l6
          have x7 := x6.add [.bytearray (acc ++ y)]
          have hbs7 := block_size_ok L (n + 4) (q.mode.ext x7).hasBs
          have f7 : getSlice (.ref w6) (some 0) (some (s'.obj.blockSize : Int)) _ = _ :=
            getSlice_ref (bytesOf_mono b6 [.bytearray (acc ++ y)]) _ _
          unfold cut at f7
          simp only at f7
          have x8 := x7.add [.bytearray (pySlice y 0 s'.obj.blockSize)]
          obtain ⟨h8, f8, k8, a8⟩ := set_vect_ok L (n + 3) (q.ext x8) (bytesOf_last _ _) (by
            intro hc
            have := get_lt (x7.get q.vec)
            simp only [Val.ref.injEq] at hc
            omega)
          rw [hr, ok_bind, pure_ok]
          py [e1, e2, e3, g, g2, f0, hbs, f2, f5, meth_enc, f6, b6, bytesOf_mono b2, hbs7, f7, f8]
          exact ⟨_, h8, _, rfl, (x8.frame _).trans (frame_iv k8), ⟨a8, rfl⟩, by py [e1], by py [e2], by py [], x6.length,
            k8.bytesOf (bytesOf_mono (bytesOf_last _ _) _) (by
              rintro r hr hm
              simp only [Val.ref.injEq, List.mem_singleton] at hr hm
              have := get_lt (x6.get q.vec)
              omega)⟩
        · rw [hr, error_bind]
          py [e1, e2, e3, g, g2, f0, hbs, f2, f5, meth_enc, f6]
          exact ⟨_, rfl, (x5.add _).frame _, q.ext (x5.add _), rfl⟩)
    generalize blockLoop _ _ _ _ _ _ = r at this
    obtain ⟨s', r⟩ := r
    cases r with
    | error e =>
      obtain ⟨h', rfl, k, a'⟩ := this
      py []
      exact .fails rfl k a'.1
    | ok y =>
      obtain ⟨env, h', rfl, q⟩ := this
      obtain ⟨w', e1, hw', b'⟩ := q.result
      py [e1]
      exact .returns rfl q.frame hw' b' q.at_.1

theorem cbc_decrypt (L n : Nat) {s : Cbc} (a : CbcAt me cr kr iv s h) {v : Val} (hk : Known v h) (hv : v ≠ .ref iv) :
    Method (call package L (n + 7) "GOST34132015cbc.decrypt" [.ref me, v] h) h [iv, kr] (CbcAt me cr kr iv)
      (s.decrypt (pyVal v h)) := by
  rw [call_succ Fn.GOST34132015cbc.decrypt]
  unfold Cbc.decrypt
  rw [pyVal_data]
  have x := (Ext.refl h).add [.bytearray []]
  cases e : bytesOf v h with
  | none =>
    obtain ⟨h', f, k, a'⟩ := pad_dec_bad L (n + 1) (a.mode.ext x) (by
      have := get_lt (x.get a.vec)
      simpa using this) ((hk.bytesOf _).trans e)
    py [GOST34132015cbc.m_decrypt, f]
    exact .fails rfl ((x.frame _).trans (frame_kr k)) (FbAt.clear (a.ext x) k a')
  | some d =>
    simp only
    have f := pad_dec_ok L (n + 4) me (x.bytesOf e)
    have a1 := a.ext x
    have b := x.bytesOf e
    have hb : bytesOf (.ref h.length) (h ++ [.bytearray []]) = some [] := bytesOf_last _ _
    have f1 := num_block_ok L (n + 3) a1.mode b
    obtain ⟨o, l1, g, -⟩ := a1.mode.get
    py [GOST34132015cbc.m_decrypt, f, g, f1]
    rw [pyRange_up]
    generalize hl : forLoop _ _ _ _ _ = lo
    have := for_blocks hl (At := fun s' h => CbcAt me cr kr iv s' h ∧ s'.obj = s.obj) (h0 := h) (bs := s.obj.blockSize)
      (me := me) Cbc.decStep (a1.apart b hv)
      ⟨⟨a1, rfl⟩, by py [], by py [], b, x.frame _, h.length, by py [], Nat.le_refl _, hb⟩
      (by
        rintro i s' acc env h1 ⟨⟨q, ho⟩, e1, e2, b1, k, w1, e3, hw1, b2⟩
        rw [← ho]
        obtain ⟨o, l2, g, g2⟩ := q.mode.get
        obtain ⟨w2, l3, f2, b3, -⟩ := get_block_ok L (n + 3) q.mode b1 i
        have x3 := (Ext.refl h1).add l3
        unfold Cbc.decStep
        simp only
        rcases (dec_ok L (n + 1) (q.mode.ext x3) b3).cases with ⟨y, w6, l6, hr, f6, hw6, b6⟩ | ⟨y, l6, hr, f6⟩
        · have x6 := x3.add l6
          have hbs := block_size_ok L (n + 4) (q.mode.ext x6).hasBs
          have f0 : getSlice (.ref iv) (some 0) (some (s'.obj.blockSize : Int)) _ = _ := getSlice_ref (q.ext x6).bytes _ _
          unfold cut at f0
          simp only at f0
          have x7 := x6.add [.bytearray (pySlice s'.iv 0 s'.obj.blockSize)]
          have b7 := bytesOf_last (pySlice s'.iv 0 s'.obj.blockSize) (h1 ++ l3 ++ l6)
          obtain ⟨w5, l5, f5, hw5, b5⟩ := (add_xor_ok L (n + 5) b7
            (bytesOf_mono b6 [.bytearray (pySlice s'.iv 0 s'.obj.blockSize)])).elim
          have x5 := x7.add l5
          have x8 := x5.add [.bytearray (acc ++ addXor (pySlice s'.iv 0 s'.obj.blockSize) y)]
          obtain ⟨w9, l9, f9, b9, hw9⟩ := get_block_ok L (n + 3) (q.mode.ext x8) (x8.bytesOf b1) i
          have x9 := x8.add l9
          obtain ⟨h8, f8, k8, a8⟩ := set_vect_ok L (n + 3) (q.ext x9) b9 (by
            rintro rfl
            have := get_lt (x8.get q.vec)
            have := hw9 _ rfl
            omega)
          rw [hr, ok_bind, pure_ok]
          py [e1, e2, e3, g, g2, f0, hbs, f2, f5, meth_dec, f6, b5, bytesOf_mono b2, f8, f9]
          exact ⟨_, h8, _, rfl, (x9.frame _).trans (frame_iv k8), ⟨a8, rfl⟩, by py [e1], by py [e2], by py [], x5.length,
            k8.bytesOf (bytesOf_mono (bytesOf_last _ _) _) (by
              rintro r hr hm
              simp only [Val.ref.injEq, List.mem_singleton] at hr hm
              have := get_lt (x5.get q.vec)
              omega)⟩
        · rw [hr, error_bind]
          py [e1, e2, e3, g, g2, f2, meth_dec, f6]
          exact ⟨_, rfl, (x3.add _).frame _, q.ext (x3.add _), rfl⟩)
    generalize blockLoop _ _ _ _ _ _ = r at this
    obtain ⟨s', r⟩ := r
    cases r with
    | error e =>
      obtain ⟨h', rfl, k, a'⟩ := this
      py []
      exact .fails rfl k a'.1
    | ok y =>
      obtain ⟨env, h', rfl, q⟩ := this
      obtain ⟨w', e1, hw', b'⟩ := q.result
      py [e1]
      exact .returns rfl q.frame hw' b' q.at_.1

/-! The constructors. -/

/-- The attributes before `_init_vect`. -/
def NoVect (tl : List (String × Val)) : Prop :=
  ∀ x, findAttr "_init_vect" (setAttrList "_init_vect" x tl) = some x ∧
    ∀ y, setAttrList "_init_vect" y (setAttrList "_init_vect" x tl) = setAttrList "_init_vect" y tl

theorem noVect_nil : NoVect [] := fun x => by
  simp only [setAttrList, findAttr, ↓reduceIte]
  exact ⟨trivial, fun _ => trivial⟩

theorem noVect_pad (p : Int) : NoVect [("_pad_mode", .int p)] := fun x => by
  simp only [setAttrList, findAttr, String.reduceEq, ↓reduceIte]
  exact ⟨trivial, fun _ => trivial⟩

theorem Known.frame {v : Val} (k : Known v h) {W : List Nat} {h' : Heap} (f : Frame W h h') (ha : Apart W v) :
    Src.bytesOf v h' = Src.bytesOf v h := by
  cases v with
  | ref r => simp only [Src.bytesOf, f.2 r (k r rfl) (ha r rfl)]
  | _ => rfl

theorem fb_init (L n : Nat) {A : List (String × Val)} (o : h[me]? = some (.inst cls A)) (p : IsFb cls) (hA : Grows A tl)
    (hT : NoVect tl) (a : String) (v : Val) {ivv : Val} (hk : Known ivv h) (hm : ivv ≠ .ref me) :
    Init (call package L (n + 6) "GOST34132015CipherFeedBack.__init__" [.ref me, .str a, v, ivv] h)
      (Fb.init a (pyVal v h) (pyVal ivv h)) me h
      (fun cr kr s h' => ∃ iv, h.length ≤ iv ∧
        FbAt cls s.obj s.iv me cr kr iv (setAttrList "_init_vect" (.ref iv) tl) h') := by
  rw [call_succ Fn.GOST34132015CipherFeedBack.__init__]
  have := base_init L n o p.mode hA a v
  unfold Fb.init
  generalize baseInit a (pyVal v h) = res at this
  cases res with
  | error e =>
    obtain ⟨l, f⟩ := this
    rw [error_bind]
    py [GOST34132015CipherFeedBack.m___init__, f]
    exact ⟨_, rfl, ((Ext.refl h).add l).keeps _⟩
  | ok c =>
    obtain ⟨cr, kr, H, f, k, hcr, hkr, m⟩ := this
    rw [ok_bind]
    obtain ⟨o1, l1, g, -⟩ := m.get
    have hbs := block_size_ok L (n + 3) m.hasBs
    have hiv := hk.frame k.frame (by
      rintro r rfl hr
      simp only [List.mem_singleton] at hr
      exact hm (hr ▸ rfl))
    have bad : ∃ h', Frame [me] h h' ∧ ∃ w, call package L (n + 5) "GOST34132015.clear" [.ref me] H = ok w h' := by
      obtain ⟨w, H1, f1, k1, m1⟩ := clear_ok L (n + 2) m (by simp)
      refine ⟨H1, k.frame.then k1 ?_, w, f1⟩
      simp
      omega
    obtain ⟨H1, k1, w, f1⟩ := bad
    have k1' : Keeps [me] h H1 := keeps_of_frame k1 (by simp [o, noBytes])
    unfold checkIv
    rw [pyVal_data, ← hiv]
    cases e : bytesOf ivv H with
    | none =>
      py [GOST34132015CipherFeedBack.m___init__, f, e, g, p.mode.clear, f1]
      exact ⟨H1, rfl, k1'⟩
    | some iv =>
      simp only
      by_cases hl : iv.length % c.blockSize = 0
      · have hl' : (((iv.length % c.blockSize : Nat) : Int) = 0) = True := by simp only [eq_iff_iff, iff_true]; omega
        rw [if_neg (not_not_intro hl), ok_bind, pure_ok]
        py [GOST34132015CipherFeedBack.m___init__, f, e, hbs, g, p.mode.block_size, arith_mod_nat m.hasBs.pos, hl', decide_true,
          Bool.not_true]
        upd g with H2 g2 k2 m2
        have e2 : bytesOf ivv H2 = some iv := k2.frame.bytesOf e (by
          rintro r rfl hr
          simp only [List.mem_singleton] at hr
          exact hm (hr ▸ rfl))
        py [p.init_vect, (hT ivv).1, g2, e2]
        upd (get_mono g2 _) with H3 g3 k3 m3
        rw [(hT ivv).2] at g3
        have k4 : Frame [me] H H3 := (k2.frame.add _).trans k3.frame
        have q' := (m.away (W' := [H2.length]) (by simp [m2])).upd g k4 g3
        have hme := get_lt g2
        refine ⟨cr, kr, H3, rfl, k.trans (keeps_of_frame k4 (by simp [g, noBytes])), hcr, hkr, H2.length, ?_,
          p, q', k3.frame.get (get_last _ _) (by simp; omega), (hT _).1⟩
        have := k.length
        omega
      · have hl' : (((iv.length % c.blockSize : Nat) : Int) = 0) = False := by simp only [eq_iff_iff, iff_false]; omega
        rw [if_pos hl, error_bind]
        py [GOST34132015CipherFeedBack.m___init__, f, e, hbs, g, p.mode.block_size, arith_mod_nat m.hasBs.pos, hl', decide_false,
          Bool.not_false, p.mode.clear, f1]
        exact ⟨H1, rfl, k1'⟩

theorem pyVal_frame {v : Val} (k : Known v h) {W : List Nat} {h' : Heap} (f : Frame W h h') (ha : Apart W v) :
    Src.pyVal v h' = Src.pyVal v h := by
  cases v with
  | bytes b => rfl
  | _ => simp only [Src.pyVal, k.frame f ha]

theorem Known.le {v : Val} (k : Known v h) {h' : Heap} (hl : h.length ≤ h'.length) : Known v h' := fun r hr => by
  have := k r hr
  omega

theorem cbc_init_eq (a : String) (k i : PyVal) (p : Int) :
    Cbc.init a k i p = (do
      let e ← Ecb.init a k p
      let f ← Fb.init a k i
      pure ⟨f.obj, f.iv, e.padMode⟩) := by
  unfold Cbc.init Fb.init
  congr 1
  funext e
  cases baseInit a k with
  | error e => rfl
  | ok c =>
    rw [ok_bind, ok_bind]
    cases checkIv c.blockSize i <;> rfl

theorem cbc_init (L n : Nat) (o : h[me]? = some (.inst "GOST34132015cbc" [])) (a : String) {v ivv : Val} (hv : Known v h)
    (hvm : v ≠ .ref me) (hi : Known ivv h) (him : ivv ≠ .ref me) (pm : Int) :
    Init (call package L (n + 7) "GOST34132015cbc.__init__" [.ref me, .str a, v, ivv, .int pm] h)
      (Cbc.init a (pyVal v h) (pyVal ivv h) pm) me h
      (fun cr kr s h' => ∃ iv, h.length ≤ iv ∧ CbcAt me cr kr iv s h') := by
  rw [call_succ Fn.GOST34132015cbc.__init__]
  have h1 := pad_init L n o (Or.inr rfl) a v pm
  rw [cbc_init_eq]
  generalize Ecb.init a (pyVal v h) pm = r1 at h1
  cases r1 with
  | error e =>
    obtain ⟨h', f, k⟩ := h1
    rw [error_bind]
    py [GOST34132015cbc.m___init__, f]
    exact ⟨h', rfl, k⟩
  | ok e =>
    obtain ⟨cr, kr, H, f, k, hcr, hkr, m⟩ := h1
    rw [ok_bind]
    obtain ⟨o1, l1, g, -⟩ := m.get
    have ap : ∀ {u : Val}, u ≠ .ref me → Apart [me] u := by
      rintro u hu r rfl hr
      simp only [List.mem_singleton] at hr
      exact hu (hr ▸ rfl)
    have h2 := fb_init L n g (Or.inl rfl) (grows_again _ _ _) (noVect_pad _) a v (hi.le k.length) him
    rw [pyVal_frame hv k.frame (ap hvm), pyVal_frame hi k.frame (ap him)] at h2
    generalize Fb.init a (pyVal v h) (pyVal ivv h) = r2 at h2
    cases r2 with
    | error e =>
      obtain ⟨h', f2, k2⟩ := h2
      rw [error_bind]
      py [GOST34132015cbc.m___init__, f, f2]
      exact ⟨h', rfl, k.trans k2⟩
    | ok s =>
      obtain ⟨cr2, kr2, h', f2, k2, hcr2, hkr2, iv, hiv, q⟩ := h2
      rw [ok_bind, pure_ok]
      have := k.length
      py [GOST34132015cbc.m___init__, f, f2]
      refine ⟨cr2, kr2, h', rfl, k.trans k2, by omega, by omega, iv, by omega, ?_⟩
      unfold CbcAt
      simpa only [setAttrList, String.reduceEq, ↓reduceIte] using q

theorem Known.ne_length {v : Val} (k : Known v h) : v ≠ .ref h.length := by
  rintro rfl
  have := k _ rfl
  omega

theorem cbc_new (L n : Nat) {h : Heap} (a : String) {v ivv : Val} (hv : Known v h) (hi : Known ivv h) (pm : Int) :
    New (instantiate (ctx L (n + 7)) "GOST34132015cbc" [.str a, v, ivv, .int pm] h)
      (Cbc.init a (pyVal v h) (pyVal ivv h) pm) h
      (fun cr kr s h' => ∃ iv, h.length < iv ∧ CbcAt h.length cr kr iv s h') := by
  unfold instantiate
  py []
  rw [← hv.pyVal [.inst "GOST34132015cbc" []], ← hi.pyVal [.inst "GOST34132015cbc" []]]
  have := (cbc_init L n (get_last h (.inst "GOST34132015cbc" [])) a (hv.le (by simp)) hv.ne_length (hi.le (by simp))
    hi.ne_length pm).new
  simpa only [List.length_append, List.length_singleton, Nat.succ_le_iff] using this

theorem fb_new (L n : Nat) {h : Heap} (p : IsFb cls) (hc : package.method cls "__init__" =
    some ("GOST34132015CipherFeedBack.__init__", false)) (a : String) {v ivv : Val} (hv : Known v h) (hi : Known ivv h) :
    New (instantiate (ctx L (n + 6)) cls [.str a, v, ivv] h)
      (Fb.init a (pyVal v h) (pyVal ivv h)) h
      (fun cr kr s h' => ∃ iv, h.length < iv ∧ FbAt cls s.obj s.iv h.length cr kr iv [("_init_vect", .ref iv)] h') := by
  unfold instantiate
  py [hc]
  rw [← hv.pyVal [.inst cls []], ← hi.pyVal [.inst cls []]]
  have := (fb_init L n (get_last h (.inst cls [])) p grows_nil noVect_nil a v (hi.le (by simp)) hi.ne_length).new
  simpa only [List.length_append, List.length_singleton, Nat.succ_le_iff, setAttrList] using this

end ModesSrc

end Gost.Src
