import Verif.SourceProofs.ModesCfb

/-! `gost_34_13_2015.py`: the mode CTR. -/

namespace Gost.Src

namespace ModesSrc

variable {cls : String} {c : CipherObj} {me cr kr i0 ct : Nat} {tl : List (String × Val)} {h : Heap}

/-- The cell `me` is an object of `GOST34132015ctr` with the initial value `i0` and the counter `ct`. -/
structure CtrAt (me cr kr i0 ct : Nat) (s : Ctr) (h : Heap) : Prop where
  mode : ModeAt "GOST34132015ctr" s.obj me cr kr [ct] [("_init_vect", .ref i0), ("_counter", .ref ct)] h
  vec : h[i0]? = some (.bytearray s.initVect)
  count : h[ct]? = some (.bytearray s.counter)
  ne : i0 ≠ ct
  len : s.counter.length = s.obj.blockSize

theorem CtrAt.bytes {s : Ctr} (a : CtrAt me cr kr i0 ct s h) : bytesOf (.ref ct) h = some s.counter := by
  simp only [bytesOf, a.count]

theorem CtrAt.ext {s : Ctr} (a : CtrAt me cr kr i0 ct s h) {h' : Heap} (x : Ext h h') : CtrAt me cr kr i0 ct s h' :=
  ⟨a.mode.ext x, x.get a.vec, x.get a.count, a.ne, a.len⟩

theorem CtrAt.me_ne {s : Ctr} (a : CtrAt me cr kr i0 ct s h) : ct ≠ me := by
  obtain ⟨l, o⟩ := a.mode.inst
  exact ne_of_get a.count o (by simp)

/-- A change of the counter. -/
theorem CtrAt.step {s : Ctr} (a : CtrAt me cr kr i0 ct s h) {h' : Heap} (f : Frame [ct] h h') {b : Bytes}
    (hb : h'[ct]? = some (.bytearray b)) (hl : b.length = s.obj.blockSize) :
    CtrAt me cr kr i0 ct { s with counter := b } h' := by
  refine ⟨a.mode.frame f fun w hw => ?_, f.get a.vec (by simpa using a.ne), hb, a.ne, hl⟩
  simp only [List.mem_singleton] at hw
  subst hw
  exact ⟨a.me_ne, Or.inl ⟨by simp, _, a.count⟩⟩

theorem CtrAt.clear {s : Ctr} (a : CtrAt me cr kr i0 ct s h) {h' : Heap} (f : Frame [kr] h h')
    (m : ModeAt "GOST34132015ctr" s.obj.clear me cr kr [ct] [("_init_vect", .ref i0), ("_counter", .ref ct)] h') :
    CtrAt me cr kr i0 ct s.clear h' := by
  obtain ⟨_, vs, -, -, h1, -⟩ := a.mode.rep
  exact ⟨m, f.get a.vec (by simpa using ne_of_get a.vec h1 (by simp)),
    f.get a.count (by simpa using ne_of_get a.count h1 (by simp)), a.ne, by
      rw [show s.clear.counter = s.counter from rfl, a.len]
      unfold Ctr.clear
      cases s.obj <;> rfl⟩

theorem CtrAt.apart {s : Ctr} (a : CtrAt me cr kr i0 ct s h) {v : Val} {d : Bytes} (e : bytesOf v h = some d)
    (hv : v ≠ .ref ct) : Apart [ct, kr] v := by
  obtain ⟨_, vs, -, -, h1, -⟩ := a.mode.rep
  have : Apart [kr] v := by
    refine apart_of_noBytes e fun w hw => ?_
    simp only [List.mem_singleton] at hw
    subst hw
    rw [h1]
    rfl
  rintro r rfl hr
  rcases List.mem_cons.mp hr with rfl | hr
  · exact hv rfl
  · exact this r rfl hr

theorem setItem_byte {r : Nat} {h : Heap} {b : Bytes} (e : h[r]? = some (.bytearray b)) {k : Nat} (hk : k < b.length)
    (x : UInt8) : setItem (.ref r) (.int k) (.int x.toNat) h = ok () (h.set r (.bytearray (b.set k x))) := by
  have h3 := byte_range x
  have hp : position k b.length = some k := by
    have h1 : ¬ ((k : Int) < 0) := by omega
    have h2 : (0 : Int) ≤ k ∧ (k : Int) < b.length := by omega
    simp only [position, if_neg h1, if_pos h2, Int.toNat_natCast]
  simp only [setItem, e, hp]
  rw [if_pos h3]
  simp

theorem low_byte (c : Nat) : Val.int ((c &&& 255 : Nat) : Int) = .int (UInt8.ofNat (c &&& 255)).toNat := by
  have : c &&& 255 < 256 := Nat.lt_of_le_of_lt Nat.and_le_right (by decide)
  rw [UInt8.toNat_ofNat_of_lt' this]

/-- The number one as the counter adds it. -/
def one (bs : Nat) : Bytes := (List.replicate bs (0 : UInt8)).set (bs - 1) 1

/-- One turn of `_inc_ctr`. -/
def incStep (bit : Bytes) (st : Nat × Bytes) (i : Nat) : Res (Nat × Bytes) := do
  let c ← pyGet st.2 (i : Int)
  let b ← pyGet bit (i : Int)
  let internal := c.toNat + b.toNat + (st.1 <<< 8)
  pure (internal, st.2.set i (UInt8.ofNat (internal &&& 0xff)))

theorem inc_ok (L n : Nat) {b : Bytes} (a : HasBs me b.length h) (hi : ∃ cls l, h[me]? = some (.inst cls l) ∧
    package.property cls "block_size" = some "GOST34132015.block_size") (e : h[ct]? = some (.bytearray b)) :
    ∃ h' b', call package L (n + 3) "GOST34132015ctr._inc_ctr" [.ref me, .ref ct] h = ok (.ref ct) h' ∧
      Frame [ct] h h' ∧ Ctr.incCtr b.length b = .ok b' ∧ b'.length = b.length ∧ h'[ct]? = some (.bytearray b') := by
  rw [call_succ Fn.GOST34132015ctr._inc_ctr]
  obtain ⟨cls, l, g, hp⟩ := hi
  have hbs := fun l => block_size_ok L n (a.append l)
  have hbs0 := block_size_ok L n a
  have s0 : setItem (.ref h.length) (.int ((b.length : Int) - 1)) (.int 1) (h ++ [.bytearray (List.replicate b.length 0)]) =
      ok () (h ++ [.bytearray (one b.length)]) := by
    refine setItem_any h _ _ 1 (k := b.length - 1) ?_
    have := a.pos
    have h1 : ¬ ((b.length : Int) - 1 < 0) := by omega
    have h2 : (0 : Int) ≤ (b.length : Int) - 1 ∧ (b.length : Int) - 1 < b.length := by omega
    simp only [position, List.length_replicate, if_neg h1, if_pos h2]
    congr 1
    omega
  py [GOST34132015ctr.m__inc_ctr, g, hp, hbs, hbs0, s0]
  rw [pyRange_up]
  generalize hl : forLoop _ _ _ _ _ = lo
  have hone : (one b.length).length = b.length := by simp [one]
  have := for_foldlM _ hl (incStep (one b.length)) (fun k st env h' => env "ctr" = some (.ref ct) ∧
      env "bit" = some (.ref h.length) ∧ env "internal" = some (.int (st.1 : Nat)) ∧ st.2.length = b.length ∧
      Frame [ct] h h' ∧ h'[ct]? = some (.bytearray st.2) ∧ bytesOf (.ref h.length) h' = some (one b.length))
    (fun _ => False) (s := (0, b))
    (by
      rintro k i st env h1 hk ⟨e1, e2, e3, hs, f, e4, e5⟩
      have hki : i < b.length := by
        have := List.mem_of_getElem? hk
        simpa using this
      have b4 : bytesOf (.ref ct) h1 = some st.2 := by simp only [bytesOf, e4]
      have g1 : st.2[i]? = some st.2[i] := List.getElem?_eq_getElem (by omega)
      have g2 : (one b.length)[i]? = some (one b.length)[i] := List.getElem?_eq_getElem (by omega)
      generalize st.2[i] = x at g1
      generalize (one b.length)[i] = y at g2
      have hm : incStep (one b.length) st i = .ok (x.toNat + y.toNat + (st.1 <<< 8),
          st.2.set i (UInt8.ofNat ((x.toNat + y.toNat + (st.1 <<< 8)) &&& 0xff))) := by
        unfold incStep
        rw [pyGet_nat g1, ok_bind, pyGet_nat g2, ok_bind]
        rfl
      rw [hm]
      have hset := fun x => setItem_byte e4 (k := i) (by omega) x
      py [e1, e2, e3, b4, e5, g1, g2, arith_shl_lit, arith_add_nat, arith_and_lit]
      rw [show (OfNat.ofNat 255 : Nat) = 255 from rfl, low_byte, hset]
      py []
      refine ⟨_, _, rfl, _, rfl, by py [e1], by py [e2], by py [], by simpa using hs, f.set (by simp) _,
        get_set_same _ (by rw [e4]; rfl), ?_⟩
      rw [bytesOf_set_ne _ (by
        simp only [ne_eq, Val.ref.injEq]
        have := get_lt e
        omega)]
      exact e5)
    ⟨by py [], by py [], by py []; rfl, rfl, ((Ext.refl h).add _).frame _, get_mono e _, bytesOf_last _ _⟩
  have hm : Ctr.incCtr b.length b = (do let r ← (List.range b.length).foldlM (incStep (one b.length)) (0, b); pure r.2) :=
    rfl
  rw [hm]
  cases hr : (List.range b.length).foldlM (incStep (one b.length)) (0, b) with
  | error x =>
    rw [hr] at this
    obtain ⟨_, _, hf⟩ := this
    exact hf.elim
  | ok st =>
    rw [hr] at this
    obtain ⟨_, h', rfl, env, rfl, e1, e2, e3, hs, f, e4, e5⟩ := this
    py [e1]
    exact ⟨h', st.2, rfl, f, rfl, hs, e4⟩

theorem set_same {h : Heap} {r : Nat} {x : Obj} (e : h[r]? = some x) : h.set r x = h := by
  obtain ⟨hr, rfl⟩ := List.getElem?_eq_some_iff.mp e
  exact List.set_getElem_self hr

theorem frame_ct {h h' : Heap} (f : Frame [ct] h h') : Frame [ct, kr] h h' := f.mono (by simp)

theorem CtrAt.next (L n : Nat) {s : Ctr} (a : CtrAt me cr kr i0 ct s h) :
    ∃ h' b', call package L (n + 3) "GOST34132015ctr._inc_ctr" [.ref me, .ref ct] h = ok (.ref ct) h' ∧
      Frame [ct] h h' ∧ Ctr.incCtr s.obj.blockSize s.counter = .ok b' ∧ CtrAt me cr kr i0 ct { s with counter := b' } h' := by
  obtain ⟨o, l, g, -⟩ := a.mode.get
  have hb := a.mode.hasBs
  rw [← a.len] at hb ⊢
  obtain ⟨h', b', f, k, e1, e2, e3⟩ := inc_ok L n hb ⟨_, _, g, a.mode.mode.block_size⟩ a.count
  exact ⟨h', b', f, k, e1, a.step k e3 (e2.trans a.len)⟩

theorem ctr_encrypt (L n : Nat) {s : Ctr} (a : CtrAt me cr kr i0 ct s h) {v : Val} (hk : Known v h)
    (hv : v ≠ .ref ct) :
    Method (call package L (n + 7) "GOST34132015ctr.encrypt" [.ref me, v] h) h [ct, kr]
      (CtrAt me cr kr i0 ct) (s.encrypt (pyVal v h)) := by
  rw [call_succ Fn.GOST34132015ctr.encrypt]
  unfold Ctr.encrypt
  rw [pyVal_data]
  have x := ((Ext.refl h).add [.bytearray []]).add [.bytearray []]
  cases e : bytesOf v h with
  | none =>
    obtain ⟨h', f, k, a'⟩ := check_enc_bad L (n + 2) (a.mode.ext x) (by
      have := get_lt (x.get a.count)
      simpa using this) ((hk.ext x).trans e)
    py [GOST34132015ctr.m_encrypt, f]
    exact .fails rfl ((x.frame _).trans (frame_kr k)) ((a.ext x).clear k a')
  | some d =>
    simp only
    have f := check_enc_ok L (n + 5) me (x.bytesOf e)
    have a1 := a.ext x
    have b := x.bytesOf e
    have hb : bytesOf (.ref h.length) (h ++ [.bytearray []] ++ [.bytearray []]) = some [] :=
      bytesOf_mono (bytesOf_last _ _) _
    have f1 := num_block_ok L (n + 3) a1.mode b
    obtain ⟨o, l1, g, -⟩ := a1.mode.get
    py [GOST34132015ctr.m_encrypt, f, g, f1]
    rw [pyRange_up]
    generalize hl : forLoop _ _ _ _ _ = lo
    have := for_blocks hl (At := fun s' h => CtrAt me cr kr i0 ct s' h ∧ s'.obj = s.obj) (h0 := h)
      (bs := s.obj.blockSize) (me := me) Ctr.step (a1.apart b hv)
      ⟨⟨a1, rfl⟩, by py [], by py [], b, x.frame _, h.length, by py [], Nat.le_refl _, hb⟩
      (by
        rintro i s' acc env h1 ⟨⟨q, ho⟩, e1, e2, b1, k, w1, e3, hw1, b2⟩
        rw [← ho]
        unfold Ctr.step
        obtain ⟨o, l2, g, g2⟩ := q.mode.get
        have f6 := enc_ok L (n + 1) q.mode q.bytes
        generalize s'.obj.encrypt s'.counter = res at f6
        rcases f6.cases with ⟨y, w6, l6, rfl, f6', hw6, b6⟩ | ⟨y, l6, rfl, f6'⟩
        · have x6 := (Ext.refl h1).add l6
          obtain ⟨h2, c', f7, k7, hc, a7⟩ := (q.ext x6).next L (n + 3)
          have b1' := k7.bytesOf (x6.bytesOf b1) (by
            rintro r rfl hr
            simp only [List.mem_singleton] at hr
            exact hv (hr ▸ rfl))
          obtain ⟨w2, l3, f2, b3, -⟩ := get_block_ok L (n + 3) a7.mode b1' i
          have x3 := (Ext.refl h2).add l3
          have b6' := k7.bytesOf b6 (by
            rintro r hr hm
            simp only [Val.ref.injEq, List.mem_singleton] at hr hm
            have := get_lt q.count
            omega)
          have b2' := k7.bytesOf (x6.bytesOf b2) (by
            rintro r hr hm
            simp only [Val.ref.injEq, List.mem_singleton] at hr hm
            have := get_lt a.count
            omega)
          obtain ⟨w5, l5, f5, hw5, b5⟩ := (add_xor_ok L (n + 5) b3 (x3.bytesOf b6')).elim
          have x5 := x3.add l5
          have x8 := x5.add [.bytearray (acc ++ addXor (getBlock s'.obj.blockSize d i) y)]
          have g7 := k7.get (x6.get g) (by simpa using a7.me_ne.symm)
          rw [ok_bind, hc, ok_bind, pure_ok]
          py [e1, e2, e3, g, g2, meth_enc, f6', f7, g7, set_same g7, f2, f5, b5, bytesOf_mono b2']
          exact ⟨_, _, _, rfl, (x6.frame _).trans ((frame_ct k7).trans (x8.frame _)), ⟨a7.ext x8, rfl⟩, by py [e1], by py [e2], by py [],
            Nat.le_trans x6.length (Nat.le_trans k7.1 x5.length), bytesOf_last _ _⟩
        · rw [error_bind]
          py [e1, e2, e3, g, g2, meth_enc, f6']
          exact ⟨_, rfl, ((Ext.refl h1).add l6).frame _, q.ext ((Ext.refl h1).add l6), rfl⟩)
    generalize blockLoop _ _ _ _ _ _ = r at this
    obtain ⟨s', r⟩ := r
    cases r with
    | error e =>
      obtain ⟨h', rfl, k, a'⟩ := this
      py []
      exact .fails rfl k a'.1
    | ok y =>
      obtain ⟨env, h1, rfl, ⟨q, ho⟩, e1, e2, b1, k, w1, e3, hw1, b2⟩ := this
      simp only at q ho ⊢
      rw [← ho]
      obtain ⟨o, l2, g, g2⟩ := q.mode.get
      have hbs := block_size_ok L (n + 4) q.mode.hasBs
      have hm := arith_mod_nat (m := d.length) q.mode.hasBs.pos
      by_cases hd : d.length % s'.obj.blockSize = 0
      · have hd' : (((d.length % s'.obj.blockSize : Nat) : Int) = 0) = True := by simp only [eq_iff_iff, iff_true]; omega
        rw [if_neg (not_not_intro hd)]
        py [e1, e2, e3, b1, g, hbs, hm, hd', decide_true, Bool.not_true]
        exact .returns rfl k hw1 b2 q
      · have hd' : (((d.length % s'.obj.blockSize : Nat) : Int) = 0) = False := by simp only [eq_iff_iff, iff_false]; omega
        rw [if_pos hd]
        unfold Ctr.step
        have f6 := enc_ok L (n + 1) q.mode q.bytes
        generalize s'.obj.encrypt s'.counter = res at f6
        rcases f6.cases with ⟨z, w6, l6, rfl, f6', hw6, b6⟩ | ⟨z, l6, rfl, f6'⟩
        · have x6 := (Ext.refl h1).add l6
          obtain ⟨h2, c', f7, k7, hc, a7⟩ := (q.ext x6).next L (n + 3)
          have b1' := k7.bytesOf (x6.bytesOf b1) (by
            rintro r rfl hr
            simp only [List.mem_singleton] at hr
            exact hv (hr ▸ rfl))
          have hbs2 := block_size_ok L (n + 4) a7.mode.hasBs
          have hn := num_block_ok L (n + 3) a7.mode b1'
          simp only at hbs2 hn
          obtain ⟨w2, l3, f2, b3, -⟩ := slice_new b1'
            (some ((s'.obj.blockSize * getNumBlock s'.obj.blockSize d : Nat) : Int)) none
          have x3 := (Ext.refl h2).add l3
          have b6' := k7.bytesOf b6 (by
            rintro r hr hm
            simp only [Val.ref.injEq, List.mem_singleton] at hr hm
            have := get_lt q.count
            omega)
          have b2' := k7.bytesOf (x6.bytesOf b2) (by
            rintro r hr hm
            simp only [Val.ref.injEq, List.mem_singleton] at hr hm
            have := get_lt a.count
            omega)
          obtain ⟨w5, l5, f5, hw5, b5⟩ := (add_xor_ok L (n + 5) b3 (x3.bytesOf b6')).elim
          have x5 := x3.add l5
          have g7 := k7.get (x6.get g) (by simpa using a7.me_ne.symm)
          rw [ok_bind, hc, ok_bind, pure_ok]
          py [e1, e2, e3, b1, g, hbs, hm, hd', decide_false, Bool.not_false, g2, meth_enc, f6', f7, g7, set_same g7, hbs2, hn,
            arith_mul_nat, f2, f5, b5, bytesOf_mono b2']
          exact .returns rfl (k.trans ((x6.frame _).trans ((frame_ct k7).trans ((x5.add _).frame _))))
            (Nat.le_trans k.1 (Nat.le_trans x6.length (Nat.le_trans k7.1 x5.length))) (bytesOf_last _ _) (a7.ext (x5.add _))
        · rw [error_bind]
          py [e1, e2, e3, b1, g, hbs, hm, hd', decide_false, Bool.not_false, g2, meth_enc, f6']
          have x6 := (Ext.refl h1).add l6
          exact .fails rfl (k.trans (x6.frame _)) (q.ext x6)

theorem ctr_decrypt (L n : Nat) {s : Ctr} (a : CtrAt me cr kr i0 ct s h) {v : Val} (hk : Known v h)
    (hv : v ≠ .ref ct) :
    Method (call package L (n + 8) "GOST34132015ctr.decrypt" [.ref me, v] h) h [ct, kr]
      (CtrAt me cr kr i0 ct) (s.decrypt (pyVal v h)) := by
  rw [call_succ Fn.GOST34132015ctr.decrypt]
  unfold Ctr.decrypt
  rw [pyVal_data]
  cases e : bytesOf v h with
  | none =>
    obtain ⟨h', f, k, a'⟩ := check_dec_bad L (n + 3) a.mode (by
      have := get_lt a.count
      simpa using this) e
    py [GOST34132015ctr.m_decrypt, f]
    exact .fails rfl (frame_kr k) (a.clear k a')
  | some d =>
    simp only
    have f := check_dec_ok L (n + 6) me e
    obtain ⟨o, l1, g, -⟩ := a.mode.get
    have := ctr_encrypt L n a hk hv
    generalize hr : call package L (n + 7) "GOST34132015ctr.encrypt" [.ref me, v] h = r at this
    generalize s.encrypt (pyVal v h) = m at this
    obtain ⟨s', m⟩ := m
    cases m with
    | ok y =>
      obtain ⟨w, h', rfl, k, hw, b, a'⟩ := this
      py [GOST34132015ctr.m_decrypt, f, g, hr]
      exact .returns rfl k hw b a'
    | error y =>
      obtain ⟨h', rfl, k, a'⟩ := this
      py [GOST34132015ctr.m_decrypt, f, g, hr]
      exact .fails rfl k a'

/-- The property `counter` returns the array itself. -/
theorem counter_ok (L n : Nat) {s : Ctr} (a : CtrAt me cr kr i0 ct s h) :
    call package L (n + 1) "GOST34132015ctr.counter" [.ref me] h = ok (.ref ct) h := by
  rw [call_succ Fn.GOST34132015ctr.counter]
  obtain ⟨o, l1, g, -⟩ := a.mode.get
  py [GOST34132015ctr.m_counter, g]

theorem ctr_init (L n : Nat) (o : h[me]? = some (.inst "GOST34132015ctr" [])) (a : String) (v : Val) {ivv : Val}
    (hk : Known ivv h) (hm : ivv ≠ .ref me) :
    Init (call package L (n + 6) "GOST34132015ctr.__init__" [.ref me, .str a, v, ivv] h)
      (Ctr.init a (pyVal v h) (pyVal ivv h)) me h
      (fun cr kr s h' => ∃ i0 ct, h.length ≤ i0 ∧ h.length ≤ ct ∧ CtrAt me cr kr i0 ct s h') := by
  rw [call_succ Fn.GOST34132015ctr.__init__]
  have p : IsMode "GOST34132015ctr" := by simp [IsMode]
  have := base_init L n o p grows_nil a v
  unfold Ctr.init
  generalize baseInit a (pyVal v h) = res at this
  cases res with
  | error e =>
    obtain ⟨l, f⟩ := this
    rw [error_bind]
    py [GOST34132015ctr.m___init__, f]
    exact ⟨_, rfl, ((Ext.refl h).add l).keeps _⟩
  | ok c =>
    obtain ⟨cr, kr, H, f, k, hcr, hkr, m⟩ := this
    rw [ok_bind]
    obtain ⟨o1, l1, g, -⟩ := m.get
    have hbs := block_size_ok L (n + 3) m.hasBs
    have ham : Apart [me] ivv := by
      rintro r rfl hr
      simp only [List.mem_singleton] at hr
      exact hm (hr ▸ rfl)
    have hiv := hk.frame k.frame ham
    have bad : ∃ h', Frame [me] h h' ∧ ∃ w, call package L (n + 5) "GOST34132015.clear" [.ref me] H = ok w h' := by
      obtain ⟨w, H1, f1, k1, m1⟩ := clear_ok L (n + 2) m (by simp)
      refine ⟨H1, k.frame.then k1 ?_, w, f1⟩
      simp
      omega
    obtain ⟨H1, k1, w, f1⟩ := bad
    have k1' : Keeps [me] h H1 := keeps_of_frame k1 (by simp [o, noBytes])
    rw [pyVal_data, ← hiv]
    have hdiv : arith .floordiv c.blockSize 2 = .ok _ := arith_div_nat (m := c.blockSize) (n := 2) (by decide)
    cases e : bytesOf ivv H with
    | none =>
      py [GOST34132015ctr.m___init__, f, e, g, p.clear, f1]
      exact ⟨H1, rfl, k1'⟩
    | some iv =>
      simp only
      by_cases hl : iv.length = c.blockSize / 2
      · have hl' : ((iv.length : Int) = ((c.blockSize / 2 : Nat) : Int)) = True := by simp only [eq_iff_iff, iff_true]; omega
        rw [if_neg (not_not_intro hl), pure_ok]
        py [GOST34132015ctr.m___init__, f, e, hbs, g, p.block_size, hdiv, hl', decide_true, Bool.not_true]
        have g2 := get_set_same (h := H) (r := me)
          (.inst "GOST34132015ctr" [("_cipher_obj", .ref cr), ("oid", .ref o1), ("_init_vect", ivv)]) (by rw [g]; rfl)
        have k2 : Frame [me] H (H.set me
          (.inst "GOST34132015ctr" [("_cipher_obj", .ref cr), ("oid", .ref o1), ("_init_vect", ivv)])) :=
          (Frame.refl [me] H).set (by simp) _
        have e2 := k2.bytesOf e ham
        upd (get_mono g2 _) with H3 g3 k3 n3
        generalize List.set _ _ _ = H2 at *
        have k4 : Frame [me] H H3 := (k2.add _).trans k3.frame
        have m3 : ModeAt "GOST34132015ctr" c me cr kr [] [("_init_vect", .ref H2.length)] H3 := m.upd g k4 g3
        have hbs3 := block_size_ok L (n + 3) m3.hasBs
        have e3 : bytesOf ivv H3 = some iv := k3.frame.bytesOf (bytesOf_mono e2 _) ham
        obtain ⟨w5, l5, f5, b5, hw5⟩ := add_new e3 (show bytesOf (.bytes (zeros ((c.blockSize / 2 : Nat) : Int))) H3 = _ from rfl)
        py [g3, p.block_size, hbs3, hdiv, RandomSrc.binop_zeros, f5]
        upd (get_mono g3 _) with H4 g4 k5 m4
        have hme := get_lt g2
        have hme3 := get_lt g3
        have e5 := k5.frame.bytesOf b5 (by
          rintro r rfl hr
          simp only [List.mem_singleton] at hr
          have := hw5 _ rfl
          omega)
        py [e5]
        upd (get_mono g4 _) with H5 g5 k6 m5
        have n2 := k2.1
        have n : H.length ≤ H2.length ∧ H2.length < H4.length ∧ h.length ≤ H.length := by
          simp only [List.length_append, List.length_singleton] at n3 m4
          exact ⟨n2, by omega, k.length⟩
        have k7 : Frame [me] H H5 := ((((k4.add _).trans k5.frame).add _).trans k6.frame)
        have q' := (m.away (W' := [H4.length]) (by simp; omega)).upd g k7 g5
        have nm : ∀ {r}, H2.length ≤ r → r ∉ [me] := by
          intro r hr hm
          simp only [List.mem_singleton] at hm
          omega
        refine ⟨cr, kr, H5, rfl, k.trans (keeps_of_frame k7 (by simp [g, noBytes])), hcr, hkr, H2.length, H4.length, by omega,
          by omega, q', ?_, k6.frame.get (get_last _ _) (nm (by omega)), by omega, ?_⟩
        · exact k6.frame.get (get_mono (k5.frame.get (get_mono (k3.frame.get (get_last _ _) (nm (by omega))) _)
            (nm (by omega))) _) (nm (by omega))
        · simp only [List.length_append, hl, zeros, List.length_replicate, Int.toNat_natCast]
          have : c.blockSize = 16 ∨ c.blockSize = 8 := by cases c <;> simp [CipherObj.blockSize]
          omega
      · have hl' : ((iv.length : Int) = ((c.blockSize / 2 : Nat) : Int)) = False := by simp only [eq_iff_iff, iff_false]; omega
        rw [if_pos hl]
        py [GOST34132015ctr.m___init__, f, e, hbs, g, p.block_size, hdiv, hl', decide_false,
          Bool.not_false, p.clear, f1]
        exact ⟨H1, rfl, k1'⟩

theorem ctr_new (L n : Nat) {h : Heap} (a : String) {v ivv : Val} (hv : Known v h) (hi : Known ivv h) :
    New (instantiate (ctx L (n + 6)) "GOST34132015ctr" [.str a, v, ivv] h)
      (Ctr.init a (pyVal v h) (pyVal ivv h)) h
      (fun cr kr s h' => ∃ i0 ct, h.length < i0 ∧ h.length < ct ∧ CtrAt h.length cr kr i0 ct s h') := by
  unfold instantiate
  py []
  rw [← hv.pyVal [.inst "GOST34132015ctr" []], ← hi.pyVal [.inst "GOST34132015ctr" []]]
  have := (ctr_init L n (get_last h (.inst "GOST34132015ctr" [])) a v (hi.le (by simp)) hi.ne_length).new
  simpa only [List.length_append, List.length_singleton, Nat.succ_le_iff] using this

end ModesSrc

end Gost.Src
