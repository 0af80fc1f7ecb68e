import Verif.SourceProofs.ModesCtr

/-! `gost_34_13_2015.py`: the mode MAC. -/

namespace Gost.Src

namespace ModesSrc

open RandomSrc (binop_zeros)

variable {cls : String} {c : CipherObj} {me cr kr : Nat} {W : List Nat} {tl : List (String × Val)} {h : Heap}

/-- The values of the attributes of a MAC object. -/
structure MacVals where
  k1 : Val
  k2 : Val
  fin : Val
  iter : Val
  prev : Val
  cur : Val

/-- The attributes. -/
def MacVals.attrs (x : MacVals) : List (String × Val) :=
  [("_key_1", x.k1), ("_key_2", x.k2), ("_fin_buff", x.fin), ("_iter_buf", x.iter), ("_prev_mac", x.prev),
   ("_cur_mac", x.cur)]

/-- The values hold the bytes of the model. -/
structure MacBytes (x : MacVals) (s : Mac) (h : Heap) : Prop where
  k1 : bytesOf x.k1 h = some s.key1
  k2 : bytesOf x.k2 h = some s.key2
  fin : bytesOf x.fin h = some s.finBuff
  iter : bytesOf x.iter h = some s.iterBuf
  prev : bytesOf x.prev h = some s.prevMac
  cur : bytesOf x.cur h = some s.curMac

/-- The cell `me` is an object of `GOST34132015mac`. -/
structure MacAt (me cr kr : Nat) (x : MacVals) (s : Mac) (h : Heap) : Prop where
  mode : ModeAt "GOST34132015mac" s.obj me cr kr [] x.attrs h
  bytes : MacBytes x s h

variable {x : MacVals} {s : Mac}

theorem MacBytes.frame (b : MacBytes x s h) {h' : Heap} {W : List Nat} (f : Frame W h h')
    (hw : ∀ {v b}, bytesOf v h = some b → Apart W v) : MacBytes x s h' :=
  ⟨f.bytesOf b.k1 (hw b.k1), f.bytesOf b.k2 (hw b.k2), f.bytesOf b.fin (hw b.fin), f.bytesOf b.iter (hw b.iter),
    f.bytesOf b.prev (hw b.prev), f.bytesOf b.cur (hw b.cur)⟩

theorem MacBytes.ext (b : MacBytes x s h) {h' : Heap} (e : Ext h h') : MacBytes x s h' :=
  b.frame (e.frame []) (by simp [Apart])

theorem MacAt.ext (a : MacAt me cr kr x s h) {h' : Heap} (e : Ext h h') : MacAt me cr kr x s h' :=
  ⟨a.mode.ext e, a.bytes.ext e⟩

theorem ModeAt.apart (a : ModeAt cls c me cr kr W tl h) {v : Val} {d : Bytes} (e : bytesOf v h = some d) :
    Apart [me, kr] v := by
  obtain ⟨_, vs, -, -, h1, -⟩ := a.rep
  obtain ⟨l, o⟩ := a.inst
  refine apart_of_noBytes e fun w hw => ?_
  simp only [List.mem_cons, List.not_mem_nil, or_false] at hw
  rcases hw with rfl | rfl
  · rw [o]
    rfl
  · rw [h1]
    rfl

theorem MacAt.clear (a : MacAt me cr kr x s h) {h' : Heap} (f : Frame [kr] h h')
    (m : ModeAt "GOST34132015mac" s.obj.clear me cr kr [] x.attrs h') : MacAt me cr kr x s.clear h' := by
  have := a.bytes.frame (f.mono (W' := [me, kr]) (by simp)) fun e => a.mode.apart e
  exact ⟨m, this.k1, this.k2, this.fin, this.iter, this.prev, this.cur⟩

theorem mode_3_ok (L n : Nat) (a : ModeAt cls c me cr kr W tl h) {v : Val} {d : Bytes} (e : bytesOf v h = some d) :
    ∃ w l, call package L (n + 4) "GOST34132015mac._set_pad_mode_3" [.ref me, v] h = ok w (h ++ l) ∧
      bytesOf w (h ++ l) = some (Mac.setPadMode3 c.blockSize d) ∧ ∀ r, w = .ref r → v = .ref r ∨ h.length ≤ r := by
  rw [call_succ Fn.GOST34132015mac._set_pad_mode_3]
  obtain ⟨l, o⟩ := a.inst
  have f := pad_size_ok L n a e
  unfold Mac.setPadMode3
  by_cases hp : getPadSize c.blockSize d = 0
  · have hp' : ((getPadSize c.blockSize d : Int) = 0) = True := by simp only [eq_iff_iff, iff_true]; omega
    rw [if_pos hp]
    py [GOST34132015mac.m__set_pad_mode_3, o, a.mode.pad_size, f, hp', decide_true]
    exact ⟨v, [], by rw [List.append_nil], by rw [List.append_nil]; exact e, fun r hr => Or.inl hr⟩
  · have hp' : ((getPadSize c.blockSize d : Int) = 0) = False := by simp only [eq_iff_iff, iff_false]; omega
    rw [if_neg hp]
    obtain ⟨w, l', f1, b, hw⟩ := add_new (w := .bytes [128]) e rfl
    have a' := a.ext ((Ext.refl h).add l')
    have f' := pad_size_ok L n a' (bytesOf_mono e l')
    obtain ⟨w2, l2, f2, b2, hw2⟩ := add_new (w := .bytes (zeros ((getPadSize c.blockSize d : Int) - 1))) b rfl
    py [GOST34132015mac.m__set_pad_mode_3, o, a.mode.pad_size, f, f', hp', decide_false, f1, binop_zeros, f2]
    refine ⟨w2, l' ++ l2, by rw [List.append_assoc], by rw [← List.append_assoc]; exact b2, fun r hr => ?_⟩
    have := hw2 r hr
    simp at this
    omega

/-- One half of `_get_mac_key`. -/
def half (src dst : String) : Stmt :=
  .if_ (.cmp .eq (.call "Utils.msb" [.name src]) (.int 0))
    [.assign (.name "int_value") (.bin .shl (.call "Utils.bytearray_to_int" [.name src]) (.int 1)),
     .assign (.name dst) (.call "Utils.int_to_bytearray" [.name "int_value", .attr (.name "self") "block_size"])]
    [.assign (.name "int_value") (.bin .shl (.call "Utils.bytearray_to_int" [.name src]) (.int 1)),
     .assign (.name dst) (.call "Utils.add_xor" [.call "Utils.int_to_bytearray" [.name "int_value",
       .attr (.name "self") "block_size"], .name "value_b"])]

theorem half_ok (L n : Nat) {src dst : String} (hn : (src = "value_r" ∧ dst = "key_1") ∨ (src = "key_1" ∧ dst = "key_2"))
    {env : Env} (a : ModeAt cls c me cr kr W tl h) (e0 : env "self" = some (.ref me)) {v : Val} (e1 : env src = some v)
    {b d : Bytes} (e2 : env "value_b" = some (.bytes b)) (e : bytesOf v h = some d) (hd : 0 < d.length) (rest : List Stmt) :
    ∃ w l k i, execs (ctx L (n + 2)) (half src dst :: rest) env h =
        execs (ctx L (n + 2)) rest ((env.set "int_value" i).set dst (.ref w)) (h ++ l) ∧
      Mac.double c.blockSize b d = .ok k ∧ bytesOf (.ref w) (h ++ l) = some k ∧ h.length ≤ w ∧
      (0 < b.length → 0 < k.length) := by
  obtain ⟨l, o⟩ := a.inst
  have hb0 := block_size_ok L n a.hasBs
  have hp := a.hasBs.pos
  obtain ⟨y, hx⟩ : ∃ y, msb d = .ok y := by
    cases d with
    | nil => cases hd
    | cons y d => exact ⟨_, (rfl)⟩
  have m1 := msb_ok L (n + 1) e hx
  have i1 := bytearray_to_int_ok L (n + 1) e
  obtain ⟨w, l1, f1, hw, b1⟩ := (int_to_bytearray_ok L (n + 1) ((bytesToInt d <<< 1 : Nat) : Int) c.blockSize h).elim
  obtain ⟨w2, l2, f2, hw2, b2⟩ := (add_xor_ok L (n + 1) b1 (show bytesOf (.bytes b) (h ++ l1) = some b from rfl)).elim
  have hsh : arith .shl (bytesToInt d : Int) 1 = .ok _ := arith_shl_nat (bytesToInt d) 1
  unfold half Mac.double
  rw [hx, ok_bind]
  by_cases hy : y = 0
  · subst hy
    rw [show ((0 : UInt8).toNat : Int) = 0 from rfl] at m1
    refine ⟨w, l1, _, .int ((bytesToInt d <<< 1 : Nat) : Int), ?_, by rw [if_pos rfl, pure_ok], b1, hw, ?_⟩
    · rcases hn with ⟨rfl, rfl⟩ | ⟨rfl, rfl⟩
      · py [e0, e1, e2, m1, decide_true, i1, hsh, o, a.mode.block_size, hb0, f1]
      · py [e0, e1, e2, m1, decide_true, i1, hsh, o, a.mode.block_size, hb0, f1]
    · intro _
      simpa using hp
  · have hy' : ((y.toNat : Int) = 0) = False := by
      simp only [eq_iff_iff, iff_false]
      intro h0
      exact hy (UInt8.toNat_inj.mp (by simp; omega))
    refine ⟨w2, l1 ++ l2, _, .int ((bytesToInt d <<< 1 : Nat) : Int), ?_, by rw [if_neg hy, pure_ok], by rw [← List.append_assoc]; exact b2, ?_, ?_⟩
    · rw [← List.append_assoc]
      rcases hn with ⟨rfl, rfl⟩ | ⟨rfl, rfl⟩
      · py [e0, e1, e2, m1, hy', decide_false, i1, hsh, o, a.mode.block_size, hb0, f1, f2]
      · py [e0, e1, e2, m1, hy', decide_false, i1, hsh, o, a.mode.block_size, hb0, f1, f2]
    · simp at hw2
      omega
    · intro hb
      rw [Streebog.addXor_length, intToBytes_length]
      omega

theorem B_128 : Modes.g_B_128 = .bytes b128 := (rfl)

theorem B_64 : Modes.g_B_64 = .bytes b64 := (rfl)

/-- `_get_mac_key`. -/
theorem mac_key_ok (L n : Nat) (a : ModeAt cls c me cr kr W tl h) {v : Val} {d : Bytes} (e : bytesOf v h = some d)
    (hd : 0 < d.length) :
    ∃ w1 w2 l k1 k2, call package L (n + 3) "GOST34132015mac._get_mac_key" [.ref me, v] h =
        ok (.ref (h ++ l).length) (h ++ l ++ [.list [.ref w1, .ref w2]]) ∧
      Mac.getMacKey c.blockSize d = .ok (k1, k2) ∧ bytesOf (.ref w1) (h ++ l) = some k1 ∧ bytesOf (.ref w2) (h ++ l) = some k2 ∧
      h.length ≤ w1 ∧ h.length ≤ w2 := by
  rw [call_succ Fn.GOST34132015mac._get_mac_key]
  obtain ⟨l, o⟩ := a.inst
  have hb0 := block_size_ok L n a.hasBs
  have hbs : c.blockSize = 16 ∨ c.blockSize = 8 := by cases c <;> simp [CipherObj.blockSize]
  obtain ⟨vb, hvb, hb1, hrun⟩ : ∃ vb : Bytes, (if c.blockSize = 16 then b128 else if c.blockSize = 8 then b64 else []) = vb ∧
      0 < vb.length ∧ run (ctx L (n + 2)) GOST34132015mac.m__get_mac_key [.ref me, v] h =
        atEnd (execs (ctx L (n + 2)) [half "value_r" "key_1", half "key_1" "key_2", .ret (.list [.name "key_1", .name "key_2"])]
          ((((Env.empty.set "self" (.ref me)).set "value_r" v).set "value_b" (.bytes [])).set "value_b" (.bytes vb)) h) := by
    rw [run_body h rfl rfl]
    rcases hbs with hbs | hbs
    · rw [hbs] at hb0 ⊢
      refine ⟨b128, rfl, by decide, ?_⟩
      have f0 : call package L (n + 2) "GOST34132015.block_size" [.ref me] h = ok (.int 16) h := hb0
      unfold GOST34132015mac.m__get_mac_key atEnd
      py [o, a.mode.block_size, f0, decide_true, half, B_128]
      rfl
    · rw [hbs] at hb0 ⊢
      refine ⟨b64, rfl, by decide, ?_⟩
      have f0 : call package L (n + 2) "GOST34132015.block_size" [.ref me] h = ok (.int 8) h := hb0
      unfold GOST34132015mac.m__get_mac_key atEnd
      py [o, a.mode.block_size, f0, decide_true, decide_false, half, B_64, show ((8 : Int) = 16) = False by decide]
      rfl
  rw [hrun]
  unfold Mac.getMacKey
  simp only [hvb]
  obtain ⟨w1, l1, k1, i1, f1, d1, b1, hw1, hk1⟩ := half_ok L n (Or.inl ⟨rfl, rfl⟩) (env := ((((Env.empty.set "self" (.ref me)).set
    "value_r" v).set "value_b" (.bytes [])).set "value_b" (.bytes vb))) (b := vb) a (by py []) (by py []) (by py []) e hd
    [half "key_1" "key_2", .ret (.list [.name "key_1", .name "key_2"])]
  have x1 := (Ext.refl h).add l1
  obtain ⟨w2, l2, k2, i2, f2, d2, b2, hw2, hk2⟩ := half_ok L n (Or.inr ⟨rfl, rfl⟩) (env := ((((((Env.empty.set "self"
    (.ref me)).set "value_r" v).set "value_b" (.bytes [])).set "value_b" (.bytes vb)).set "int_value" i1).set "key_1" (.ref w1)))
    (b := vb) (a.ext x1) (by py []) (by py []) (by py []) b1 (hk1 hb1) [.ret (.list [.name "key_1", .name "key_2"])]
  rw [f1, f2]
  simp only [d1, ok_bind, d2]
  unfold atEnd
  py []
  refine ⟨w1, w2, l1 ++ l2, k1, k2, by rw [← List.append_assoc], rfl, ?_, ?_, hw1, Nat.le_trans x1.length hw2⟩
  · rw [← List.append_assoc]
    exact bytesOf_mono b1 l2
  · rw [← List.append_assoc]
    exact b2

/-! `update`. -/

/-- A value which is not an old byte array. -/
def Fresh (v : Val) (h : Heap) : Prop := ∀ r, v = .ref r → h.length ≤ r

/-- Every value is one of the values before or a new one. -/
def MacVals.Since (x' x : MacVals) (h : Heap) : Prop :=
  ∀ v ∈ x'.attrs.map (·.2), v ∈ x.attrs.map (·.2) ∨ Fresh v h

/-- What `update` does. -/
def Updates (o : Out Val) (h : Heap) (me cr kr : Nat) (x : MacVals) (r : Mac × Res Unit) : Prop :=
  match r.2 with
  | .ok _ => ∃ x' h', o = ok .none h' ∧ Frame [me] h h' ∧ x'.Since x h ∧ MacAt me cr kr x' r.1 h'
  | .error e => ∃ h', o = fail (exc e) h' ∧ Frame [kr] h h' ∧ MacAt me cr kr x r.1 h'

theorem MacVals.since {x x' : MacVals} {h : Heap} (h1 : x'.k1 = x.k1) (h2 : x'.k2 = x.k2) (h3 : Fresh x'.fin h)
    (h4 : Fresh x'.iter h) (h5 : x'.prev = x.cur ∨ Fresh x'.prev h) (h6 : Fresh x'.cur h) : x'.Since x h := by
  unfold MacVals.Since MacVals.attrs
  simp only [List.map_cons, List.map_nil, List.mem_cons, List.not_mem_nil, or_false, forall_eq_or_imp, forall_eq]
  refine ⟨Or.inl (Or.inl h1), Or.inl (Or.inr (Or.inl h2)), Or.inr h3, Or.inr h4, ?_, Or.inr h6⟩
  exact h5.imp (fun e => by simp [e]) id

theorem Fresh.le {v : Val} {h h' : Heap} (f : Fresh v h') (e : h.length ≤ h'.length) : Fresh v h :=
  fun r hr => Nat.le_trans e (f r hr)

theorem fresh_ref {r : Nat} {h : Heap} (e : h.length ≤ r) : Fresh (.ref r) h := fun _ h' => by cases h'; exact e

theorem pyRange_pred (m : Nat) : pyRange 0 ((m : Int) - 1) 1 = (List.range (m - 1)).map fun k : Nat => .int k := by
  cases m with
  | zero => rfl
  | succ m =>
    rw [show ((m + 1 : Nat) : Int) - 1 = (m : Nat) by omega, pyRange_up]
    rfl

theorem chain_eq (obj : CipherObj) (d : Bytes) (is : List Nat) (prev : Bytes) :
    Mac.chain obj d is prev = is.foldlM (fun p i => obj.encrypt (addXor p (getBlock obj.blockSize d i))) prev := by
  induction is generalizing prev with
  | nil => rfl
  | cons i is ih =>
    rw [Mac.chain, List.foldlM_cons]
    congr 1
    funext b
    exact ih b

/-- The object. -/
def macInst (cr o : Nat) (x : MacVals) : Obj := .inst "GOST34132015mac" (("_cipher_obj", .ref cr) :: ("oid", .ref o) :: x.attrs)

theorem mac_set {o : Nat} (m : ModeAt "GOST34132015mac" c me cr kr W x.attrs h) (g : h[me]? = some (macInst cr o x))
    (x' : MacVals) : ModeAt "GOST34132015mac" c me cr kr W x'.attrs (h.set me (macInst cr o x')) ∧
      (h.set me (macInst cr o x'))[me]? = some (macInst cr o x') ∧ Keeps [me] h (h.set me (macInst cr o x')) := by
  have g' := get_set_same (h := h) (r := me) (macInst cr o x') (by rw [g]; rfl)
  have k : Keeps [me] h (h.set me (macInst cr o x')) := keeps_set g
  exact ⟨m.upd g k.frame g', g', k⟩

/-- The last statement of `update`. -/
def finStmt : Stmt :=
  .assign (.attr (.name "self") "_fin_buff") (.slice (.name "data") (some (.bin .mul (.attr (.name "self") "block_size")
    (.bin .sub (.meth (.name "self") "_get_num_block" [.name "data"]) (.int 1)))) none)

theorem fin_ok (L n : Nat) {env : Env} (m : ModeAt "GOST34132015mac" c me cr kr [] x.attrs h)
    (e1 : env "self" = some (.ref me)) {w0 : Val} (e2 : env "data" = some w0) {D : Bytes} (b : bytesOf w0 h = some D) :
    ∃ w h', exec (ctx L (n + 5)) finStmt env h = ok (.next env) h' ∧
      ModeAt "GOST34132015mac" c me cr kr [] { x with fin := w : MacVals }.attrs h' ∧ Keeps [me] h h' ∧
      bytesOf w h' = some (pyFrom D ((c.blockSize : Int) * ((getNumBlock c.blockSize D : Int) - 1))) ∧ Fresh w h := by
  obtain ⟨_, o, g, q⟩ := id m
  have hbs := block_size_ok L (n + 3) m.hasBs
  have hn := num_block_ok L (n + 2) m b
  obtain ⟨w, l, f, b2, hw⟩ := slice_new b (some ((c.blockSize : Int) * ((getNumBlock c.blockSize D : Int) - 1))) none
  have x1 := (Ext.refl h).add l
  have g1 := x1.get g
  have g' := g
  unfold MacVals.attrs at g'
  unfold finStmt
  py [e1, e2, g', hbs, hn, f]
  refine ⟨w, _, rfl, ?_, (x1.keeps _).trans (keeps_set (x1.get g')), ?_, hw⟩
  · exact (m.ext x1).upd g1 (keeps_set g1).frame (get_set_same _ (by rw [g1]; rfl))
  · exact (keeps_set (x1.get g')).bytes b2

theorem mac_update (L n : Nat) (a : MacAt me cr kr x s h) {v : Val} :
    Updates (call package L (n + 6) "GOST34132015mac.update" [.ref me, v] h) h me cr kr x (s.update (pyVal v h)) := by
  rw [call_succ Fn.GOST34132015mac.update]
  unfold Mac.update
  rw [pyVal_data]
  obtain ⟨o, l1, g, -⟩ := a.mode.get
  cases e : bytesOf v h with
  | none =>
    obtain ⟨w, h', f, k, a'⟩ := clear_ok L (n + 2) a.mode (by simp)
    py [GOST34132015mac.m_update, e, g, a.mode.mode.clear, f]
    exact ⟨h', rfl, k, a.clear k a'⟩
  | some d =>
    simp only
    obtain ⟨w0, l0, f0, b0, hw0⟩ := add_new a.bytes.iter e
    have x0 := ((Ext.refl h).add l0).add [.bytearray []]
    have a0 := a.ext x0
    have b0' := bytesOf_mono b0 [.bytearray []]
    have hn := num_block_ok L (n + 2) a0.mode b0'
    generalize s.iterBuf ++ d = D at *
    have hga : ∀ {h' : Heap}, Ext h h' → h'[me]? = some (.inst "GOST34132015mac" (("_cipher_obj", .ref cr) :: ("oid", .ref o) ::
        x.attrs)) := fun x => x.get g
    unfold MacVals.attrs at g hga
    py [GOST34132015mac.m_update, e, g, f0, hn]
    rw [pyRange_pred]
    generalize hl : forLoop _ _ _ _ _ = lo
    have := for_foldlM _ hl (fun p i => s.obj.encrypt (addXor p (getBlock s.obj.blockSize D i))) (fun k p env h' =>
        env "self" = some (.ref me) ∧ env "data" = some w0 ∧ Ext h h' ∧ bytesOf w0 h' = some D ∧
        ∃ pv, env "prev_block" = some pv ∧ bytesOf pv h' = some p ∧ (pv = x.cur ∨ Fresh pv h)) (Ext h) (s := s.curMac)
      (by
        rintro k i p env h1 - ⟨e1, e2, x1, b1, pv, e3, b2, hpv⟩
        have a1 := a.ext x1
        obtain ⟨o, l2, g1, g2⟩ := a1.mode.get
        obtain ⟨w2, l3, f2, b3, -⟩ := get_block_ok L (n + 2) a1.mode b1 i
        obtain ⟨w5, l5, f5, hw5, b5⟩ := (add_xor_ok L (n + 4) (bytesOf_mono b2 l3) b3).elim
        have x5 := ((Ext.refl h1).add l3).add l5
        have f6 := enc_ok L n (a1.mode.ext x5) b5
        generalize s.obj.encrypt (addXor p (getBlock s.obj.blockSize D i)) = res at f6 ⊢
        rcases f6.cases with ⟨y, w6, l6, rfl, f6', hw6, b6⟩ | ⟨y, l6, rfl, f6'⟩
        · have x6 := x5.add l6
          have := (x1.trans x5).length
          py [e1, e2, e3, g1, g2, f2, f5, meth_enc, f6']
          exact ⟨_, _, rfl, _, rfl, by py [e1], by py [e2], x1.trans x6, x6.bytesOf b1, .ref w6, by py [], b6,
            Or.inr fun r hr => by cases hr; omega⟩
        · py [e1, e2, e3, g1, g2, f2, f5, meth_enc, f6']
          exact ⟨_, rfl, x1.trans (x5.add l6)⟩)
      ⟨by py [], by py [], x0, b0', x.cur, by py [], x0.bytesOf a.bytes.cur, Or.inl rfl⟩
    rw [← chain_eq] at this
    generalize Mac.chain s.obj D _ s.curMac = res at this ⊢
    cases res with
    | error y =>
      obtain ⟨h', rfl, xe⟩ := this
      py []
      exact ⟨h', rfl, xe.frame _, a.ext xe⟩
    | ok p =>
      obtain ⟨_, h1, rfl, env, rfl, e1, e2, x1, b1, pv, e3, b2, hpv⟩ := this
      simp only
      have a1 := a.ext x1
      have g1 := hga x1
      obtain ⟨_, _, _, g2⟩ := a1.mode.get
      have hp := pad_size_ok L (n + 2) a1.mode b1
      have hbs := block_size_ok L (n + 3) a1.mode.hasBs
      have hme := get_lt g
      generalize hfin : Stmt.assign (.attr (.name "self") "_fin_buff") _ = fin
      have hfin' : fin = finStmt := hfin.symm
      by_cases hpad : getPadSize s.obj.blockSize D = 0
      · have hpad' : ((getPadSize s.obj.blockSize D : Int) = 0) = True := by simp only [eq_iff_iff, iff_true]; omega
        rw [if_pos hpad]
        obtain ⟨w2, l3, f2, b3, -⟩ := slice_new b1 (some ((D.length : Int) - s.obj.blockSize)) (some (D.length : Int))
        obtain ⟨w5, l5, f5, hw5, b5⟩ := (add_xor_ok L (n + 4) (bytesOf_mono b2 l3) b3).elim
        have x5 := ((Ext.refl h1).add l3).add l5
        have f6 := enc_ok L n (a1.mode.ext x5) b5
        simp only [cut] at f6
        generalize s.obj.encrypt (addXor p (pySlice D _ _)) = res at f6 ⊢
        rcases f6.cases with ⟨y, w6, l6, rfl, f6', hw6, b6⟩ | ⟨y, l6, rfl, f6'⟩
        · have x6 := x5.add l6
          have g6 := hga (x1.trans x6)
          have m6 := (a.ext (x1.trans x6)).mode
          have a6 := (a.ext (x1.trans x6)).bytes
          have hl := (x1.trans x5).length
          have b6' := x6.bytesOf b2
          have b1' := x6.bytesOf b1
          py [e1, e2, e3, g1, g2, hp, hpad', decide_true, b1, hbs, f2, f5, meth_enc, f6']
          obtain ⟨m7, g7, k7⟩ := mac_set m6 g6 { x with cur := .ref w6 }
          obtain ⟨m8, g8, k8⟩ := mac_set m7 g7 { x with cur := .ref w6, prev := pv }
          generalize hH8 : List.set _ me _ = H8 at m8 g8 k8
          have x9 := (Ext.refl H8).add [.bytearray []]
          obtain ⟨m9, g9, k9⟩ := mac_set (m8.ext x9) (x9.get g8) { x with cur := .ref w6, prev := pv, iter := .ref H8.length }
          have k := ((((x9.keeps _).trans k9)))
          have k67 := k7.trans k8
          obtain ⟨w, H, ff, mf, kf, bf, fr⟩ := fin_ok L n (env := env.set "block" (.ref w6)) m9 (by py [e1]) (by py [e2])
            ((k67.trans k).bytes b1')
          simp only [macInst, MacVals.attrs] at hH8 ff
          rw [hH8, hfin', ff]
          py []
          have kk := (k67.trans k).trans kf
          have hl8 := k67.length
          simp only [List.length_append] at hl8 hl
          refine ⟨⟨x.k1, x.k2, w, .ref H8.length, pv, .ref w6⟩, H, rfl, ((x1.trans x6).keeps _ |>.trans kk).frame, MacVals.since rfl rfl (fr.le ?_) (fresh_ref ?_) hpv
            (fresh_ref ?_), mf, kk.bytes a6.k1, kk.bytes a6.k2, bf, (k9.trans kf).bytes (bytesOf_last _ H8), kk.bytes b6',
            kk.bytes b6⟩
          · simp
            omega
          · omega
          · simp at hw6
            omega
        · py [e1, e2, e3, g1, g2, hp, hpad', decide_true, b1, hbs, f2, f5, meth_enc, f6']
          exact ⟨_, rfl, (x1.trans (x5.add l6)).frame _, a.ext (x1.trans (x5.add l6))⟩
      · have hpad' : ((getPadSize s.obj.blockSize D : Int) = 0) = False := by simp only [eq_iff_iff, iff_false]; omega
        rw [if_neg hpad]
        obtain ⟨w2, l3, f2, b3, -⟩ := slice_new b1 (some ((D.length : Int) - 2 * s.obj.blockSize + getPadSize s.obj.blockSize D))
          (some ((D.length : Int) - s.obj.blockSize + getPadSize s.obj.blockSize D))
        obtain ⟨w5, l5, f5, hw5, b5⟩ := (add_xor_ok L (n + 4) (bytesOf_mono b2 l3) b3).elim
        have x5 := ((Ext.refl h1).add l3).add l5
        have f6 := enc_ok L n (a1.mode.ext x5) b5
        simp only [cut] at f6
        generalize s.obj.encrypt (addXor p (pySlice D _ _)) = res at f6 ⊢
        rcases f6.cases with ⟨y, w6, l6, rfl, f6', hw6, b6⟩ | ⟨y, l6, rfl, f6'⟩
        · have x6 := x5.add l6
          have g6 := hga (x1.trans x6)
          have m6 := (a.ext (x1.trans x6)).mode
          have a6 := (a.ext (x1.trans x6)).bytes
          have hl := (x1.trans x5).length
          have b1' := x6.bytesOf b1
          generalize hif : Stmt.assign (.attr (.name "self") "_iter_buf") _ = ifin
          py [e1, e2, e3, g1, g2, hp, hpad', decide_false, b1, hbs, f2, f5, meth_enc, f6']
          obtain ⟨m7, g7, k7⟩ := mac_set m6 g6 { x with cur := .ref w6 }
          obtain ⟨m8, g8, k8⟩ := mac_set m7 g7 { x with cur := .ref w6, prev := .ref w6 }
          generalize hH8 : List.set _ me _ = H8 at m8 g8 k8
          have k67 := k7.trans k8
          obtain ⟨w9, l9, f9, b9, fr9⟩ := slice_new (k67.bytes b1') (some ((D.length : Int) - s.obj.blockSize +
            getPadSize s.obj.blockSize D)) none
          have x9 := (Ext.refl H8).add l9
          obtain ⟨m9, g9, k9⟩ := mac_set (m8.ext x9) (x9.get g8) { x with cur := .ref w6, prev := .ref w6, iter := w9 }
          have k := ((((x9.keeps _).trans k9)))
          have hp8 := pad_size_ok L (n + 2) m8 (k67.bytes b1')
          have hbs8 := block_size_ok L (n + 3) m8.hasBs
          have b8 := k67.bytes b1'
          simp only [macInst, MacVals.attrs] at hH8 g8
          rw [hH8]
          subst hif
          generalize he : Env.set _ "block" _ = env'
          have e1' : env' "self" = some (.ref me) := by rw [← he]; py [e1]
          have e2' : env' "data" = some w0 := by rw [← he]; py [e2]
          clear he
          obtain ⟨w, H, ff, mf, kf, bf, fr⟩ := fin_ok L n (env := env') m9 e1' e2' ((k67.trans k).bytes b1')
          simp only [macInst, MacVals.attrs] at ff
          py [e1', e2', g8, hp8, hbs8, b8, f9]
          rw [hfin', ff]
          py []
          have kk := (k67.trans k).trans kf
          have hl8 := k67.length
          simp only [List.length_append] at hl8 hl
          refine ⟨⟨x.k1, x.k2, w, w9, .ref w6, .ref w6⟩, H, rfl, ((x1.trans x6).keeps _ |>.trans kk).frame, MacVals.since rfl rfl
            (fr.le ?_) (Fresh.le fr9 ?_) (Or.inr (fresh_ref ?_)) (fresh_ref ?_), mf, kk.bytes a6.k1, kk.bytes a6.k2, bf,
            (k9.trans kf).bytes b9, kk.bytes b6, kk.bytes b6⟩
          · simp
            omega
          · omega
          · simp at hw6
            omega
          · simp at hw6
            omega
        · py [e1, e2, e3, g1, g2, hp, hpad', decide_false, b1, hbs, f2, f5, meth_enc, f6']
          exact ⟨_, rfl, (x1.trans (x5.add l6)).frame _, a.ext (x1.trans (x5.add l6))⟩

end ModesSrc

end Gost.Src
