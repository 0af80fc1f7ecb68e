import Verif.SourceProofs.ModesCopy
import Verif.Proofs.Reach

/-! The constructor of the mode MAC. -/

namespace Gost.Src

namespace ModesSrc

variable {cls : String} {c : CipherObj} {me cr kr : Nat} {W : List Nat} {tl : List (String × Val)} {h : Heap}

theorem isEmpty_data (v : PyVal) : v.isEmpty = (v.data? == some []) := by
  cases v with
  | other => rfl
  | bytes b => cases b <;> rfl
  | bytearray b => cases b <;> rfl

/-- The property `block_size`. -/
def bsFn : CipherObj → String
  | .kuz _ => "GOST34122015Kuznechik.block_size"
  | .magma _ => "GOST34122015Magma.block_size"

theorem prop_bs (c : CipherObj) : package.property (className c) "block_size" = some (bsFn c) := by
  cases c <;> py [className, bsFn]

theorem bs_ok (L n : Nat) (a : ModeAt cls c me cr kr W tl h) :
    call package L (n + 1) (bsFn c) [.ref cr] h = ok (.int c.blockSize) h := by
  have hb := cipher_block_size L n a.rep
  obtain ⟨o1, l1, g, g2⟩ := a.get
  rw [getAttr_ref, g2] at hb
  simp only [ctx_property, ctx_call, prop_bs] at hb
  exact hb

theorem binop_zeros' (n : Int) (h : Heap) :
    binop .mul (.int n) (.bytes [0]) h = ok (.bytes (zeros n)) h := by
  rw [← RandomSrc.binop_zeros n h]
  rfl

/-- The end of the constructor. -/
def macRest : List Stmt := GOST34132015mac.m___init__.body.drop 3

/-- What it does. -/
def Rest (o : Out Val) (r : Res Mac) (me cr kr : Nat) (h h0 : Heap) : Prop :=
  match r with
  | .ok s => ∃ h', o = ok .none h' ∧ Frame [me] h h' ∧ ∃ x, MacAt me cr kr x s h' ∧ ∀ w ∈ x.attrs.map (·.2), Fresh w h0
  | .error e => ∃ h', o = fail (exc e) h' ∧ Frame [me, kr] h h'

theorem mac_rest (L n : Nat) {env : Env} {a1 a2 dv : Val} {y1 y2 : Bytes} (h0 : Heap)
    (m : ModeAt "GOST34132015mac" c me cr kr [] [("_key_1", a1), ("_key_2", a2)] h)
    (b1 : bytesOf a1 h = some y1) (b2 : bytesOf a2 h = some y2) (q1 : Fresh a1 h0) (q2 : Fresh a2 h0)
    (e1 : env "self" = some (.ref me)) (e2 : env "data" = some dv) (hk : Known dv h) (hl : h0.length ≤ h.length) (hm : dv ≠ .ref me) :
    Rest (atEnd (execs (ctx L (n + 6)) macRest env h))
      (let s : Mac := ⟨c, y1, y2, [], [], zeros c.blockSize, zeros c.blockSize⟩
       if (pyVal dv h).isEmpty then .ok s
       else
        match s.update (pyVal dv h) with
        | (s, .ok ()) => .ok s
        | (_, .error e) => .error e) me cr kr h h0 := by
  obtain ⟨o1, l1, g, g2⟩ := m.get
  unfold macRest GOST34132015mac.m___init__
  simp only [List.drop_succ_cons, List.drop_zero]
  unfold atEnd
  py [e1]
  upd (get_mono g _) with X1 g1 k1 t1
  py [e1]
  upd (get_mono g1 _) with X2 g3 k2 t2
  have m1 := (m.ext ((Ext.refl h).add [.bytearray []])).upd (get_mono g _) k1.frame g1
  have m2 := (m1.ext ((Ext.refl X1).add [.bytearray []])).upd (get_mono g1 _) k2.frame g3
  obtain ⟨_, _, -, g4⟩ := m2.get
  have hb2 := bs_ok L (n + 5) m2
  py [e1, g3, g4, prop_bs, hb2]
  upd (get_mono g3 _) with X3 g5 k3 t3
  have m3 := (m2.ext ((Ext.refl X2).add [.bytearray (List.replicate c.blockSize 0)])).upd (get_mono g3 _) k3.frame g5
  obtain ⟨_, _, -, g6⟩ := m3.get
  have hb3 := bs_ok L (n + 5) m3
  py [e1, g5, g6, prop_bs, hb3]
  upd (get_mono g5 _) with X4 g7 k4 t4
  have m4 := (m3.ext ((Ext.refl X3).add [.bytearray (List.replicate c.blockSize 0)])).upd (get_mono g5 _) k4.frame g7
  have K4 : Keeps [me] (X3 ++ [.bytearray (List.replicate c.blockSize 0)]) X4 := k4
  have K3 := ((((Ext.refl X3).add [.bytearray (List.replicate c.blockSize 0)]).keeps [me]).trans k4)
  have K2' := (k3.trans K3)
  have K2 := (((Ext.refl X2).add [.bytearray (List.replicate c.blockSize 0)]).keeps [me]).trans K2'
  have K1' := k2.trans K2
  have K1 := (((Ext.refl X1).add [.bytearray []]).keeps [me]).trans K1'
  have K0' := k1.trans K1
  have K0 := (((Ext.refl h).add [.bytearray []]).keeps [me]).trans K0'
  have ham : Apart [me] dv := by
    rintro r rfl hr
    simp only [List.mem_singleton] at hr
    exact hm (hr ▸ rfl)
  have hz : zeros (c.blockSize : Int) = List.replicate c.blockSize 0 := by simp [zeros]
  have hx : MacAt me cr kr ⟨a1, a2, .ref h.length, .ref X1.length, .ref X2.length, .ref X3.length⟩
      ⟨c, y1, y2, [], [], zeros c.blockSize, zeros c.blockSize⟩ X4 := by
    rw [hz]
    exact ⟨m4, K0.bytes b1, K0.bytes b2, K0'.bytes (bytesOf_last _ _), K1'.bytes (bytesOf_last _ _), K2'.bytes (bytesOf_last _ _),
      K4.bytes (bytesOf_last _ _)⟩
  have x5 := (Ext.refl X4).add [.bytearray []]
  have hd := (hk.frame K0.frame ham)
  have hd5 := hk.frame (K0.frame.add [.bytearray []]) ham
  have hp5 := pyVal_frame hk (K0.frame.add [.bytearray []]) ham
  have h5 := mac_update L n (hx.ext x5) (v := dv)
  have hl0 : h0.length ≤ X4.length := Nat.le_trans hl K0.length
  have hfr : ∀ w ∈ [("_key_1", a1), ("_key_2", a2), ("_fin_buff", .ref h.length), ("_iter_buf", Val.ref X1.length),
      ("_prev_mac", .ref X2.length), ("_cur_mac", .ref X3.length)].map (·.2), Fresh w h0 := by
    simp only [List.map_cons, List.map_nil, List.mem_cons, List.not_mem_nil, or_false, forall_eq_or_imp, forall_eq]
    simp only [List.length_append, List.length_singleton] at t1 t2 t3
    exact ⟨q1, q2, fresh_ref (by omega), fresh_ref (by omega), fresh_ref (by omega), fresh_ref (by omega)⟩
  simp only [isEmpty_data, pyVal_data]
  rw [hp5] at h5
  by_cases hz : bytesOf dv h = some []
  · have hz' : (bytesOf dv h == some []) = true := by simp [hz]
    rw [if_pos hz']
    py [e2, hd5, hz', Bool.not_true]
    exact ⟨_, rfl, K0.frame.add _, _, hx.ext x5, hfr⟩
  · have hz' : (bytesOf dv h == some []) = false := by simpa using hz
    rw [if_neg (by rw [hz']; simp)]
    unfold Updates at h5
    generalize Mac.update _ _ = res at h5 ⊢
    obtain ⟨s, res⟩ := res
    cases res with
    | ok u =>
      obtain ⟨x', h', f', k', si, a'⟩ := h5
      py [e1, e2, hd5, hz', Bool.not_false, g7, f']
      refine ⟨_, rfl, (K0.frame.add _).trans k', x', a', fun w hw => ?_⟩
      rcases si w hw with h1 | h1
      · exact hfr w h1
      · exact h1.le (by simp; omega)
    | error e =>
      obtain ⟨h', f', k', -⟩ := h5
      py [e1, e2, hd5, hz', Bool.not_false, g7, f']
      exact ⟨_, rfl, ((K0.frame.add _).mono (by simp)).trans (k'.mono (by simp))⟩

theorem mac_init (L n : Nat) (o : h[me]? = some (.inst "GOST34132015mac" [])) (a : String) (v : Val) {dv : Val}
    (hk : Known dv h) (hm : dv ≠ .ref me) :
    Init (call package L (n + 7) "GOST34132015mac.__init__" [.ref me, .str a, v, dv] h)
      (Mac.init a (pyVal v h) (pyVal dv h)) me h
      (fun cr kr s h' => ∃ x, MacAt me cr kr x s h' ∧ ∀ w ∈ x.attrs.map (·.2), Fresh w h) := by
  rw [call_succ Fn.GOST34132015mac.__init__, run_body h rfl rfl]
  have p : IsMode "GOST34132015mac" := by simp [IsMode]
  have := base_init L (n + 1) o p grows_nil a v
  unfold Mac.init
  have hgood : ∀ {c}, baseInit a (pyVal v h) = .ok c → c.Good := fun e => baseInit_good e
  generalize baseInit a (pyVal v h) = res at this hgood ⊢
  rw [show GOST34132015mac.m___init__.body = .expr (.call "GOST34132015.__init__" [.name "self", .name "algorithm", .name "key"]) ::
     .assign (.name "value_r") (.meth (.attr (.name "self") "_cipher_obj") "encrypt" [.builtin
         "bytearray" [.bin .mul (.attr (.attr (.name "self") "_cipher_obj") "block_size") (.bytes
         [0])]]) ::
     .assign (.attrs [(.name "self", "_key_1"), (.name "self", "_key_2")]) (.meth (.name "self")
         "_get_mac_key" [.name "value_r"]) :: macRest from rfl]
  cases res with
  | error e =>
    obtain ⟨l, f⟩ := this
    rw [error_bind]
    unfold atEnd
    py [f]
    exact ⟨_, rfl, ((Ext.refl h).add l).keeps _⟩
  | ok c =>
    obtain ⟨cr, kr, H, f, k, hcr, hkr, m⟩ := this
    rw [ok_bind]
    obtain ⟨o1, l1, g, g2⟩ := m.get
    have hb := bs_ok L (n + 5) m
    have x1 := (Ext.refl H).add [.bytearray (zeros c.blockSize)]
    have f1 := enc_ok L (n + 1) (m.ext x1) (bytesOf_last _ _)
    have hi := (hgood rfl).implements
    have hz : (zeros (c.blockSize : Int)).length = c.blockSize := by simp [zeros]
    rw [hi.enc _ hz] at f1 ⊢
    have hlen := hi.enc_len _ hz
    rw [ok_bind]
    obtain ⟨w1, l2, f1', hw1, b1⟩ := NewBytes.elim f1
    have x2 := x1.add l2
    have hbs : 0 < c.blockSize := m.hasBs.pos
    obtain ⟨w3, w4, l3, k1, k2, f3, d3, b3, b4, hw3, hw4⟩ := mac_key_ok L (n + 3) (m.ext x2) b1 (by omega)
    rw [d3, ok_bind]
    have x3 := (x2.add l3).add [.list [.ref w3, .ref w4]]
    generalize hr : macRest = rest
    py [f, g, g2, prop_bs, hb, binop_zeros', meth_enc, f1', f3]
    have g3 := x3.get g
    have m3 := m.ext x3
    have b3' := bytesOf_mono b3 [.list [.ref w3, .ref w4]]
    have b4' := bytesOf_mono b4 [.list [.ref w3, .ref w4]]
    have hX := x3.length
    have hl := x2.length
    generalize H ++ [Obj.bytearray (zeros c.blockSize)] ++ l2 ++ l3 ++ [Obj.list [.ref w3, .ref w4]] = X at *
    py [assign.assignAttrs]
    upd g3 with X1 p1 q1 t1
    py [assign.assignAttrs]
    upd p1 with X2 p2 q2 t2
    have m4 := (m3.upd g3 q1.frame p1).upd p1 q2.frame p2
    have kk := k.trans ((x3.keeps _).trans (q1.trans q2))
    have ham : Apart [me] dv := by
      rintro r rfl hr
      simp only [List.mem_singleton] at hr
      exact hm (hr ▸ rfl)
    have := mac_rest L n (env := ((((Env.empty.set "self" (.ref me)).set "algorithm" (.str a)).set "key" v).set "data" dv).set "value_r"
            (.ref w1)) h m4 (q2.bytes (q1.bytes b3')) (q2.bytes (q1.bytes b4')) (fresh_ref (Nat.le_trans (Nat.le_trans k.length hl) hw3))
            (fresh_ref (Nat.le_trans (Nat.le_trans k.length hl) hw4)) (by py []) (by py []) (hk.le kk.length) kk.length hm
    rw [pyVal_frame hk kk.frame ham] at this
    subst hr
    simp only [pure_ok]
    simp only at this
    generalize (if (pyVal dv h).isEmpty = true then _ else _ : Res Mac) = res at this ⊢
    cases res with
    | ok s =>
      obtain ⟨h', f', k', a'⟩ := this
      exact ⟨cr, kr, h', f', keeps_of_frame (kk.frame.trans k') (by simp [o, noBytes]), hcr, hkr, a'⟩
    | error e =>
      obtain ⟨h', f', k'⟩ := this
      exact ⟨h', f', keeps_of_frame (kk.frame.then k' (by simp; omega)) (by simp [o, noBytes])⟩

theorem New.imp {σ : Type} {o : Out Val} {r : Res σ} {At At' : Nat → Nat → σ → Heap → Prop} (a : New o r h At)
    (i : ∀ cr kr s h', At cr kr s h' → At' cr kr s h') : New o r h At' := by
  cases r with
  | ok s =>
    obtain ⟨cr, kr, h', e, x, h1, h2, a⟩ := a
    exact ⟨cr, kr, h', e, x, h1, h2, i _ _ _ _ a⟩
  | error e => exact a

theorem mac_new (L n : Nat) {h : Heap} (a : String) {v dv : Val} (hv : Known v h) (hi : Known dv h) :
    New (instantiate (ctx L (n + 7)) "GOST34132015mac" [.str a, v, dv] h)
      (Mac.init a (pyVal v h) (pyVal dv h)) h
      (fun cr kr s h' => ∃ x, MacAt h.length cr kr x s h' ∧ ∀ w ∈ x.attrs.map (·.2), Fresh w h) := by
  unfold instantiate
  py []
  have := mac_init L n (get_last h (.inst "GOST34132015mac" [])) a v (hi.le (by simp)) hi.ne_length
  rw [hv.pyVal, hi.pyVal] at this
  refine this.new.imp ?_
  rintro cr kr s h' ⟨x, a, b⟩
  exact ⟨x, a, fun w hw => (b w hw).le (by simp)⟩

end ModesSrc

end Gost.Src
