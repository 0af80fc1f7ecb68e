import Verif.SourceProofs.ModesMac

/-! `deepcopy` of a cipher object and of a MAC object. -/

namespace Gost.Src

open Streebog (OidAt copy_inst copy_oid copy_bytes)

/-- The byte arrays of a list. -/
theorem copy_bytesList (m : Nat) {vs : List Val} {h : Heap} {ks : List Bytes} (b : BytesList vs h ks) :
    ∃ ws l, evalComp (copyVal (m + 1)) vs h = ok ws (h ++ l) ∧ BytesList ws (h ++ l) ks := by
  induction vs generalizing h ks with
  | nil => exact ⟨[], [], by rw [List.append_nil]; rfl, by rw [List.append_nil]; exact b⟩
  | cons v vs ih =>
    cases ks with
    | nil => simp [BytesList] at b
    | cons k ks =>
      unfold BytesList at b
      rw [List.map_cons, List.map_cons] at b
      obtain ⟨b1, b2⟩ := List.cons.inj b
      obtain ⟨w, l, f, e⟩ := HmacSrc.copy_key m b1
      obtain ⟨ws, l2, f2, e2⟩ := ih (h := h ++ l) (ks := ks) (BytesList.mono b2 l)
      refine ⟨w :: ws, l ++ l2, ?_, ?_⟩
      · rw [evalComp, f, andThen_ok, f2, andThen_ok, List.append_assoc]
      · rw [← List.append_assoc]
        unfold BytesList at e2 ⊢
        rw [List.map_cons, List.map_cons, e2, bytesOf_mono e l2]

theorem copy_list (m : Nat) {r : Nat} {vs : List Val} {h : Heap} {ks : List Bytes} (e : h[r]? = some (.list vs))
    (b : BytesList vs h ks) :
    ∃ ws l, copyVal (m + 2) (.ref r) h = ok (.ref (h ++ l).length) (h ++ l ++ [.list ws]) ∧ BytesList ws (h ++ l) ks := by
  obtain ⟨ws, l, f, e2⟩ := copy_bytesList m b
  exact ⟨ws, l, by rw [copyVal, e]; simp only; rw [f, andThen_ok]; rfl, e2⟩

/-- The copy of a cipher object. -/
theorem copy_cipher (m : Nat) {c : CipherObj} {me kr o : Nat} {W : List Nat} {h : Heap} (a : CipherAt c me kr o W h) :
    ∃ me' kr' o' h', copyVal (m + 3) (.ref me) h = ok (.ref me') h' ∧ Ext h h' ∧ h.length ≤ me' ∧ h.length ≤ kr' ∧
      CipherAt c me' kr' o' [] h' := by
  obtain ⟨k, g, hk⟩ := a.obj
  obtain ⟨vs, g1, b1, -⟩ := a.keys
  rw [copy_inst (m + 2) g]
  cases c with
  | kuz ks =>
    obtain ⟨-, us, cs, g2, b2, -⟩ := hk
    obtain ⟨ws2, l2, f2, e2⟩ := copy_list m g2 b2
    have x2 := ((Ext.refl h).add l2).add [.list ws2]
    obtain ⟨ws1, l1, f1, e1⟩ := copy_list m (x2.get g1) (x2.bytesList b1)
    have x1 := (x2.add l1).add [.list ws1]
    have f3 := copy_oid m (x1.get a.oid)
    simp only [cipherAttrs, List.map_cons, List.map_nil, evalComp, f2, andThen_ok, f1, f3, alloc]
    have x3 := x1.add [.inst "ObjectIdentifier" [("_oid_str", .str (cipherOid (.kuz ks)))]]
    have r3 := get_last (h ++ l2 ++ [Obj.list ws2] ++ l1 ++ [Obj.list ws1])
      (.inst "ObjectIdentifier" [("_oid_str", .str (cipherOid (.kuz ks)))])
    have r1 := get_last (h ++ l2 ++ [Obj.list ws2] ++ l1) (.list ws1)
    have r2 := get_last (h ++ l2) (.list ws2)
    refine ⟨_, (h ++ l2 ++ [Obj.list ws2] ++ l1).length, (h ++ l2 ++ [Obj.list ws2] ++ l1 ++ [Obj.list ws1]).length, _, rfl,
      x3.add _, x3.length, (x2.add l1).length, ⟨(h ++ l2).length, get_last _ _, ?_, ws2, cs, ?_, ?_, by simp⟩, ⟨ws1, ?_, ?_, by simp⟩, ?_,
      a.count⟩
    · simp
    · exact get_mono (get_mono (get_mono (get_mono r2 _) _) _) _
    · exact ((((e2.mono _).mono _).mono _).mono _).mono _
    · exact get_mono (get_mono r1 _) _
    · exact ((e1.mono _).mono _).mono _
    · exact get_mono r3 _
  | magma ks =>
    have f3 := copy_oid m a.oid
    have x3 := (Ext.refl h).add [.inst "ObjectIdentifier" [("_oid_str", .str (cipherOid (.magma ks)))]]
    obtain ⟨ws1, l1, f1, e1⟩ := copy_list m (x3.get g1) (x3.bytesList b1)
    have x1 := (x3.add l1).add [.list ws1]
    simp only [cipherAttrs, List.map_cons, List.map_nil, evalComp, f3, andThen_ok, f1, alloc]
    have r3 := get_last h (.inst "ObjectIdentifier" [("_oid_str", .str (cipherOid (.magma ks)))])
    have r1 := get_last (h ++ [.inst "ObjectIdentifier" [("_oid_str", .str (cipherOid (.magma ks)))]] ++ l1) (.list ws1)
    refine ⟨_, (h ++ [Obj.inst "ObjectIdentifier" [("_oid_str", .str (cipherOid (.magma ks)))]] ++ l1).length, h.length, _, rfl,
      x1.add _, x1.length, (x3.add l1).length, ⟨0, get_last _ _, trivial⟩, ⟨ws1, ?_, ?_, by simp⟩, ?_, a.count⟩
    · exact get_mono r1 _
    · exact (e1.mono _).mono _
    · exact get_mono (get_mono (get_mono r3 _) _) _

namespace ModesSrc

/-- The copy of a MAC object. -/
theorem copy_mac (m : Nat) {me cr kr : Nat} {x : MacVals} {s : Mac} {h : Heap} (a : MacAt me cr kr x s h) :
    ∃ me' cr' kr' x' h', copyVal (m + 4) (.ref me) h = ok (.ref me') h' ∧ Ext h h' ∧ h.length ≤ me' ∧ h.length ≤ kr' ∧
      MacAt me' cr' kr' x' s h' := by
  obtain ⟨p, o, g, ho, o', q⟩ := a.mode
  obtain ⟨c1, k1, o1, h1, f1, x1, -, hk, q1⟩ := copy_cipher m q
  have f2 := copy_oid (m + 1) (x1.get ho)
  have x2 := x1.add [.inst "ObjectIdentifier" [("_oid_str", .str (cipherOid s.obj))]]
  obtain ⟨v3, l3, f3, b3⟩ := HmacSrc.copy_key (m + 2) (x2.bytesOf a.bytes.k1)
  have x3 := x2.add l3
  obtain ⟨v4, l4, f4, b4⟩ := HmacSrc.copy_key (m + 2) (x3.bytesOf a.bytes.k2)
  have x4 := x3.add l4
  obtain ⟨v5, l5, f5, b5⟩ := HmacSrc.copy_key (m + 2) (x4.bytesOf a.bytes.fin)
  have x5 := x4.add l5
  obtain ⟨v6, l6, f6, b6⟩ := HmacSrc.copy_key (m + 2) (x5.bytesOf a.bytes.iter)
  have x6 := x5.add l6
  obtain ⟨v7, l7, f7, b7⟩ := HmacSrc.copy_key (m + 2) (x6.bytesOf a.bytes.prev)
  have x7 := x6.add l7
  obtain ⟨v8, l8, f8, b8⟩ := HmacSrc.copy_key (m + 2) (x7.bytesOf a.bytes.cur)
  have x8 := x7.add l8
  rw [copy_inst (m + 3) g]
  simp only [MacVals.attrs, List.map_cons, List.map_nil, evalComp, f1, f2, f3, f4, f5, f6, f7, f8, andThen_ok, alloc]
  have y8 := (((((((Ext.refl h1).add [.inst "ObjectIdentifier" [("_oid_str", .str (cipherOid s.obj))]]).add l3).add l4).add
    l5).add l6).add l7).add l8
  have y3 := ((((((Ext.refl _).add l4).add l5).add l6).add l7).add l8).bytesOf b3
  have y4 := (((((Ext.refl _).add l5).add l6).add l7).add l8).bytesOf b4
  have y5 := ((((Ext.refl _).add l6).add l7).add l8).bytesOf b5
  have y6 := (((Ext.refl _).add l7).add l8).bytesOf b6
  have y7 := ((Ext.refl _).add l8).bytesOf b7
  have y2 := (((((((Ext.refl _).add l3).add l4).add l5).add l6).add l7).add l8).get (get_last h1
    (.inst "ObjectIdentifier" [("_oid_str", .str (cipherOid s.obj))]))
  generalize h1 ++ [Obj.inst "ObjectIdentifier" [("_oid_str", .str (cipherOid s.obj))]] ++ l3 ++ l4 ++ l5 ++ l6 ++ l7 ++ l8 = H
    at *
  refine ⟨_, c1, k1, ⟨v3, v4, v5, v6, v7, v8⟩, _, rfl, x8.add _, x8.length, hk, ⟨p, h1.length, get_last _ _, get_mono y2 _, o1,
    q1.ext (y8.add _)⟩, bytesOf_mono y3 _, bytesOf_mono y4 _, bytesOf_mono y5 _, bytesOf_mono y6 _, bytesOf_mono y7 _,
    bytesOf_mono b8 _⟩

/-- What `mac_final` does. -/
def Finals (o : Out Val) (h : Heap) (me cr kr : Nat) (r : Mac × Res Bytes) : Prop :=
  match r.2 with
  | .ok b => ∃ w h', o = ok (.ref w) h' ∧ Keeps [me] h h' ∧ h.length ≤ w ∧ bytesOf (.ref w) h' = some b ∧
      ∃ x', MacAt me cr kr x' r.1 h'
  | .error e => ∃ h', o = fail (exc e) h' ∧ Keeps [me] h h' ∧ ∃ x', MacAt me cr kr x' r.1 h'

theorem mac_final_ok (L n : Nat) {me cr kr : Nat} {x : MacVals} {s : Mac} {h : Heap} (a : MacAt me cr kr x s h) :
    Finals (call package L (n + 6) "GOST34132015mac.mac_final" [.ref me] h) h me cr kr s.macFinal := by
  rw [call_succ Fn.GOST34132015mac.mac_final]
  unfold Mac.macFinal
  obtain ⟨o, l1, g, -⟩ := a.mode.get
  have g' := g
  unfold MacVals.attrs at g
  have hp := pad_size_ok L (n + 2) a.mode a.bytes.fin
  by_cases hpad : getPadSize s.obj.blockSize s.finBuff = 0
  · have hpad' : ((getPadSize s.obj.blockSize s.finBuff : Int) = 0) = True := by simp only [eq_iff_iff, iff_true]; omega
    simp only [if_pos hpad]
    have x1 := (Ext.refl h).add [.bytearray []]
    obtain ⟨w2, l2, f2, hw2, b2⟩ := (add_xor_ok L (n + 4) (x1.bytesOf a.bytes.fin) (x1.bytesOf a.bytes.prev)).elim
    have x2 := x1.add l2
    obtain ⟨w3, l3, f3, hw3, b3⟩ := (add_xor_ok L (n + 4) b2 (x2.bytesOf a.bytes.k1)).elim
    have x3 := x2.add l3
    obtain ⟨_, _, -, g2⟩ := (a.ext x3).mode.get
    have f4 := enc_ok L n (a.ext x3).mode b3
    generalize s.obj.encrypt (addXor (addXor _ _) _) = res at f4 ⊢
    rcases f4.cases with ⟨y, w4, l4, rfl, f4', hw4, b4⟩ | ⟨y, l4, rfl, f4'⟩
    · have x4 := x3.add l4
      py [GOST34132015mac.m_mac_final, g, hp, hpad', decide_true, f2, f3, g2, meth_enc, f4']
      exact ⟨w4, _, rfl, x4.keeps _, Nat.le_trans x3.length hw4, b4, x, a.ext x4⟩
    · have x4 := x3.add l4
      py [GOST34132015mac.m_mac_final, g, hp, hpad', decide_true, f2, f3, g2, meth_enc, f4']
      exact ⟨_, rfl, x4.keeps _, x, a.ext x4⟩
  · have hpad' : ((getPadSize s.obj.blockSize s.finBuff : Int) = 0) = False := by simp only [eq_iff_iff, iff_false]; omega
    simp only [if_neg hpad]
    have hbs := block_size_ok L (n + 3) a.mode.hasBs
    obtain ⟨v5, l5, f5, b5, -⟩ := slice_new a.bytes.fin (some (s.obj.blockSize : Int)) none
    have x5 := (Ext.refl h).add l5
    obtain ⟨v6, l6, f6, b6, -⟩ := mode_3_ok L (n + 1) (a.ext x5).mode b5
    have x6 := x5.add l6
    obtain ⟨m7, g7, k7⟩ := mac_set (a.ext x6).mode (x6.get g') { x with fin := v6 }
    have c6 := k7.bytes b6
    have c1 := k7.bytes (x6.bytesOf a.bytes.k1)
    have c2 := k7.bytes (x6.bytesOf a.bytes.k2)
    have c3 := k7.bytes (x6.bytesOf a.bytes.iter)
    have c4 := k7.bytes (x6.bytesOf a.bytes.prev)
    have c5 := k7.bytes (x6.bytesOf a.bytes.cur)
    have b7 : MacBytes { x with fin := v6 } { s with finBuff := Mac.setPadMode3 s.obj.blockSize (pyFrom s.finBuff s.obj.blockSize) } _ :=
      ⟨c1, c2, c6, c3, c4, c5⟩
    have a7 : MacAt me cr kr { x with fin := v6 } { s with finBuff := Mac.setPadMode3 s.obj.blockSize (pyFrom s.finBuff s.obj.blockSize) } _ :=
      ⟨m7, b7⟩
    generalize hH : List.set (h ++ l5 ++ l6) me _ = H at *
    have hkeep := (x6.keeps [me]).trans k7
    simp only [macInst, MacVals.attrs] at hH g7
    have x1 := (Ext.refl H).add [.bytearray []]
    obtain ⟨w2, l2, f2, hw2, b2⟩ := (add_xor_ok L (n + 4) (x1.bytesOf a7.bytes.fin) (x1.bytesOf a7.bytes.prev)).elim
    have x2 := x1.add l2
    obtain ⟨w3, l3, f3, hw3, b3⟩ := (add_xor_ok L (n + 4) b2 (x2.bytesOf a7.bytes.k2)).elim
    have x3 := x2.add l3
    obtain ⟨_, _, -, g2⟩ := (a7.ext x3).mode.get
    have f4 := enc_ok L n (a7.ext x3).mode b3
    simp only at f4
    generalize s.obj.encrypt (addXor (addXor _ _) _) = res at f4 ⊢
    have hf : getAttr (ctx L (n + 5)) (.ref me) "block_size" h = ok (.int s.obj.blockSize) h := by py [g, hbs]
    rcases f4.cases with ⟨y, w4, l4, rfl, f4', hw4, b4⟩ | ⟨y, l4, rfl, f4'⟩
    · have x4 := x3.add l4
      py [GOST34132015mac.m_mac_final, g, hp, hpad', decide_false, hbs, f5, f6]
      rw [hH]
      py [g7, f2, f3, g2, meth_enc, f4']
      exact ⟨w4, _, rfl, hkeep.trans (x4.keeps _), Nat.le_trans hkeep.length (Nat.le_trans x3.length hw4), b4, _, a7.ext x4⟩
    · have x4 := x3.add l4
      py [GOST34132015mac.m_mac_final, g, hp, hpad', decide_false, hbs, f5, f6]
      rw [hH]
      py [g7, f2, f3, g2, meth_enc, f4']
      exact ⟨_, rfl, hkeep.trans (x4.keeps _), _, a7.ext x4⟩

/-- `digest`. -/
theorem mac_digest_ok (L n : Nat) {me cr kr : Nat} {x : MacVals} {s : Mac} {h : Heap} (a : MacAt me cr kr x s h) (i : Int) :
    Returns (call package L (n + 7) "GOST34132015mac.digest" [.ref me, .int i] h) h (s.digest i).2 := by
  rw [call_succ Fn.GOST34132015mac.digest]
  unfold Mac.digest
  obtain ⟨me', cr', kr', x', h', f1, e1, hm, hk, a1⟩ := copy_mac 6 a
  have hbs := block_size_ok L (n + 4) a1.mode.hasBs
  obtain ⟨o, l1, g, -⟩ := a1.mode.get
  by_cases hi : i > s.obj.blockSize
  · have hi' : ((s.obj.blockSize : Int) < i) = True := by simpa using hi
    simp only [if_pos hi]
    obtain ⟨v, h2, f2, k2, -⟩ := clear_ok L (n + 3) a1.mode (by simp)
    py [GOST34132015mac.m_digest, show (ctx L (n + 6)).copy = copyVal 10 from rfl, f1, g, hbs, hi', decide_true, f2]
    obtain ⟨l, rfl⟩ := (((e1.frame []).then k2 (by simpa using hk)).ext)
    exact ⟨l, rfl⟩
  · have hi' : ((s.obj.blockSize : Int) < i) = False := by simpa using hi
    simp only [if_neg hi]
    have f2 := mac_final_ok L n a1
    unfold Finals at f2
    generalize s.macFinal.2 = res at f2 ⊢
    cases res with
    | ok b =>
      obtain ⟨w, h2, f2', k2, hw, b2, -⟩ := f2
      have f3 : getSlice (.ref w) (some 0) (some i) h2 = _ := getSlice_ref b2 _ _
      py [GOST34132015mac.m_digest, show (ctx L (n + 6)).copy = copyVal 10 from rfl, f1, g, hbs, hi', decide_false, f2', f3]
      have y := ((e1.frame []).then k2.frame (by simpa using hm)).ext
      exact .intro (y.add _) y.length (bytesOf_last _ _)
    | error e =>
      obtain ⟨h2, f2', k2, -⟩ := f2
      py [GOST34132015mac.m_digest, show (ctx L (n + 6)).copy = copyVal 10 from rfl, f1, g, hbs, hi', decide_false, f2']
      obtain ⟨l, rfl⟩ := (((e1.frame []).then k2.frame (by simpa using hm)).ext)
      exact ⟨l, rfl⟩

/-- `hexdigest`. -/
theorem mac_hexdigest_ok (L n : Nat) {me cr kr : Nat} {x : MacVals} {s : Mac} {h : Heap} (a : MacAt me cr kr x s h) (i : Int) :
    match (s.hexdigest i).2 with
    | .ok t => ∃ h', call package L (n + 8) "GOST34132015mac.hexdigest" [.ref me, .int i] h = ok (.str (String.ofList t)) h' ∧ Ext h h'
    | .error e => ∃ h', call package L (n + 8) "GOST34132015mac.hexdigest" [.ref me, .int i] h = fail (exc e) h' ∧ Ext h h' := by
  rw [call_succ Fn.GOST34132015mac.hexdigest]
  unfold Mac.hexdigest
  have f := mac_digest_ok L n a i
  simp only
  obtain ⟨o, l1, g, -⟩ := a.mode.get
  generalize (s.digest i).2 = res at f ⊢
  rcases f.cases with ⟨y, w4, l4, rfl, f4', hw4, b4⟩ | ⟨y, l4, rfl, f4'⟩
  · rw [ok_bind]
    py [GOST34132015mac.m_hexdigest, g, f4', Streebog.get_of_bytes b4]
    rw [Streebog.builtin_hex b4]
    py []
    exact ⟨_, rfl, (Ext.refl h).add _⟩
  · rw [error_bind]
    py [GOST34132015mac.m_hexdigest, g, f4']
    exact ⟨_, rfl, (Ext.refl h).add _⟩

end ModesSrc

end Gost.Src
