import Verif.Props.SourceFresh
import Verif.Props.SourceModes

/-! Several cipher objects in one memory: lemmas for C130. -/

namespace Gost.Src.ModesSrc
open Streebog (OidAt)

theorem refsList_append (l m : List Val) : Val.refsList (l ++ m) = Val.refsList l ++ Val.refsList m := by
  induction l with
  | nil => rfl
  | cons v l ih => simp only [List.cons_append, Val.refsList, ih, List.append_assoc]

theorem reach_cons {h : Heap} {v : Val} {vs : List Val} {r : Nat} (c : Reach h (v :: vs) r) :
    Reach h [v] r ∨ Reach h vs r := by
  induction c with
  | arg hr =>
    rw [Val.refsList, List.mem_append] at hr
    rcases hr with hr | hr
    · exact .inl (.arg (by simpa [Val.refsList] using hr))
    · exact .inr (.arg hr)
  | step _ e hr ih =>
    rcases ih with c | c
    · exact .inl (c.step e hr)
    · exact .inr (c.step e hr)

theorem reach_mono {h : Heap} {vs ws : List Val} (sub : ∀ r ∈ Val.refsList vs, Reach h ws r) {r : Nat}
    (c : Reach h vs r) : Reach h ws r := by
  induction c with
  | arg hr => exact sub _ hr
  | step _ e hr ih => exact ih.step e hr

theorem reach_nil {h : Heap} {vs : List Val} (e : Val.refsList vs = []) {r : Nat} : ¬ Reach h vs r := by
  intro c
  induction c with
  | arg hr => rw [e] at hr; cases hr
  | step _ _ _ ih => exact ih

theorem sound_cons {h : Heap} {v : Val} {vs : List Val} (a : Sound h [v]) (b : Sound h vs) : Sound h (v :: vs) :=
  fun r c => (reach_cons c).elim (a r) (b r)

/-- A byte array reaches only itself. -/
theorem reach_bytearray {h : Heap} {r : Nat} {b : Bytes} (e : h[r]? = some (.bytearray b)) {s : Nat}
    (c : Reach h [.ref r] s) : s = r := by
  induction c with
  | arg hr => simpa [Val.refsList, Val.refs] using hr
  | step _ e' hr ih =>
    rw [ih, e] at e'
    cases e'
    simp [Obj.refs] at hr

/-- What is reached in a memory whose first cells, which refer to nothing else, are as they were. -/
theorem reach_base {h0 h : Heap} (cl : ∀ (r : Nat) (o : Obj), h0[r]? = some o → ∀ s ∈ o.refs, s < h0.length)
    (base : ∀ r, r < h0.length → h[r]? = h0[r]?) {vs : List Val} (hv : ∀ r ∈ Val.refsList vs, r < h0.length) {r : Nat}
    (c : Reach h vs r) : r < h0.length := by
  induction c with
  | arg hr => exact hv _ hr
  | step _ e hr ih => exact cl _ _ ((base _ ih).symm.trans e) _ hr

/-- Any call: what the values `vs`, which reach its arguments, reach afterwards. -/
theorem fresh_any (L n : Nat) (f : String) {args vs : List Val} {h : Heap} (w : Sound h vs) (s : Reach h vs 0)
    (sub : ∀ r ∈ Val.refsList args, Reach h vs r) :
    FromOrNew h vs (call package L n f args h).2 vs ∧ Sound (call package L n f args h).2 vs := by
  obtain ⟨⟨π', g, R, -, -, -⟩⟩ := reached_call L n f w (Or.inl s) sub
  have t : ∀ r ∈ Val.refsList vs, ∃ s, (r, s) ∈ π' := fun r hr =>
    ⟨r, g.1 _ (mem_reached.2 ⟨rfl, w r (.arg hr), .arg hr⟩)⟩
  refine ⟨fun r c => ?_, fun r c => ?_⟩ <;> obtain ⟨s, m⟩ := R.reach t c
  · rcases g.2 _ m with m | m
    · exact Or.inl (mem_reached.1 m).2.2
    · exact Or.inr m.1
  · exact (R.lt m).1

/-- The same for a method of an object. -/
theorem fresh_meth (L n : Nat) (m : String) {me : Nat} {cls : String} {l : List (String × Val)} {args : List Val}
    {h : Heap} (g : h[me]? = some (.inst cls l)) (w : Sound h (.ref 0 :: .ref me :: args)) :
    FromOrNew h (.ref 0 :: .ref me :: args) (callMeth (ctx L n) (.ref me) m args h).2 (.ref 0 :: .ref me :: args) ∧
    Sound (callMeth (ctx L n) (.ref me) m args h).2 (.ref 0 :: .ref me :: args) := by
  simp only [callMeth, g]
  split
  · rename_i f st _
    rw [ctx_call]
    refine fresh_any L n f w (reach_source h _) fun r hr => .arg ?_
    rw [refsList_cons]
    refine List.mem_cons_of_mem _ ?_
    cases st
    · exact hr
    · rw [refsList_cons]
      exact List.mem_cons_of_mem _ hr
  · exact ⟨fun r c => .inl c, w⟩

/-! ### What an object depends on -/

section
variable {h h' : Heap} {me : Nat}

/-- The cells which the object reaches are the same in both memories. -/
def Kept (me : Nat) (h h' : Heap) : Prop := ∀ r, Reach h [.ref me] r → h'[r]? = h[r]?

theorem kept_attr {cls : String} {l : List (String × Val)} {x : String} {v : Val} {a : Nat} (c : Reach h [.ref me] a)
    (g : h[a]? = some (.inst cls l)) (hv : findAttr x l = some v) {r : Nat} (hr : r ∈ v.refs) : Reach h [.ref me] r := by
  refine c.step g ?_
  simp only [Obj.refs]
  clear g
  induction l with
  | nil => cases hv
  | cons p l ih =>
    obtain ⟨y, w⟩ := p
    simp only [findAttr] at hv
    simp only [Val.refsDict, List.mem_append]
    split at hv
    · cases hv; exact .inl hr
    · exact .inr (ih hv)

theorem kept_bytes (k : Kept me h h') {v : Val} (hv : ∀ r ∈ v.refs, Reach h [.ref me] r) : bytesOf v h' = bytesOf v h := by
  cases v with
  | ref r => simp only [bytesOf, k r (hv r (by simp [Val.refs]))]
  | _ => rfl

theorem refsList_mem {vs : List Val} {v : Val} (hv : v ∈ vs) {r : Nat} (hr : r ∈ v.refs) : r ∈ Val.refsList vs := by
  induction vs with
  | nil => cases hv
  | cons w vs ih =>
    rw [Val.refsList, List.mem_append]
    rcases List.mem_cons.1 hv with rfl | hv
    · exact .inl hr
    · exact .inr (ih hv)

theorem kept_list (k : Kept me h h') {a : Nat} {vs : List Val} (c : Reach h [.ref me] a) (g : h[a]? = some (.list vs))
    {ks : List Bytes} (b : BytesList vs h ks) : BytesList vs h' ks := by
  unfold BytesList at b ⊢
  rw [← b]
  refine List.map_congr_left fun v hv => kept_bytes k fun r hr => c.step g ?_
  exact refsList_mem hv hr

theorem reach_me : Reach h [.ref me] me := .arg (by simp [Val.refsList, Val.refs])

theorem _root_.Gost.Src.CipherAt.kept {c : CipherObj} {cr kr o : Nat} {W : List Nat} (a : CipherAt c cr kr o W h) (k : Kept me h h')
    (hc : Reach h [.ref me] cr) : CipherAt c cr kr o W h' ∧ Reach h [.ref me] kr := by
  obtain ⟨q, h1, hk⟩ := a.obj
  obtain ⟨vs, h2, h3, h4⟩ := a.keys
  have rk : Reach h [.ref me] kr := kept_attr hc h1 (cipherAttrs_key c q kr o) (by simp [Val.refs])
  have ro : Reach h [.ref me] o := kept_attr hc h1 (cipherAttrs_oid c q kr o) (by simp [Val.refs])
  refine ⟨⟨⟨q, (k _ hc).trans h1, ?_⟩, ⟨vs, (k _ rk).trans h2, kept_list k rk h2 h3, h4⟩, (k _ ro).trans a.oid, a.count⟩,
    rk⟩
  cases c with
  | magma ks => trivial
  | kuz ks =>
    obtain ⟨hne, ws, cs, g1, g2, g3⟩ := hk
    have rq : Reach h [.ref me] q :=
      kept_attr hc h1 (x := "_cipher_c") (v := .ref q) (by simp [cipherAttrs, findAttr]) (by simp [Val.refs])
    exact ⟨hne, ws, cs, (k _ rq).trans g1, kept_list k rq g1 g2, g3⟩

theorem ModeAt.kept {cls : String} {c : CipherObj} {cr kr : Nat} {W : List Nat} {tl : List (String × Val)}
    (a : ModeAt cls c me cr kr W tl h) (k : Kept me h h') :
    ModeAt cls c me cr kr W tl h' ∧ Reach h [.ref me] kr ∧
      ∀ x v, findAttr x tl = some v → x ≠ "_cipher_obj" → x ≠ "oid" → ∀ r ∈ v.refs, Reach h [.ref me] r := by
  obtain ⟨m, o, h1, ho, o', h2⟩ := a
  have rc : Reach h [.ref me] cr := kept_attr reach_me h1 (x := "_cipher_obj") (v := .ref cr) (by simp [findAttr]) (by simp [Val.refs])
  have ro : Reach h [.ref me] o := kept_attr reach_me h1 (x := "oid") (v := .ref o) (by simp [findAttr]) (by simp [Val.refs])
  obtain ⟨h3, rk⟩ := h2.kept k rc
  refine ⟨⟨m, o, (k _ reach_me).trans h1, (k _ ro).trans ho, o', h3⟩, rk, fun x v hv h1' h2' r hr => ?_⟩
  exact kept_attr reach_me h1 (x := x) (by simpa [findAttr, h1'.symm, h2'.symm] using hv) hr

theorem FbAt.kept {cls : String} {c : CipherObj} {b : Bytes} {cr kr iv : Nat} {tl : List (String × Val)}
    (a : FbAt cls c b me cr kr iv tl h) (k : Kept me h h') : FbAt cls c b me cr kr iv tl h' ∧
      ∀ p ∈ [iv, kr], Reach h [.ref me] p := by
  obtain ⟨h1, h2, h3⟩ := a.mode.kept k
  have ri := h3 _ _ a.has (by decide) (by decide) iv (by simp [Val.refs])
  refine ⟨⟨a.fb, h1, (k _ ri).trans a.vec, a.has⟩, fun p hp => ?_⟩
  rcases List.mem_cons.1 hp with rfl | hp
  · exact ri
  · rw [List.mem_singleton.1 hp]; exact h2

/-- An object depends only on what it reaches, and reaches what its methods change. -/
theorem IsCipher.kept {c : Cipher} {P : List Nat} (a : IsCipher c me P h) (k : Kept me h h') :
    IsCipher c me P h' ∧ ∀ p ∈ P, Reach h [.ref me] p := by
  cases c with
  | ecb s =>
    obtain ⟨cr, kr, a, rfl⟩ := a
    obtain ⟨h1, h2, -⟩ := ModeAt.kept a k
    exact ⟨⟨cr, kr, h1, rfl⟩, by simpa using h2⟩
  | cbc s =>
    obtain ⟨cr, kr, iv, a, rfl⟩ := a
    exact ⟨⟨cr, kr, iv, (FbAt.kept a k).1, rfl⟩, (FbAt.kept a k).2⟩
  | cfb s =>
    obtain ⟨cr, kr, iv, a, rfl⟩ := a
    exact ⟨⟨cr, kr, iv, (FbAt.kept a k).1, rfl⟩, (FbAt.kept a k).2⟩
  | ofb s =>
    obtain ⟨cr, kr, iv, a, rfl⟩ := a
    exact ⟨⟨cr, kr, iv, (FbAt.kept a k).1, rfl⟩, (FbAt.kept a k).2⟩
  | ctr s =>
    obtain ⟨cr, kr, i0, ct, a, rfl⟩ := a
    obtain ⟨h1, h2, h3⟩ := a.mode.kept k
    have r0 := h3 "_init_vect" (.ref i0) (by simp [findAttr]) (by decide) (by decide) i0 (by simp [Val.refs])
    have r1 := h3 "_counter" (.ref ct) (by simp [findAttr]) (by decide) (by decide) ct (by simp [Val.refs])
    refine ⟨⟨cr, kr, i0, ct, ⟨h1, (k _ r0).trans a.vec, (k _ r1).trans a.count, a.ne, a.len⟩, rfl⟩, fun p hp => ?_⟩
    rcases List.mem_cons.1 hp with rfl | hp
    · exact r1
    · rw [List.mem_singleton.1 hp]; exact h2
  | mac s =>
    obtain ⟨cr, kr, x, a, rfl⟩ := a
    obtain ⟨h1, h2, h3⟩ := a.mode.kept k
    have g : ∀ y v, findAttr y x.attrs = some v → y ≠ "_cipher_obj" → y ≠ "oid" → bytesOf v h' = bytesOf v h :=
      fun y v e n1 n2 => kept_bytes k (h3 y v e n1 n2)
    refine ⟨⟨cr, kr, x, ⟨h1, ?_⟩, rfl⟩, fun p hp => ?_⟩
    · exact ⟨(g "_key_1" _ (by simp [MacVals.attrs, findAttr]) (by decide) (by decide)).trans a.bytes.k1,
        (g "_key_2" _ (by simp [MacVals.attrs, findAttr]) (by decide) (by decide)).trans a.bytes.k2,
        (g "_fin_buff" _ (by simp [MacVals.attrs, findAttr]) (by decide) (by decide)).trans a.bytes.fin,
        (g "_iter_buf" _ (by simp [MacVals.attrs, findAttr]) (by decide) (by decide)).trans a.bytes.iter,
        (g "_prev_mac" _ (by simp [MacVals.attrs, findAttr]) (by decide) (by decide)).trans a.bytes.prev,
        (g "_cur_mac" _ (by simp [MacVals.attrs, findAttr]) (by decide) (by decide)).trans a.bytes.cur⟩
    · rcases List.mem_cons.1 hp with rfl | hp
      · exact reach_me
      · rw [List.mem_singleton.1 hp]; exact h2

theorem IsCipher.reaches {c : Cipher} {P : List Nat} (a : IsCipher c me P h) : ∀ p ∈ P, Reach h [.ref me] p :=
  (a.kept (h' := h) fun _ _ => rfl).2

theorem IsCipher.inst {c : Cipher} {P : List Nat} (a : IsCipher c me P h) : ∃ cls l, h[me]? = some (.inst cls l) := by
  cases c with
  | ecb s => obtain ⟨cr, kr, a, -⟩ := a; obtain ⟨o, g, -⟩ := ModeAt.obj a; exact ⟨_, _, g⟩
  | cbc s => obtain ⟨cr, kr, iv, a, -⟩ := a; obtain ⟨o, g, -⟩ := a.mode.obj; exact ⟨_, _, g⟩
  | cfb s => obtain ⟨cr, kr, iv, a, -⟩ := a; obtain ⟨o, g, -⟩ := a.mode.obj; exact ⟨_, _, g⟩
  | ofb s => obtain ⟨cr, kr, iv, a, -⟩ := a; obtain ⟨o, g, -⟩ := a.mode.obj; exact ⟨_, _, g⟩
  | ctr s => obtain ⟨cr, kr, i0, ct, a, -⟩ := a; obtain ⟨o, g, -⟩ := a.mode.obj; exact ⟨_, _, g⟩
  | mac s => obtain ⟨cr, kr, x, a, -⟩ := a; obtain ⟨o, g, -⟩ := a.mode.obj; exact ⟨_, _, g⟩

end

end Gost.Src.ModesSrc
