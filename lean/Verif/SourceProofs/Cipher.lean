import Verif.SourceProofs.Block
import Verif.SourceProofs.HashNew
import Verif.Proofs.Clear

/-! Cipher objects as the modes of operation use them. -/

namespace Gost.Src

open Streebog (OidAt Other)

/-- The identifier of a cipher. -/
def cipherOid : CipherObj → String
  | .kuz _ => "1.2.643.7.1.1.5.2"
  | .magma _ => "1.2.643.7.1.1.5.1"

/-- The attributes of a cipher object. -/
def cipherAttrs (c : CipherObj) (k kr o : Nat) : List (String × Val) :=
  match c with
  | .kuz _ => [("_cipher_c", .ref k), ("_cipher_iter_key", .ref kr), ("oid", .ref o)]
  | .magma _ => [("oid", .ref o), ("_cipher_iter_key", .ref kr)]

/-- The list of the constants which the objects of one class have. -/
def Constants (c : CipherObj) (k kr : Nat) (W : List Nat) (h : Heap) : Prop :=
  match c with
  | .kuz _ => k ≠ kr ∧ ∃ ws cs, h[k]? = some (.list ws) ∧ BytesList ws h cs ∧ ∀ r ∈ W, Val.ref r ∉ ws
  | .magma _ => True

/-- The cell `me` is the object `c` with the list `kr` of the round keys and the object identifier `o`. The byte
arrays which belong to it are not among the cells `W`. -/
structure CipherAt (c : CipherObj) (me kr o : Nat) (W : List Nat) (h : Heap) : Prop where
  obj : ∃ k, h[me]? = some (.inst (className c) (cipherAttrs c k kr o)) ∧ Constants c k kr W h
  keys : ∃ vs, h[kr]? = some (.list vs) ∧ BytesList vs h (CipherObj.keys c) ∧ ∀ r ∈ W, Val.ref r ∉ vs
  oid : OidAt (cipherOid c) o h
  count : (CipherObj.keys c).length = CipherObj.rounds c

theorem cipherAttrs_key (c : CipherObj) (k kr o : Nat) :
    findAttr "_cipher_iter_key" (cipherAttrs c k kr o) = some (.ref kr) := by
  cases c <;> py [cipherAttrs]

theorem cipherAttrs_oid (c : CipherObj) (k kr o : Nat) :
    findAttr "oid" (cipherAttrs c k kr o) = some (.ref o) := by
  cases c <;> py [cipherAttrs]

theorem CipherAt.rep {c : CipherObj} {me kr o : Nat} {W : List Nat} {h : Heap} (a : CipherAt c me kr o W h) :
    CipherRep c me kr h := by
  obtain ⟨k, h1, -⟩ := a.obj
  obtain ⟨vs, h2, h3, -⟩ := a.keys
  exact ⟨_, vs, h1, cipherAttrs_key c k kr o, h2, h3⟩

theorem BytesList.frame {vs : List Val} {h h' : Heap} {ks : List Bytes} (b : BytesList vs h ks) {W : List Nat}
    (f : Frame W h h') (hw : ∀ r ∈ W, Val.ref r ∉ vs) : BytesList vs h' ks := by
  unfold BytesList at *
  rw [← b]
  apply List.map_congr_left
  intro v hv
  have hb : ∃ x, Src.bytesOf v h = some x := by
    have : Src.bytesOf v h ∈ ks.map some := by rw [← b]; exact List.mem_map_of_mem hv
    obtain ⟨x, -, hx⟩ := List.mem_map.mp this
    exact ⟨x, hx.symm⟩
  obtain ⟨x, hx⟩ := hb
  rw [hx, f.bytesOf hx]
  rintro r rfl hr
  exact hw r hr hv

theorem BytesList.lt {vs : List Val} {h : Heap} {ks : List Bytes} (b : BytesList vs h ks) {r : Nat}
    (hr : Val.ref r ∈ vs) : r < h.length := by
  unfold BytesList at b
  have : Src.bytesOf (.ref r) h ∈ ks.map some := by
    rw [← b]; exact List.mem_map_of_mem (f := fun v => Src.bytesOf v h) hr
  obtain ⟨x, -, hx⟩ := List.mem_map.mp this
  exact bytesOf_lt hx.symm

/-- A cell which is not part of a cipher object: one of the byte arrays `W`, an object of another class, or a cell
which does not exist yet. -/
def Free (W : List Nat) (w : Nat) (h : Heap) : Prop :=
  (w ∈ W ∧ ∃ b, h[w]? = some (.bytearray b)) ∨
  (∃ cls l, h[w]? = some (.inst cls l) ∧ cls ≠ "ObjectIdentifier" ∧ cls ≠ "GOST34122015Kuznechik" ∧
    cls ≠ "GOST34122015Magma") ∨ h.length ≤ w

theorem Free.ne_list {W : List Nat} {w r : Nat} {h : Heap} {vs : List Val} (f : Free W w h)
    (e : h[r]? = some (.list vs)) : r ≠ w := by
  rintro rfl
  rcases f with ⟨-, b, f⟩ | ⟨_, _, f, -⟩ | f
  · rw [e] at f; cases f
  · rw [e] at f; cases f
  · have := get_lt e; omega

theorem Free.ne_oid {W : List Nat} {w r : Nat} {h : Heap} {str : String} (f : Free W w h)
    (e : OidAt str r h) : r ≠ w := by
  rintro rfl
  unfold OidAt at e
  rcases f with ⟨-, b, f⟩ | ⟨_, _, f, hc, -⟩ | f
  · rw [e] at f; cases f
  · rw [e] at f; cases f; exact hc rfl
  · have := get_lt e; omega

theorem Free.ne_cipher {W : List Nat} {w r : Nat} {h : Heap} {c : CipherObj} {l : List (String × Val)} (f : Free W w h)
    (e : h[r]? = some (.inst (className c) l)) : r ≠ w := by
  rintro rfl
  rcases f with ⟨-, b, f⟩ | ⟨_, _, f, -, h1, h2⟩ | f
  · rw [e] at f; cases f
  · rw [e] at f; cases f; cases c
    · exact h1 rfl
    · exact h2 rfl
  · have := get_lt e; omega

theorem Free.bytes {W : List Nat} {w : Nat} {h : Heap} {vs : List Val} {ks : List Bytes} (f : Free W w h)
    (e : BytesList vs h ks) (hW : ∀ r ∈ W, Val.ref r ∉ vs) : Val.ref w ∉ vs := by
  intro hv
  have := e.lt hv
  rcases f with ⟨f, -⟩ | ⟨_, _, f, -⟩ | f
  · exact hW w f hv
  · unfold BytesList at e
    have hb : Src.bytesOf (.ref w) h ∈ ks.map some := by
      rw [← e]; exact List.mem_map_of_mem (f := fun v => Src.bytesOf v h) hv
    obtain ⟨x, -, hx⟩ := List.mem_map.mp hb
    simp [Src.bytesOf, f] at hx
  · omega

/-- Changes outside a cipher object. -/
theorem CipherAt.frame {c : CipherObj} {me kr o : Nat} {W W' : List Nat} {h h' : Heap} (a : CipherAt c me kr o W h)
    (f : Frame W' h h') (hw : ∀ w ∈ W', Free W w h) : CipherAt c me kr o W h' := by
  obtain ⟨k, h1, hk⟩ := a.obj
  obtain ⟨vs, h2, h3, h4⟩ := a.keys
  refine ⟨⟨k, f.get h1 fun hm => (hw _ hm).ne_cipher h1 rfl, ?_⟩,
    ⟨vs, f.get h2 fun hm => (hw _ hm).ne_list h2 rfl, h3.frame f fun r hr => (hw r hr).bytes h3 h4, h4⟩,
    f.get a.oid fun hm => (hw _ hm).ne_oid a.oid rfl, a.count⟩
  cases c with
  | magma ks => trivial
  | kuz ks =>
    obtain ⟨hne, ws, cs, g1, g2, g3⟩ := hk
    exact ⟨hne, ws, cs, f.get g1 fun hm => (hw _ hm).ne_list g1 rfl, g2.frame f fun r hr => (hw r hr).bytes g2 g3, g3⟩

theorem CipherAt.ext {c : CipherObj} {me kr o : Nat} {W : List Nat} {h h' : Heap} (a : CipherAt c me kr o W h)
    (x : Ext h h') : CipherAt c me kr o W h' := a.frame (x.frame []) (by simp)

/-- New cells do not belong to a cipher object. -/
theorem CipherAt.away {c : CipherObj} {me kr o : Nat} {W W' : List Nat} {h : Heap} (a : CipherAt c me kr o W h)
    (hw : ∀ w ∈ W', w ∈ W ∨ h.length ≤ w) : CipherAt c me kr o W' h := by
  obtain ⟨k, h1, hk⟩ := a.obj
  obtain ⟨vs, h2, h3, h4⟩ := a.keys
  have : ∀ {vs ks}, BytesList vs h ks → (∀ r ∈ W, Val.ref r ∉ vs) → ∀ r ∈ W', Val.ref r ∉ vs := by
    intro vs ks hb hW r hr hv
    rcases hw r hr with h1 | h1
    · exact hW r h1 hv
    · have := hb.lt hv; omega
  refine ⟨⟨k, h1, ?_⟩, ⟨vs, h2, h3, this h3 h4⟩, a.oid, a.count⟩
  cases c with
  | magma ks => trivial
  | kuz ks =>
    obtain ⟨hne, ws, cs, g1, g2, g3⟩ := hk
    exact ⟨hne, ws, cs, g1, g2, this g2 g3⟩

/-- The object in the memory. -/
theorem CipherAt.get {c : CipherObj} {me kr o : Nat} {W : List Nat} {h : Heap} (a : CipherAt c me kr o W h) :
    ∃ l, h[me]? = some (.inst (className c) l) ∧ findAttr "oid" l = some (.ref o) := by
  obtain ⟨k, h1, -⟩ := a.obj
  exact ⟨_, h1, cipherAttrs_oid c k kr o⟩

theorem kuz_at (L n : Nat) {h : Heap} {v : Val} {key : Bytes} (e : bytesOf v h = some key) (hk : key.length = 32) :
    ∃ ks kr o h', Kuz.init key = .ok ks ∧
      instantiate (ctx L (n + 4)) "GOST34122015Kuznechik" [v] h = ok (.ref h.length) h' ∧ Ext h h' ∧
      h.length < kr ∧ CipherAt (.kuz ks) h.length kr o [] h' := by
  unfold instantiate
  py []
  have := Kuz.init_ok L n (get_last h (.inst "GOST34122015Kuznechik" [])) (bytesOf_mono e _)
  have hx : ∀ {h'}, Frame [h.length] (h ++ [Obj.inst "GOST34122015Kuznechik" []]) h' → Ext h h' := fun f =>
    Frame.ext (((Frame.refl [] h).add _).then f (by simp))
  have hl := (Gost.Kuz.init_good key hk).1
  have hi := Gost.Kuz.init_ok key hk
  generalize List.map (Spec.Kuz.roundKey key) (List.range 10) = ks at hl hi
  rw [hi] at this
  obtain ⟨_, h', e1, f, kr, hkr, r, k, o, ws, cs, g1, g2, g3, g4, g5⟩ := this
  obtain ⟨_, vs, -, -, r3, r4⟩ := r
  py [e1]
  exact ⟨ks, kr, o, h', hi, rfl, hx f, by simp at hkr; omega, ⟨k, g1, g2, ws, cs, g3, g4, by simp⟩, ⟨vs, r3, r4, by simp⟩,
    g5, hl⟩

theorem magma_at (L n : Nat) {h : Heap} {v : Val} {key : Bytes} (e : bytesOf v h = some key) (hk : key.length = 32) :
    ∃ ks kr o h', Magma.init key = .ok ks ∧
      instantiate (ctx L (n + 3)) "GOST34122015Magma" [v] h = ok (.ref h.length) h' ∧ Ext h h' ∧
      h.length < kr ∧ CipherAt (.magma ks) h.length kr o [] h' := by
  unfold instantiate
  py []
  have := Magma.init_ok L n (get_last h (.inst "GOST34122015Magma" [])) (bytesOf_mono e _)
  have hx : ∀ {h'}, Frame [h.length] (h ++ [Obj.inst "GOST34122015Magma" []]) h' → Ext h h' := fun f =>
    Frame.ext (((Frame.refl [] h).add _).then f (by simp))
  obtain ⟨ks, hi, hl, -⟩ := Gost.Magma.init_ok key hk
  have hl := hl.1
  rw [hi] at this
  obtain ⟨_, h', e1, f, kr, hkr, r, o, g1, g2⟩ := this
  obtain ⟨_, vs, -, -, r3, r4⟩ := r
  py [e1]
  exact ⟨ks, kr, o, h', hi, rfl, hx f, by simp at hkr; omega, ⟨0, g1, trivial⟩, ⟨vs, r3, r4, by simp⟩, g2, hl⟩

theorem clear_at (L n : Nat) {c : CipherObj} {me kr o : Nat} {W : List Nat} {h : Heap} (a : CipherAt c me kr o W h)
    (hW : ∀ w ∈ W, w < h.length) :
    ∃ v h', callMeth (ctx L (n + 2)) (.ref me) "clear" [] h = ok v h' ∧ Frame [kr] h h' ∧
      CipherAt c.clear me kr o W h' := by
  rw [callMeth_cipher L _ a.rep]
  obtain ⟨k, h1, hk⟩ := a.obj
  obtain ⟨vs, h2, h3, h4⟩ := a.keys
  have hme : me ≠ kr := ne_of_get h1 h2 (by simp)
  have ho : o ≠ kr := ne_of_get a.oid h2 (by simp)
  cases c with
  | kuz ks =>
    py [className]
    obtain ⟨v, h', e1, f, ⟨_, vs', -, -, r3, r4⟩, _, g1, g2⟩ := Kuz.clear_ok L n a.rep a.count
    cases r3.symm.trans g1
    obtain ⟨hne, ws, cs, j1, j2, j3⟩ := hk
    refine ⟨v, h', e1, f, ⟨k, f.get h1 (by simpa using hme), hne, ws, cs, f.get j1 (by simpa using hne), ?_, j3⟩,
      ⟨vs', r3, r4, ?_⟩, f.get a.oid (by simpa using ho), by simpa [CipherObj.keys, CipherObj.clear, Kuz.clear,
        CipherObj.rounds] using a.count⟩
    · refine j2.frame f ?_
      simp only [List.mem_singleton, forall_eq]
      intro hv
      exact Free.bytes (W := []) (w := h.length) (Or.inr (Or.inr (Nat.le_refl _))) j2 (by simp) (by
        exfalso
        unfold BytesList at j2
        have hb : Src.bytesOf (.ref kr) h ∈ cs.map some := by
          rw [← j2]; exact List.mem_map_of_mem (f := fun v => Src.bytesOf v h) hv
        obtain ⟨x, -, hx⟩ := List.mem_map.mp hb
        simp [Src.bytesOf, h2] at hx)
    · intro r hr hv
      have := g2 r hv
      have := hW r hr
      omega
  | magma ks =>
    py [className]
    obtain ⟨v, h', e1, f, ⟨_, vs', -, -, r3, r4⟩, _, g1, g2⟩ := Magma.clear_ok L n a.rep a.count
    cases r3.symm.trans g1
    refine ⟨v, h', e1, f, ⟨k, f.get h1 (by simpa using hme), trivial⟩,
      ⟨vs', r3, r4, ?_⟩, f.get a.oid (by simpa using ho), by simpa [CipherObj.keys, CipherObj.clear, Magma.clear,
        CipherObj.rounds] using a.count⟩
    intro r hr hv
    have := g2 r hv
    have := hW r hr
    omega

end Gost.Src
