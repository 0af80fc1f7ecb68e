import Verif.SourceProofs.ModesBase

/-! `gost_34_13_2015.py`: the check of the data, padding and the mode ECB. -/

namespace Gost.Src

namespace ModesSrc

open RandomSrc (binop_zeros)

variable {cls : String} {c : CipherObj} {me cr kr : Nat} {W : List Nat} {tl : List (String × Val)} {h : Heap}

/-! The methods of the cipher object. -/

def encFn : CipherObj → String
  | .kuz _ => "GOST34122015Kuznechik.encrypt"
  | .magma _ => "GOST34122015Magma.encrypt"

def decFn : CipherObj → String
  | .kuz _ => "GOST34122015Kuznechik.decrypt"
  | .magma _ => "GOST34122015Magma.decrypt"

theorem meth_enc (c : CipherObj) : package.method (className c) "encrypt" = some (encFn c, false) := by
  cases c <;> py [className, encFn]

theorem meth_dec (c : CipherObj) : package.method (className c) "decrypt" = some (decFn c, false) := by
  cases c <;> py [className, decFn]

theorem enc_ok (L n : Nat) (a : ModeAt cls c me cr kr W tl h) {v : Val} {b : Bytes} (e : bytesOf v h = some b) :
    Returns (call package L (n + 5) (encFn c) [.ref cr, v] h) h (c.encrypt b) := by
  have := cipher_encrypt L n a.rep e
  rw [callMeth_cipher L _ a.rep, meth_enc] at this
  exact this

theorem dec_ok (L n : Nat) (a : ModeAt cls c me cr kr W tl h) {v : Val} {b : Bytes} (e : bytesOf v h = some b) :
    Returns (call package L (n + 5) (decFn c) [.ref cr, v] h) h (c.decrypt b) := by
  have := cipher_decrypt L n a.rep e
  rw [callMeth_cipher L _ a.rep, meth_dec] at this
  exact this

/-- The two objects. -/
theorem ModeAt.get (a : ModeAt cls c me cr kr W tl h) :
    ∃ o l, h[me]? = some (.inst cls (("_cipher_obj", .ref cr) :: ("oid", .ref o) :: tl)) ∧
      h[cr]? = some (.inst (className c) l) := by
  obtain ⟨m, o, h1, ho, o', h2⟩ := a
  obtain ⟨l, h3, -⟩ := h2.get
  exact ⟨o, l, h1, h3⟩

/-! The check of the data. -/

theorem check_enc_ok (L n : Nat) (me : Nat) {v : Val} {d : Bytes} (e : bytesOf v h = some d) :
    call package L (n + 1) "GOST34132015Cipher.encrypt" [.ref me, v] h = ok v h := by
  rw [call_succ Fn.GOST34132015Cipher.encrypt]
  py [GOST34132015Cipher.m_encrypt, e]

theorem check_dec_ok (L n : Nat) (me : Nat) {v : Val} {d : Bytes} (e : bytesOf v h = some d) :
    call package L (n + 1) "GOST34132015Cipher.decrypt" [.ref me, v] h = ok v h := by
  rw [call_succ Fn.GOST34132015Cipher.decrypt]
  py [GOST34132015Cipher.m_decrypt, e]

theorem check_enc_bad (L n : Nat) (a : ModeAt cls c me cr kr W tl h) (hW : ∀ w ∈ W, w < h.length) {v : Val}
    (e : bytesOf v h = none) :
    ∃ h', call package L (n + 4) "GOST34132015Cipher.encrypt" [.ref me, v] h =
        fail (.raised "GOSTCipherError" "GOSTCipherError: invalid plaintext data") h' ∧ Frame [kr] h h' ∧
      ModeAt cls c.clear me cr kr W tl h' := by
  rw [call_succ Fn.GOST34132015Cipher.encrypt]
  obtain ⟨w, h', f, k, a'⟩ := clear_ok L n a hW
  obtain ⟨l, o⟩ := a.inst
  py [GOST34132015Cipher.m_encrypt, e, o, a.mode.clear, f]
  exact ⟨h', rfl, k, a'⟩

theorem check_dec_bad (L n : Nat) (a : ModeAt cls c me cr kr W tl h) (hW : ∀ w ∈ W, w < h.length) {v : Val}
    (e : bytesOf v h = none) :
    ∃ h', call package L (n + 4) "GOST34132015Cipher.decrypt" [.ref me, v] h =
        fail (.raised "GOSTCipherError" "GOSTCipherError: invalid ciphertext data") h' ∧ Frame [kr] h h' ∧
      ModeAt cls c.clear me cr kr W tl h' := by
  rw [call_succ Fn.GOST34132015Cipher.decrypt]
  obtain ⟨w, h', f, k, a'⟩ := clear_ok L n a hW
  obtain ⟨l, o⟩ := a.inst
  py [GOST34132015Cipher.m_decrypt, e, o, a.mode.clear, f]
  exact ⟨h', rfl, k, a'⟩

/-! Padding. -/

/-- The classes with padding. -/
def IsPad (cls : String) : Prop := cls = "GOST34132015ecb" ∨ cls = "GOST34132015cbc"

namespace IsPad

theorem mode (p : IsPad cls) : IsMode cls := by
  rcases p with p | p
  · exact Or.inl p
  · exact Or.inr (Or.inl p)

theorem pad_mode (p : IsPad cls) : package.property cls "_pad_mode" = none := by
  rcases p with rfl | rfl <;> py []

theorem set_padding (p : IsPad cls) :
    package.method cls "_set_padding" = some ("GOST34132015CipherPadding._set_padding", false) := by
  rcases p with rfl | rfl <;> py []

theorem mode_1 (p : IsPad cls) :
    package.method cls "_set_pad_mode_1" = some ("GOST34132015CipherPadding._set_pad_mode_1", false) := by
  rcases p with rfl | rfl <;> py []

theorem mode_2 (p : IsPad cls) :
    package.method cls "_set_pad_mode_2" = some ("GOST34132015CipherPadding._set_pad_mode_2", false) := by
  rcases p with rfl | rfl <;> py []

end IsPad

theorem mode_1_ok (L n : Nat) (a : ModeAt cls c me cr kr W tl h) {v : Val} {d : Bytes} (e : bytesOf v h = some d) :
    NewVal (call package L (n + 4) "GOST34132015CipherPadding._set_pad_mode_1" [.ref me, v] h) h
      (setPadMode1 c.blockSize d) := by
  rw [call_succ Fn.GOST34132015CipherPadding._set_pad_mode_1]
  obtain ⟨l, o⟩ := a.inst
  have f := pad_size_ok L n a e
  obtain ⟨w, l', f1, b, hw⟩ := add_new (w := .bytes (zeros (getPadSize c.blockSize d))) e rfl
  py [GOST34132015CipherPadding.m__set_pad_mode_1, o, a.mode.pad_size, f, binop_zeros, f1]
  exact ⟨w, l', rfl, b, hw⟩

theorem mode_2_ok (L n : Nat) (a : ModeAt cls c me cr kr W tl h) {v : Val} {d : Bytes} (e : bytesOf v h = some d) :
    NewVal (call package L (n + 4) "GOST34132015CipherPadding._set_pad_mode_2" [.ref me, v] h) h
      (setPadMode2 c.blockSize d) := by
  rw [call_succ Fn.GOST34132015CipherPadding._set_pad_mode_2]
  obtain ⟨l, o⟩ := a.inst
  obtain ⟨w, l', f1, b, hw⟩ := add_new (w := .bytes [128]) e rfl
  have a' := a.ext ((Ext.refl h).add l')
  have f := pad_size_ok L n a' (bytesOf_mono e l')
  have hb := block_size_ok L (n + 1) a'.hasBs
  obtain ⟨w2, l2, f2, b2, hw2⟩ := add_new (w := .bytes (zeros ((c.blockSize : Int) + getPadSize c.blockSize d - 1))) b rfl
  py [GOST34132015CipherPadding.m__set_pad_mode_2, o, a.mode.pad_size, a.mode.block_size, f1, hb, f, binop_zeros, f2]
  refine ⟨w2, l' ++ l2, by rw [List.append_assoc], by rw [← List.append_assoc]; exact b2, fun r hr => ?_⟩
  have := hw2 r hr
  simp at this
  omega

/-- The padded data: a new object or the given one. -/
theorem set_padding_ok (L n : Nat) (a : ModeAt cls c me cr kr W tl h) (p : IsPad cls) {v : Val} {d : Bytes}
    (e : bytesOf v h = some d) (pm : Int) :
    ∃ w l, call package L (n + 5) "GOST34132015CipherPadding._set_padding" [.ref me, v, .int pm] h = ok w (h ++ l) ∧
      bytesOf w (h ++ l) = some (setPadding c.blockSize d pm) ∧ ∀ r, w = .ref r → v = .ref r ∨ h.length ≤ r := by
  rw [call_succ Fn.GOST34132015CipherPadding._set_padding]
  obtain ⟨l, o⟩ := a.inst
  unfold setPadding padMode1 padMode2
  by_cases h1 : pm = 2147483888
  · have h1' : (pm = 2147483888) = True := by simp [h1]
    obtain ⟨w, l, f, b, hw⟩ := mode_1_ok L n a e
    rw [if_pos h1]
    py [GOST34132015CipherPadding.m__set_padding, h1', decide_true, o, p.mode_1, f]
    exact ⟨w, l, rfl, b, fun r hr => Or.inr (hw r hr)⟩
  · have h1' : (pm = 2147483888) = False := by simp [h1]
    rw [if_neg h1]
    by_cases h2 : pm = 2147483889
    · have h2' : (pm = 2147483889) = True := by simp [h2]
      obtain ⟨w, l, f, b, hw⟩ := mode_2_ok L n a e
      rw [if_pos h2]
      py [GOST34132015CipherPadding.m__set_padding, h1', h2', decide_true, decide_false, o, p.mode_2, f]
      exact ⟨w, l, rfl, b, fun r hr => Or.inr (hw r hr)⟩
    · have h2' : (pm = 2147483889) = False := by simp [h2]
      rw [if_neg h2]
      py [GOST34132015CipherPadding.m__set_padding, h1', h2', decide_false]
      exact ⟨v, [], by rw [List.append_nil], by rw [List.append_nil]; exact e, fun r hr => Or.inl hr⟩

theorem pad_enc_ok (L n : Nat) {pm : Int} {tl' : List (String × Val)}
    (a : ModeAt cls c me cr kr W (("_pad_mode", .int pm) :: tl') h) (p : IsPad cls) {v : Val} {d : Bytes}
    (e : bytesOf v h = some d) :
    ∃ w l, call package L (n + 6) "GOST34132015CipherPadding.encrypt" [.ref me, v] h = ok w (h ++ l) ∧
      bytesOf w (h ++ l) = some (setPadding c.blockSize d pm) ∧ ∀ r, w = .ref r → v = .ref r ∨ h.length ≤ r := by
  rw [call_succ Fn.GOST34132015CipherPadding.encrypt]
  have f0 := check_enc_ok L (n + 4) me e
  obtain ⟨w, l, f, b, hw⟩ := set_padding_ok L n a p e pm
  obtain ⟨o, l1, g, -⟩ := a.get
  py [GOST34132015CipherPadding.m_encrypt, f0, g, p.pad_mode, p.set_padding, f]
  exact ⟨w, l, rfl, b, hw⟩

theorem pad_dec_ok (L n : Nat) (me : Nat) {v : Val} {d : Bytes} (e : bytesOf v h = some d) :
    call package L (n + 2) "GOST34132015CipherPadding.decrypt" [.ref me, v] h = ok v h := by
  rw [call_succ Fn.GOST34132015CipherPadding.decrypt]
  have f0 := check_dec_ok L n me e
  py [GOST34132015CipherPadding.m_decrypt, f0]

theorem pad_enc_bad (L n : Nat) (a : ModeAt cls c me cr kr W tl h) (hW : ∀ w ∈ W, w < h.length) {v : Val}
    (e : bytesOf v h = none) :
    ∃ h', call package L (n + 5) "GOST34132015CipherPadding.encrypt" [.ref me, v] h =
        fail (.raised "GOSTCipherError" "GOSTCipherError: invalid plaintext data") h' ∧ Frame [kr] h h' ∧
      ModeAt cls c.clear me cr kr W tl h' := by
  rw [call_succ Fn.GOST34132015CipherPadding.encrypt]
  obtain ⟨h', f, k, a'⟩ := check_enc_bad L n a hW e
  py [GOST34132015CipherPadding.m_encrypt, f]
  exact ⟨h', rfl, k, a'⟩

theorem pad_dec_bad (L n : Nat) (a : ModeAt cls c me cr kr W tl h) (hW : ∀ w ∈ W, w < h.length) {v : Val}
    (e : bytesOf v h = none) :
    ∃ h', call package L (n + 5) "GOST34132015CipherPadding.decrypt" [.ref me, v] h =
        fail (.raised "GOSTCipherError" "GOSTCipherError: invalid ciphertext data") h' ∧ Frame [kr] h h' ∧
      ModeAt cls c.clear me cr kr W tl h' := by
  rw [call_succ Fn.GOST34132015CipherPadding.decrypt]
  obtain ⟨h', f, k, a'⟩ := check_dec_bad L n a hW e
  py [GOST34132015CipherPadding.m_decrypt, f]
  exact ⟨h', rfl, k, a'⟩

/-! Methods and their loops. -/

/-- A method which returns a new byte array or raises an exception and leaves an object in the state of the model. Only
the cells `W` have changed. -/
def Method {σ : Type} (o : Out Val) (h : Heap) (W : List Nat) (At : σ → Heap → Prop) (r : σ × Res Bytes) : Prop :=
  match r.2 with
  | .ok b => ∃ v h', o = ok (.ref v) h' ∧ Frame W h h' ∧ h.length ≤ v ∧ bytesOf (.ref v) h' = some b ∧ At r.1 h'
  | .error e => ∃ h', o = fail (exc e) h' ∧ Frame W h h' ∧ At r.1 h'

theorem Method.fails {σ : Type} {o : Out Val} {h h' : Heap} {W : List Nat} {At : σ → Heap → Prop} {s : σ} {e : Err}
    (f : o = fail (exc e) h') (k : Frame W h h') (a : At s h') : Method o h W At (s, .error e) := ⟨h', f, k, a⟩

theorem Method.returns {σ : Type} {o : Out Val} {h h' : Heap} {W : List Nat} {At : σ → Heap → Prop} {s : σ} {b : Bytes}
    {v : Nat} (f : o = ok (.ref v) h') (k : Frame W h h') (hv : h.length ≤ v) (hb : bytesOf (.ref v) h' = some b)
    (a : At s h') : Method o h W At (s, .ok b) := ⟨v, h', f, k, hv, hb, a⟩

/-- A value whose cells exist. -/
def Known (v : Val) (h : Heap) : Prop := ∀ r, v = .ref r → r < h.length

theorem Known.bytesOf {v : Val} (k : Known v h) (l : Heap) : Src.bytesOf v (h ++ l) = Src.bytesOf v h := by
  cases v with
  | ref r =>
    simp only [Src.bytesOf, List.getElem?_append_left (k r rfl)]
  | _ => rfl

/-- The state of a loop over the blocks of `dv`. -/
structure LoopAt {σ : Type} (At : σ → Heap → Prop) (W : List Nat) (h0 : Heap) (me : Nat) (dv : Val) (d : Bytes) (s : σ)
    (acc : Bytes) (env : Env) (h : Heap) : Prop where
  at_ : At s h
  self_ : env "self" = some (.ref me)
  data : env "data" = some dv
  bytes : bytesOf dv h = some d
  frame : Frame W h0 h
  result : ∃ w, env "result" = some (.ref w) ∧ h0.length ≤ w ∧ bytesOf (.ref w) h = some acc

/-- One turn of the loop. -/
def Turn {σ : Type} (At : σ → Heap → Prop) (W : List Nat) (h : Heap) (me : Nat) (dv : Val) (s : σ) (acc : Bytes)
    (o : Out Flow) (r : Res (σ × Bytes)) : Prop :=
  match r with
  | .ok (s', out) => ∃ env' h' w, o = ok (.next env') h' ∧ Frame W h h' ∧ At s' h' ∧
      env' "self" = some (.ref me) ∧ env' "data" = some dv ∧ env' "result" = some (.ref w) ∧ h.length ≤ w ∧
      bytesOf (.ref w) h' = some (acc ++ out)
  | .error e => ∃ h', o = fail (exc e) h' ∧ Frame W h h' ∧ At s h'

/-- The loop. -/
def Loop {σ : Type} (At : σ → Heap → Prop) (W : List Nat) (h0 : Heap) (me : Nat) (dv : Val) (d : Bytes) (o : Out Flow)
    (r : σ × Res Bytes) : Prop :=
  match r.2 with
  | .ok b => ∃ env' h', o = ok (.next env') h' ∧ LoopAt At W h0 me dv d r.1 b env' h'
  | .error e => ∃ h', o = fail (exc e) h' ∧ Frame W h0 h' ∧ At r.1 h'

theorem for_blockLoop {σ : Type} {At : σ → Heap → Prop} {W : List Nat} {h0 : Heap} {me bs : Nat} {dv : Val} {d : Bytes}
    {step : σ → Bytes → Res (σ × Bytes)} {x : String} {body : Env → Heap → Out Flow} (hd : Apart W dv)
    (hb : ∀ (i : Nat) s acc env h, LoopAt At W h0 me dv d s acc env h →
      Turn At W h me dv s acc (body (env.set x (.int i)) h) (step s (getBlock bs d i))) :
    ∀ (is : List Nat) s acc env h, LoopAt At W h0 me dv d s acc env h →
      Loop At W h0 me dv d (forLoop x body (is.map fun i : Nat => .int i) env h) (blockLoop step bs d is s acc) := by
  intro is
  induction is with
  | nil => exact fun s acc env h a => ⟨env, h, rfl, a⟩
  | cons i is ih =>
    intro s acc env h a
    rw [List.map_cons, forLoop, blockLoop]
    have := hb i s acc env h a
    generalize step s (getBlock bs d i) = res at this
    match res with
    | .error e =>
      obtain ⟨h', f, k, a'⟩ := this
      rw [f]
      exact ⟨h', rfl, a.frame.trans k, a'⟩
    | .ok (s', out) =>
      obtain ⟨env', h', w, f, k, a', e1, e2, e3, hw, b⟩ := this
      rw [f]
      exact ih s' (acc ++ out) env' h' ⟨a', e1, e2, k.bytesOf a.bytes hd, a.frame.trans k, w, e3,
        Nat.le_trans a.frame.1 hw, b⟩

/-- The same for a loop with a given outcome. -/
theorem for_blocks {σ : Type} {x : String} {body : Env → Heap → Out Flow} {is : List Nat} {env : Env} {h : Heap}
    {o : Out Flow} (hl : forLoop x body (is.map fun i : Nat => .int i) env h = o) {At : σ → Heap → Prop} {W : List Nat}
    {h0 : Heap} {me bs : Nat} {dv : Val} {d acc : Bytes} (step : σ → Bytes → Res (σ × Bytes)) {s : σ} (hd : Apart W dv)
    (start : LoopAt At W h0 me dv d s acc env h)
    (hb : ∀ (i : Nat) s acc env h, LoopAt At W h0 me dv d s acc env h →
      Turn At W h me dv s acc (body (env.set x (.int i)) h) (step s (getBlock bs d i))) :
    Loop At W h0 me dv d o (blockLoop step bs d is s acc) := by
  rw [← hl]
  exact for_blockLoop hd hb is s acc env h start

/-! ECB. -/

/-- The cell `me` is an object of `GOST34132015ecb`. -/
def EcbAt (me cr kr : Nat) (s : Ecb) (h : Heap) : Prop :=
  ModeAt "GOST34132015ecb" s.obj me cr kr [] [("_pad_mode", .int s.padMode)] h

theorem EcbAt.apart {s : Ecb} (a : EcbAt me cr kr s h) {v : Val} {d : Bytes} (e : bytesOf v h = some d) :
    Apart [kr] v := by
  obtain ⟨_, vs, -, -, h1, -⟩ := a.rep
  refine apart_of_noBytes e fun w hw => ?_
  simp only [List.mem_singleton] at hw
  subst hw
  rw [h1]
  rfl

theorem ecb_encrypt (L n : Nat) {s : Ecb} (a : EcbAt me cr kr s h) {v : Val} (hv : Known v h) :
    Method (call package L (n + 7) "GOST34132015ecb.encrypt" [.ref me, v] h) h [kr] (EcbAt me cr kr)
      (s.encrypt (pyVal v h)) := by
  rw [call_succ Fn.GOST34132015ecb.encrypt]
  unfold Ecb.encrypt
  rw [pyVal_data]
  have x := (Ext.refl h).add [.bytearray []]
  cases e : bytesOf v h with
  | none =>
    obtain ⟨h', f, k, a'⟩ := pad_enc_bad L (n + 1) (a.ext x) (by simp) ((hv.bytesOf _).trans e)
    py [GOST34132015ecb.m_encrypt, f]
    exact .fails rfl ((x.frame _).trans k) a'
  | some d =>
    simp only
    obtain ⟨w, l, f, b, hw⟩ := pad_enc_ok L n (a.ext x) (Or.inl rfl) (x.bytesOf e)
    have x1 := x.add l
    have a1 := a.ext x1
    have hb : bytesOf (.ref h.length) (h ++ [.bytearray []] ++ l) = some [] := bytesOf_mono (bytesOf_last _ _) l
    generalize h ++ [.bytearray []] ++ l = H at *
    have f1 := num_block_ok L (n + 3) a1 b
    obtain ⟨o, l1, g, -⟩ := a1.get
    py [GOST34132015ecb.m_encrypt, f, g, f1]
    rw [pyRange_up]
    generalize setPadding s.obj.blockSize d s.padMode = d' at *
    generalize hl : forLoop _ _ _ _ _ = lo
    have := for_blocks hl (At := fun s' h => EcbAt me cr kr s' h ∧ s' = s) (h0 := h) (bs := s.obj.blockSize) (me := me)
      (fun (s' : Ecb) b => do let c ← s'.obj.encrypt b; pure (s', c)) (EcbAt.apart a1 b)
      ⟨⟨a1, rfl⟩, by py [], by py [], b, x1.frame _, h.length, by py [], Nat.le_refl _, hb⟩
      (by
        rintro i s' acc env h1 ⟨⟨q, rfl⟩, e1, e2, b1, k, w1, e3, hw1, b2⟩
        obtain ⟨o, l2, g, g2⟩ := q.get
        obtain ⟨w2, l3, f2, b3, -⟩ := get_block_ok L (n + 3) q b1 i
        have x2 := (Ext.refl h1).add l3
        have q2 := q.ext x2
        rcases (enc_ok L (n + 1) q2 b3).cases with ⟨y, w4, l4, hr, f4, hw4, b4⟩ | ⟨y, l4, hr, f4⟩
        · rw [hr]
          py [e1, e2, e3, g, g2, f2, meth_enc, f4, b4, b2]
          have x3 := (x2.add l4).add [.bytearray (acc ++ y)]
          exact ⟨_, _, _, rfl, x3.frame _, ⟨q.ext x3, rfl⟩, by py [e1], by py [e2], by py [], (x2.add l4).length,
            bytesOf_last _ _⟩
        · rw [hr]
          py [e1, e2, e3, g, g2, f2, meth_enc, f4]
          exact ⟨_, rfl, (x2.add _).frame _, q2.ext ((Ext.refl _).add _), rfl⟩)
    · generalize blockLoop _ _ _ _ _ _ = r at this
      obtain ⟨s', r⟩ := r
      cases r with
      | error e =>
        obtain ⟨h', rfl, k, a'⟩ := this
        py []
        exact .fails rfl k a'.1
      | ok y =>
        obtain ⟨env, h', rfl, q⟩ := this
        obtain ⟨w', e1, hw', b'⟩ := q.result
        py [e1]
        exact .returns rfl q.frame hw' b' q.at_.1

theorem ecb_decrypt (L n : Nat) {s : Ecb} (a : EcbAt me cr kr s h) {v : Val} (hv : Known v h) :
    Method (call package L (n + 7) "GOST34132015ecb.decrypt" [.ref me, v] h) h [kr] (EcbAt me cr kr)
      (s.decrypt (pyVal v h)) := by
  rw [call_succ Fn.GOST34132015ecb.decrypt]
  unfold Ecb.decrypt
  rw [pyVal_data]
  have x := (Ext.refl h).add [.bytearray []]
  cases e : bytesOf v h with
  | none =>
    obtain ⟨h', f, k, a'⟩ := pad_dec_bad L (n + 1) (a.ext x) (by simp) ((hv.bytesOf _).trans e)
    py [GOST34132015ecb.m_decrypt, f]
    exact .fails rfl ((x.frame _).trans k) a'
  | some d =>
    simp only
    have f := pad_dec_ok L (n + 4) me (x.bytesOf e)
    have a1 := a.ext x
    have b := x.bytesOf e
    have hb : bytesOf (.ref h.length) (h ++ [.bytearray []]) = some [] := bytesOf_last _ _
    have f1 := num_block_ok L (n + 3) a1 b
    obtain ⟨o, l1, g, -⟩ := a1.get
    py [GOST34132015ecb.m_decrypt, f, g, f1]
    rw [pyRange_up]
    generalize hl : forLoop _ _ _ _ _ = lo
    have := for_blocks hl (At := fun s' h => EcbAt me cr kr s' h ∧ s' = s) (h0 := h) (bs := s.obj.blockSize) (me := me)
      (fun (s' : Ecb) b => do let c ← s'.obj.decrypt b; pure (s', c)) (EcbAt.apart a1 b)
      ⟨⟨a1, rfl⟩, by py [], by py [], b, x.frame _, h.length, by py [], Nat.le_refl _, hb⟩
      (by
        rintro i s' acc env h1 ⟨⟨q, rfl⟩, e1, e2, b1, k, w1, e3, hw1, b2⟩
        obtain ⟨o, l2, g, g2⟩ := q.get
        obtain ⟨w2, l3, f2, b3, -⟩ := get_block_ok L (n + 3) q b1 i
        have x2 := (Ext.refl h1).add l3
        have q2 := q.ext x2
        rcases (dec_ok L (n + 1) q2 b3).cases with ⟨y, w4, l4, hr, f4, hw4, b4⟩ | ⟨y, l4, hr, f4⟩
        · rw [hr]
          py [e1, e2, e3, g, g2, f2, meth_dec, f4, b4, b2]
          have x3 := (x2.add l4).add [.bytearray (acc ++ y)]
          exact ⟨_, _, _, rfl, x3.frame _, ⟨q.ext x3, rfl⟩, by py [e1], by py [e2], by py [], (x2.add l4).length,
            bytesOf_last _ _⟩
        · rw [hr]
          py [e1, e2, e3, g, g2, f2, meth_dec, f4]
          exact ⟨_, rfl, (x2.add _).frame _, q2.ext ((Ext.refl _).add _), rfl⟩)
    · generalize blockLoop _ _ _ _ _ _ = r at this
      obtain ⟨s', r⟩ := r
      cases r with
      | error e =>
        obtain ⟨h', rfl, k, a'⟩ := this
        py []
        exact .fails rfl k a'.1
      | ok y =>
        obtain ⟨env, h', rfl, q⟩ := this
        obtain ⟨w', e1, hw', b'⟩ := q.result
        py [e1]
        exact .returns rfl q.frame hw' b' q.at_.1

/-! Constructors. -/

theorem keeps_of_frame {W : List Nat} {h h' : Heap} (f : Frame W h h') (n : ∀ r ∈ W, noBytes h[r]? = true) :
    Keeps W h h' := ⟨f, fun e => f.bytesOf e (apart_of_noBytes e n)⟩

theorem pad_mode_in (p : Int) (h : Heap) :
    valIn (.int p) h [.int 2147483888, .int 2147483889] = some (decide (p = padMode1 ∨ p = padMode2)) := by
  have e1 : valEq (.int p) (.int 2147483888) h = some (p == 2147483888) := rfl
  have e2 : valEq (.int p) (.int 2147483889) h = some (p == 2147483889) := rfl
  unfold valIn valIn valIn padMode1 padMode2
  rw [e1, e2]
  by_cases h1 : p = 2147483888
  · simp [h1]
  · by_cases h2 : p = 2147483889
    · simp [h2]
    · simp [h1, h2, show (p == 2147483888) = false by simpa using h1, show (p == 2147483889) = false by simpa using h2]

/-- What a constructor does. -/
def Init {σ : Type} (o : Out Val) (r : Res σ) (me : Nat) (h : Heap) (At : Nat → Nat → σ → Heap → Prop) : Prop :=
  match r with
  | .ok s => ∃ cr kr h', o = ok .none h' ∧ Keeps [me] h h' ∧ h.length ≤ cr ∧ h.length < kr ∧ At cr kr s h'
  | .error e => ∃ h', o = fail (exc e) h' ∧ Keeps [me] h h'

/-- What `cls(…)` does. -/
def New {σ : Type} (o : Out Val) (r : Res σ) (h : Heap) (At : Nat → Nat → σ → Heap → Prop) : Prop :=
  match r with
  | .ok s => ∃ cr kr h', o = ok (.ref h.length) h' ∧ Ext h h' ∧ h.length ≤ cr ∧ h.length < kr ∧ At cr kr s h'
  | .error e => ∃ h', o = fail (exc e) h' ∧ Ext h h'

theorem pad_init (L n : Nat) (o : h[me]? = some (.inst cls [])) (p : IsPad cls) (a : String) (v : Val) (pm : Int) :
    Init (call package L (n + 6) "GOST34132015CipherPadding.__init__" [.ref me, .str a, v, .int pm] h)
      (Ecb.init a (pyVal v h) pm) me h
      (fun cr kr s h' => ModeAt cls s.obj me cr kr [] [("_pad_mode", .int s.padMode)] h') := by
  rw [call_succ Fn.GOST34132015CipherPadding.__init__]
  have := base_init L n o p.mode grows_nil a v
  unfold Ecb.init
  generalize baseInit a (pyVal v h) = res at this
  cases res with
  | error e =>
    obtain ⟨l, f⟩ := this
    rw [error_bind]
    py [GOST34132015CipherPadding.m___init__, f]
    exact ⟨_, rfl, ((Ext.refl h).add l).keeps _⟩
  | ok c =>
    obtain ⟨cr, kr, H, f, k, hcr, hkr, m⟩ := this
    rw [ok_bind]
    obtain ⟨o1, l1, g, -⟩ := m.get
    by_cases hp : pm = padMode1 ∨ pm = padMode2
    · rw [if_neg (by rcases hp with rfl | rfl <;> simp [padMode1, padMode2])]
      py [GOST34132015CipherPadding.m___init__, f, Streebog.cmp_notIn (pad_mode_in pm H), hp, decide_true, Bool.not_true]
      upd g with H1 g1 k1 m1
      exact ⟨cr, kr, H1, rfl, k.trans k1, hcr, hkr, m.upd g k1.frame g1⟩
    · rw [if_pos (by simpa using hp)]
      obtain ⟨w, H1, f1, k1, m1⟩ := clear_ok L (n + 2) m (by simp)
      py [GOST34132015CipherPadding.m___init__, f, Streebog.cmp_notIn (pad_mode_in pm H), hp, decide_false, Bool.not_false, g,
        p.mode.clear, f1]
      refine ⟨H1, rfl, keeps_of_frame (k.frame.then k1 ?_) ?_⟩
      · simp
        omega
      · simp [o, noBytes]

theorem Known.pyVal {v : Val} (k : Known v h) (l : Heap) : Src.pyVal v (h ++ l) = Src.pyVal v h := by
  cases v with
  | bytes b => rfl
  | _ => simp only [Src.pyVal, k.bytesOf]

theorem Init.new {σ : Type} {o : Out Val} {r : Res σ} {x : Obj} {At : Nat → Nat → σ → Heap → Prop}
    (i : Init o r h.length (h ++ [x]) At) :
    New (andThen o fun _ h' => ok (.ref h.length) h') r h At := by
  have hx : ∀ {h'}, Keeps [h.length] (h ++ [x]) h' → Ext h h' := fun k =>
    Frame.ext (((Frame.refl [] h).add _).then k.frame (by simp))
  cases r with
  | ok s =>
    obtain ⟨cr, kr, h', rfl, k, h1, h2, a⟩ := i
    simp only [List.length_append, List.length_singleton] at h1 h2
    exact ⟨cr, kr, h', rfl, hx k, by omega, by omega, a⟩
  | error e =>
    obtain ⟨h', rfl, k⟩ := i
    exact ⟨h', rfl, hx k⟩

theorem ecb_new (L n : Nat) {h : Heap} (a : String) {v : Val} (hv : Known v h) (pm : Int) :
    New (instantiate (ctx L (n + 6)) "GOST34132015ecb" [.str a, v, .int pm] h) (Ecb.init a (pyVal v h) pm) h
      (EcbAt h.length) := by
  unfold instantiate
  py []
  rw [← hv.pyVal [.inst "GOST34132015ecb" []]]
  exact (pad_init L n (get_last h (.inst "GOST34132015ecb" [])) (Or.inl rfl) a v pm).new

end ModesSrc

end Gost.Src
