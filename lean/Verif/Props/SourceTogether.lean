import Verif.Props.SourceDefects

/-! C107: programs in which the results of one module are the arguments of another, as they are written: encryption and
decryption by two objects, with a given key and with keys derived from a password. -/

namespace Gost.Src

open Spec ModesSrc

/-- Two steps which each return new bytes. -/
theorem NewBytes.andThen {o : Out Val} {h : Heap} {b b' : Bytes} {k : Val → Heap → Out Val} (x : NewBytes o h b)
    (y : ∀ r h', Ext h h' → bytesOf (.ref r) h' = some b → NewBytes (k (.ref r) h') h' b') : NewBytes (andThen o k) h b' := by
  obtain ⟨r, l, rfl, hr, e⟩ := x.elim
  obtain ⟨r', l', e2, hr', e'⟩ := (y r (h ++ l) ((Ext.refl h).add l) e).elim
  rw [andThen_ok, e2]
  exact .intro (((Ext.refl h).add l).add l') (by rw [List.length_append] at hr'; omega) e'

/-- The contents of key and vector are all that matters. -/
theorem newCipher_data (alg : String) (m : Int) (pad : Option Int) {kv kv' iv iv' : PyVal} {key i : Bytes}
    (h1 : kv.data? = some key) (h2 : kv'.data? = some key) (h3 : iv.data? = some i) (h4 : iv'.data? = some i) :
    newCipher alg kv m pad (some iv) none = newCipher alg kv' m pad (some iv') none := by
  cases kv <;> cases kv' <;> first | cases h1; done | cases h2; done | skip
  all_goals (cases h1; cases h2)
  all_goals (cases iv <;> cases iv' <;> first | cases h3; done | cases h4; done | skip)
  all_goals (cases h3; cases h4)
  all_goals rfl

/-- `gostcipher.new(alg, key, mode, **kwargs).m(data)`. -/
def cipherOnce (C : Ctx) (m alg : String) (key : Val) (mode : Int) (kwargs : List (String × Val)) (data : Val) (h : Heap) :
    Out Val :=
  andThen (C.call "Modes.new" [.str alg, key, .int mode, .dict kwargs] h) fun o h => callMeth C o m [data] h

theorem cipherOnce_ok (L n : Nat) (h : Heap) (alg : String) {kv : Val} (hk : Known kv h) (mode : Int)
    {l : List (String × Val)} {pad : Option Int} {iv data : Option PyVal} (k : KwArgs l h pad iv data) {c : Cipher}
    (e : newCipher alg (pyVal kv h) mode pad iv data = .ok c) (hc : Enciphers c) {v : Val} (hv : Known v h) {b : Bytes} :
    ((encryptOf c (pyVal v h)).2 = .ok b → NewBytes (cipherOnce (ctx L (n + 9)) "encrypt" alg kv mode l v h) h b) ∧
    ((decryptOf c (pyVal v h)).2 = .ok b → NewBytes (cipherOnce (ctx L (n + 9)) "decrypt" alg kv mode l v h) h b) := by
  have := C101_new L (n + 1) h alg kv hk mode l pad iv data k
  rw [e] at this
  obtain ⟨me, P, h', f, ⟨w, rfl⟩, h1, h2, a⟩ := this
  have hv' : Known v (h ++ w) := fun r hr => by have := hv r hr; rw [List.length_append]; omega
  have hP : ∀ p ∈ P, v ≠ .ref p := fun p hp e => by have := hv p e; have := h2 p hp; omega
  have hpv : pyVal v (h ++ w) = pyVal v h := frame_pyVal (((Ext.refl h).add w).frame []) hv (by simp)
  obtain ⟨m1, m2⟩ := C101_methods L n _ c hc me P a v hv' hP
  rw [hpv] at m1 m2
  have fin : ∀ {o : Out Val} {r : Cipher × Res Bytes}, Method o (h ++ w) P (fun c h => IsCipher c me P h) r →
      r.2 = .ok b → NewBytes o h b := by
    intro o r m hr
    unfold Method at m
    rw [hr] at m
    obtain ⟨v', h'', f', k', hv', hb, -⟩ := m
    rw [f']
    have hx : Ext h h'' := ((((Ext.refl h).add w).frame P).trans k').mono (W' := []) (fun p hp hl => by
      have := h2 p hp; omega) |>.ext
    exact .intro hx (by rw [List.length_append] at hv'; omega) hb
  unfold cipherOnce
  rw [show (ctx L (n + 9)).call = call package L (n + 1 + 8) from rfl, f, andThen_ok]
  exact ⟨fin m1, fin m2⟩

/-- Both keyword arguments. -/
theorem kwIvPad {h : Heap} {v : Val} {iv : Bytes} (e : bytesOf v h = some iv) (pad : Int) :
    KwArgs [("init_vect", v), ("pad_mode", .int pad)] h (some pad) (some (pyVal v h)) none := by
  refine ⟨rfl, rfl, rfl, fun k w hw => ?_⟩
  simp only [findAttr] at hw
  split at hw
  · cases hw
    exact known_bytes e
  · split at hw
    · cases hw
      exact fun r hr => by cases hr
    · cases hw

/-- What the reader gets for the message, without a padding. -/
def Exactly (msg out : Bytes) : Prop := out = msg

/-- What the reader gets for the message, with `pad_mode`. -/
def Padded (a : Alg) (pad : Int) (msg out : Bytes) : Prop :=
  (pad = padMode1 → ZeroPadded a.blockSize msg out) ∧ (pad = padMode2 → MarkPadded a.blockSize msg out)

/-- The modes, the values which they accept for the vector (ECB does not look at it), and what the reader gets. -/
inductive Mode (a : Alg) (pad : Int) (iv : Bytes) : Int → (Bytes → Bytes → Prop) → Prop
  | ecb : (pad = padMode1 ∨ pad = padMode2) → Mode a pad iv modeEcb (Padded a pad)
  | cbc : (pad = padMode1 ∨ pad = padMode2) → 0 < iv.length → iv.length % a.blockSize = 0 →
      Mode a pad iv modeCbc (Padded a pad)
  | cfb : 0 < iv.length → iv.length % a.blockSize = 0 → Mode a pad iv modeCfb Exactly
  | ofb : 0 < iv.length → iv.length % a.blockSize = 0 → Mode a pad iv modeOfb Exactly
  | ctr : iv.length = a.blockSize / 2 → Mode a pad iv modeCtr Exactly

/-- The model: one object for the writer and the reader. -/
theorem mode_model {a : Alg} {pad : Int} {iv : Bytes} {mode : Int} {R : Bytes → Bytes → Prop} (m : Mode a pad iv mode R)
    (kv ivv mv : PyVal) (key msg : Bytes) (hk : kv.data? = some key) (hl : key.length = 32) (hi : ivv.data? = some iv)
    (hm : mv.data? = some msg) :
    ∃ c ct out, newCipher a.name kv mode (some pad) (some ivv) none = .ok c ∧ Enciphers c ∧
      (encryptOf c mv).2 = .ok ct ∧ R msg out ∧ ∀ cv : PyVal, cv.data? = some ct → (decryptOf c cv).2 = .ok out := by
  cases m with
  | ecb hp =>
    obtain ⟨s, ct, out, e1, e2, e3, -, e4⟩ := C05_ecb_round_trip a kv mv key msg hk hl hm pad hp
    exact ⟨.ecb s, ct, out, e1, trivial, e2, e4, e3⟩
  | cbc hp h0 hv =>
    obtain ⟨s, ct, out, e1, e2, e3, -, e4⟩ := C06_cbc_round_trip a kv ivv mv key iv msg hk hl hi h0 hv hm pad hp
    exact ⟨.cbc s, ct, out, e1, trivial, e2, e4, e3⟩
  | cfb h0 hv =>
    obtain ⟨s, ct, e1, e2, -, e3⟩ := C07_cfb_round_trip a kv ivv mv key iv msg hk hl hi h0 hv hm
    exact ⟨.cfb s, ct, msg, e1, trivial, e2, rfl, e3⟩
  | ofb h0 hv =>
    obtain ⟨s, ct, e1, e2, -, e3⟩ := C08_ofb_round_trip a kv ivv mv key iv msg hk hl hi h0 hv hm
    exact ⟨.ofb s, ct, msg, e1, trivial, e2, rfl, e3⟩
  | ctr hv =>
    obtain ⟨s, ct, e1, e2, -, e3⟩ := C09_ctr_round_trip a kv ivv mv key iv msg hk hl hi hv hm
    exact ⟨.ctr s, ct, msg, e1, trivial, e2, rfl, e3⟩

section
variable (L n : Nat) (h : Heap) {a : Alg} {pad : Int} {iv : Bytes} {mode : Int} {R : Bytes → Bytes → Prop}
  (m : Mode a pad iv mode R) {v1 v2 : Val} (e1 : bytesOf v1 h = some iv) (e2 : bytesOf v2 h = some iv) {msgv : Val}
  {msg : Bytes} (em : bytesOf msgv h = some msg)

include m e1 e2 em

/-- Both sides, with values of the keys which the memory has at that time. -/
theorem both_sides {key : Bytes} (hl : key.length = 32) {k1 : Val} (ek : bytesOf k1 h = some key) :
    ∃ ct out, R msg out ∧
      NewBytes (cipherOnce (ctx L (n + 9)) "encrypt" a.name k1 mode [("init_vect", v1), ("pad_mode", .int pad)] msgv h) h ct ∧
      ∀ h', Ext h h' → ∀ cv k2, bytesOf cv h' = some ct → bytesOf k2 h' = some key →
        NewBytes (cipherOnce (ctx L (n + 9)) "decrypt" a.name k2 mode [("init_vect", v2), ("pad_mode", .int pad)] cv h')
          h' out := by
  obtain ⟨c, ct, out, f1, f2, f3, f4, f5⟩ := mode_model m (pyVal k1 h) (pyVal v1 h) (pyVal msgv h) key msg
    ((pyVal_data k1 h).trans ek) hl ((pyVal_data v1 h).trans e1) ((pyVal_data msgv h).trans em)
  refine ⟨ct, out, f4, (cipherOnce_ok L n h a.name (known_bytes ek) mode (kwIvPad e1 pad) f1 f2 (known_bytes em)).1 f3,
    fun h' x cv k2 ec ek2 => ?_⟩
  have e2' := (x.keeps []).bytes e2
  refine (cipherOnce_ok L n h' a.name (known_bytes ek2) mode (kwIvPad e2' pad) (c := c) ?_ f2 (known_bytes ec)).2
    (f5 _ ((pyVal_data cv h').trans ec))
  rw [← f1]
  exact newCipher_data a.name mode (some pad) ((pyVal_data k2 h').trans ek2) ((pyVal_data k1 h).trans ek)
    ((pyVal_data v2 h').trans e2') ((pyVal_data v1 h).trans e1)

/-- The program
`ct = gostcipher.new(alg, k1, mode, init_vect=v1, pad_mode=pad).encrypt(msg)`,
`gostcipher.new(alg, k2, mode, init_vect=v2, pad_mode=pad).decrypt(ct)`. -/
def sendRead (C : Ctx) (alg : String) (k1 k2 : Val) (mode pad : Int) (v1 v2 msg : Val) (h : Heap) : Out Val :=
  andThen (cipherOnce C "encrypt" alg k1 mode [("init_vect", v1), ("pad_mode", .int pad)] msg h) fun ct h =>
    cipherOnce C "decrypt" alg k2 mode [("init_vect", v2), ("pad_mode", .int pad)] ct h

/-- C107, two objects with the same key and vector, which may be the same or different byte objects: what one encrypts
the other decrypts. The result is the message in CFB, OFB and CTR, and the padded message in ECB and CBC. -/
theorem C107_send {key : Bytes} (hl : key.length = 32) {k1 k2 : Val} (ek : bytesOf k1 h = some key)
    (ek2 : bytesOf k2 h = some key) :
    ∃ out, R msg out ∧ NewBytes (sendRead (ctx L (n + 9)) a.name k1 k2 mode pad v1 v2 msgv h) h out := by
  obtain ⟨ct, out, r, f1, f2⟩ := both_sides L n h m e1 e2 em hl ek
  exact ⟨out, r, f1.andThen fun r h' x ec => f2 h' x _ _ ec ((x.keeps []).bytes ek2)⟩

/-- The program
`k1 = gostpbkdf.new(pw1, salt=s1, counter=c).derive(32)`,
`ct = gostcipher.new(alg, k1, mode, init_vect=v1, pad_mode=pad).encrypt(msg)`,
`k2 = gostpbkdf.new(pw2, salt=s2, counter=c).derive(32)`,
`gostcipher.new(alg, k2, mode, init_vect=v2, pad_mode=pad).decrypt(ct)`. -/
def sendPassword (C : Ctx) (alg : String) (pw1 s1 pw2 s2 : Val) (c : Nat) (mode pad : Int) (v1 v2 msg : Val) (h : Heap) :
    Out Val :=
  andThen (pbkdfMany C pw1 s1 c [] 32 h) fun k1 h =>
    andThen (cipherOnce C "encrypt" alg k1 mode [("init_vect", v1), ("pad_mode", .int pad)] msg h) fun ct h =>
      andThen (pbkdfMany C pw2 s2 c [] 32 h) fun k2 h =>
        cipherOnce C "decrypt" alg k2 mode [("init_vect", v2), ("pad_mode", .int pad)] ct h

/-- C107, the same with keys derived from a password on both sides. -/
theorem C107_password {pw1 s1 pw2 s2 : Val} {pw salt : Bytes} (p1 : bytesOf pw1 h = some pw) (p2 : bytesOf pw2 h = some pw)
    (hpw : pw.length ≤ 64) (q1 : bytesOf s1 h = some salt) (q2 : bytesOf s2 h = some salt) (hne : salt ≠ []) (c : Nat) :
    ∃ out, R msg out ∧
      NewBytes (sendPassword (ctx L (n + 11)) a.name pw1 s1 pw2 s2 c mode pad v1 v2 msgv h) h out := by
  have d1 := C99_standard L n h pw1 s1 pw salt p1 hpw q1 hne c [] (by simp) 32 (by omega)
  obtain ⟨r, l, f, hr, ek⟩ := d1.elim
  have x1 := (Ext.refl h).add l
  have B := fun {v b} (e : bytesOf v h = some b) => (x1.keeps []).bytes e
  obtain ⟨ct, out, ho, g1, g2⟩ := both_sides L (n + 2) (h ++ l) m (B e1) (B e2) (B em) (C32_length pw salt c 32) ek
  refine ⟨out, ho, ?_⟩
  have := g1.andThen (b' := out) (k := fun ct h => andThen (pbkdfMany (ctx L (n + 11)) pw2 s2 c [] 32 h) fun k2 h =>
        cipherOnce (ctx L (n + 11)) "decrypt" a.name k2 mode [("init_vect", v2), ("pad_mode", .int pad)] ct h)
    fun rc h1 y1 ec => by
      have C1 := fun {v b} (e : bytesOf v h = some b) => (y1.keeps []).bytes (B e)
      have d2 := C99_standard L n h1 pw2 s2 pw salt (C1 p2) hpw (C1 q2) hne c [] (by simp) 32 (by omega)
      exact d2.andThen fun rk h2 y2 ek2 => g2 h2 (y1.trans y2) _ _ ((y2.keeps []).bytes ec) ek2
  obtain ⟨r', l', f', hr', e'⟩ := this.elim
  unfold sendPassword
  rw [f, andThen_ok]
  rw [show (ctx L (n + 11)) = ctx L (n + 2 + 9) from rfl] at f'
  rw [f']
  exact .intro (x1.add l') (by rw [List.length_append] at hr'; omega) e'

end

/-! Values which meet the hypotheses. -/

/-- A password of five bytes, the salt [1], Kuznechik in CTR mode. -/
example (L n : Nat) : let h : Heap := [.bytearray [0x68, 0x65, 0x6c, 0x6c, 0x6f], .bytearray [1], .bytearray (Ex.count 1 8),
      .bytearray [9, 9, 9]]
    NewBytes (sendPassword (ctx L (n + 11)) "kuznechik" (.ref 0) (.ref 1) (.bytes [0x68, 0x65, 0x6c, 0x6c, 0x6f]) (.bytes [1])
      2000 modeCtr padMode1 (.ref 2) (.bytes (Ex.count 1 8)) (.ref 3) h) h [9, 9, 9] := by
  intro h
  obtain ⟨out, rfl, f⟩ := C107_password L n h (a := .kuznechik) (pad := padMode1) (iv := Ex.count 1 8) (.ctr (by decide))
    (v1 := .ref 2) (v2 := .bytes (Ex.count 1 8)) rfl rfl (msgv := .ref 3) rfl (pw1 := .ref 0) (s1 := .ref 1)
    (pw2 := .bytes [0x68, 0x65, 0x6c, 0x6c, 0x6f]) (s2 := .bytes [1]) rfl rfl (by decide) rfl rfl (by simp) 2000
  exact f

end Gost.Src
