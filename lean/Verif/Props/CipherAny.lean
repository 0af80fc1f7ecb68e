import Verif.Proofs.Cleared
import Verif.Props.CipherStore

/-! Property C71: calls of every kind on one cipher object. -/

namespace Gost
open Spec (Alg blocks rest CipherOp cbcCall cfbCall ofbCall ctrCall ecbCall InverseOn AnyOp AnyAns anyRun)

/-- What a call of the package stands for. -/
def CipherCall.any : CipherCall → AnyOp
  | .encrypt v => match v.data? with
    | some d => .op (.encrypt d)
    | none => .badPlain
  | .decrypt v => match v.data? with
    | some d => .op (.decrypt d)
    | none => .badCipher
  | .clear => .clear

/-- The answers as values of Python. -/
def anyRes : AnyAns → Res Bytes
  | .bytes b => .ok b
  | .badPlain => .error (.cipherError "GOSTCipherError: invalid plaintext data")
  | .badCipher => .error (.cipherError "GOSTCipherError: invalid ciphertext data")

/-- Objects and logs which correspond behave alike for ever. -/
theorem any_sim {σ X : Type} (R : Bool → σ → X → Prop) (enc dec : σ → PyVal → σ × Res Bytes)
    (clr : σ → σ) (call : Bool → X → CipherOp → X × Bytes)
    (he : ∀ c s x v d, R c s x → v.data? = some d →
      R c (enc s v).1 (call c x (.encrypt d)).1 ∧ (enc s v).2 = .ok (call c x (.encrypt d)).2)
    (hd : ∀ c s x v d, R c s x → v.data? = some d →
      R c (dec s v).1 (call c x (.decrypt d)).1 ∧ (dec s v).2 = .ok (call c x (.decrypt d)).2)
    (hc : ∀ c s x, R c s x → R true (clr s) x)
    (he0 : ∀ s v, v.data? = none →
      enc s v = (clr s, .error (.cipherError "GOSTCipherError: invalid plaintext data")))
    (hd0 : ∀ s v, v.data? = none →
      dec s v = (clr s, .error (.cipherError "GOSTCipherError: invalid ciphertext data")))
    (c : Bool) (s : σ) (x : X) (h : R c s x) (cs : List CipherCall) :
    (∃ c', R c' (afterHistory enc dec clr s cs) (anyRun call c x (cs.map CipherCall.any)).1) ∧
      runHistory enc dec clr s cs = (anyRun call c x (cs.map CipherCall.any)).2.map anyRes := by
  induction cs generalizing c s x with
  | nil => exact ⟨⟨c, h⟩, rfl⟩
  | cons k cs ih =>
    cases k with
    | encrypt v =>
      cases hv : v.data? with
      | none =>
        have := ih true (clr s) x (hc c s x h)
        simp only [List.map_cons, CipherCall.any, hv, anyRun, runHistory, afterHistory, he0 s v hv]
        exact ⟨this.1, by rw [this.2]; rfl⟩
      | some d =>
        have hs := he c s x v d h hv
        have := ih c _ _ hs.1
        simp only [List.map_cons, CipherCall.any, hv, anyRun, runHistory, afterHistory]
        exact ⟨this.1, by rw [this.2, hs.2]; rfl⟩
    | decrypt v =>
      cases hv : v.data? with
      | none =>
        have := ih true (clr s) x (hc c s x h)
        simp only [List.map_cons, CipherCall.any, hv, anyRun, runHistory, afterHistory, hd0 s v hv]
        exact ⟨this.1, by rw [this.2]; rfl⟩
      | some d =>
        have hs := hd c s x v d h hv
        have := ih c _ _ hs.1
        simp only [List.map_cons, CipherCall.any, hv, anyRun, runHistory, afterHistory]
        exact ⟨this.1, by rw [this.2, hs.2]; rfl⟩
    | clear =>
      have := ih true (clr s) x (hc c s x h)
      simpa only [List.map_cons, CipherCall.any, anyRun, runHistory, afterHistory] using this

/-- The encryption of an object which has been cleared or not. -/
def encNow (a : Alg) (key : Bytes) (c : Bool) : Bytes → Bytes := if c then a.cleared else a.encrypt key

/-- A cipher object of the algorithm which implements the two maps of the flag. -/
structure Now (a : Alg) (key : Bytes) (D : Bool → Bytes → Bytes) (c : Bool) (o : CipherObj) : Prop where
  good : o.Good
  bs : o.blockSize = a.blockSize
  impl : Implements o (encNow a key c) (D c)

theorem Now.clear {a : Alg} {key : Bytes} {D : Bytes → Bytes} {c : Bool} {o : CipherObj}
    (h : Now a key (fun c => if c then clearedD a else D) c o) :
    Now a key (fun c => if c then clearedD a else D) true o.clear :=
  ⟨h.good.clear, by rw [CipherObj.clear_blockSize, h.bs], clear_implements a h.good h.bs⟩

theorem inverse_cleared (a : Alg) : InverseOn a.blockSize a.cleared (clearedD a) := by
  have h := clear_implements a (clearedObj_good a) (clearedObj_blockSize a)
  have hb : (clearedObj a).clear.blockSize = a.blockSize := by
    rw [CipherObj.clear_blockSize, clearedObj_blockSize]
  exact fun b hl => ⟨h.D_E b (by rw [hb, hl]), h.E_D b (by rw [hb, hl])⟩

/-- The pair of decryptions which the theorems speak of. -/
def DecPair (a : Alg) (key : Bytes) (D : Bool → Bytes → Bytes) : Prop :=
  InverseOn a.blockSize (a.encrypt key) (D false) ∧ InverseOn a.blockSize a.cleared (D true)

/-- C71, CBC: calls of every kind in any order. The results are those of one log, with the cipher of
the key until the first `clear` or refused call and the key-independent cipher from then on; a refused
call leaves the log as it is. -/
theorem C71_cbc (a : Alg) (kv ivv : PyVal) (key iv : Bytes) (hk : kv.data? = some key)
    (hl : key.length = 32) (hv : ivv.data? = some iv) (h0 : 0 < iv.length)
    (hiv : iv.length % a.blockSize = 0) (pad : Int) (hp : PadOk pad) (dat : Option PyVal) :
    ∃ s D P, newCipher a.name kv modeCbc (some pad) (some ivv) dat = .ok (.cbc s) ∧
      DecPair a key D ∧ PadSpec a.blockSize pad P ∧
      ∀ cs : List CipherCall,
        runHistory Cbc.encrypt Cbc.decrypt Cbc.clear s cs =
          (anyRun (fun c => cbcCall (if c then a.cleared else a.encrypt key) (D c) P a.blockSize
            (iv.length / a.blockSize)) false (blocks a.blockSize iv) (cs.map CipherCall.any)).2.map anyRes ∧
        ivProp a.blockSize (afterHistory Cbc.encrypt Cbc.decrypt Cbc.clear s cs).iv =
          (anyRun (fun c => cbcCall (if c then a.cleared else a.encrypt key) (D c) P a.blockSize
            (iv.length / a.blockSize)) false (blocks a.blockSize iv) (cs.map CipherCall.any)).1.getLastD [] := by
  obtain ⟨o, D, h1, hg, h3, hI⟩ := new_cbc a kv ivv key iv hk hl hv hiv pad hp dat
  have hpos : 0 < a.blockSize := Alg.blockSize_pos a
  refine ⟨_, fun c => if c then clearedD a else D, fun d => setPadding a.blockSize d pad, h1,
    ⟨fun b hb => ⟨hI.D_E b (by rw [h3, hb]), hI.E_D b (by rw [h3, hb])⟩, inverse_cleared a⟩,
    padSpec_setPadding hpos hp, ?_⟩
  intro cs
  have hinit : CbcLogged o pad (iv.length / a.blockSize) ⟨o, iv, pad⟩ (blocks a.blockSize iv) := by
    rw [← h3] at hiv hpos ⊢
    exact ⟨rfl, rfl, _, (goodReg_blocks hpos h0 hiv).1, (goodReg_blocks hpos h0 hiv).2.symm,
      logged_init hpos h0 hiv⟩
  have := any_sim (fun c s X => ∃ o, Now a key (fun c => if c then clearedD a else D) c o ∧
      CbcLogged o pad (iv.length / a.blockSize) s X) Cbc.encrypt Cbc.decrypt Cbc.clear
    (fun c => cbcCall (if c then a.cleared else a.encrypt key) (if c then clearedD a else D)
      (fun d => setPadding a.blockSize d pad) a.blockSize (iv.length / a.blockSize))
    (fun c s X v d h hv => by
      obtain ⟨o, hn, hL⟩ := h
      have := hL.encrypt hn.impl v d hv
      rw [hn.bs] at this
      exact ⟨⟨o, hn, this.1⟩, this.2⟩)
    (fun c s X v d h hv => by
      obtain ⟨o, hn, hL⟩ := h
      have := hL.decrypt hn.impl v d hv
      rw [hn.bs] at this
      exact ⟨⟨o, hn, this.1⟩, this.2⟩)
    (fun c s X h => by
      obtain ⟨o, hn, hs, hp, R, hR, hiv, hlog⟩ := h
      refine ⟨o.clear, hn.clear, ?_, hp, R, ?_, hiv, hlog⟩
      · rw [← hs]; rfl
      · rw [CipherObj.clear_blockSize]; exact hR)
    (fun s v hv => by simp only [Cbc.encrypt, hv])
    (fun s v hv => by simp only [Cbc.decrypt, hv])
    false _ _ ⟨o, ⟨hg, h3, hI⟩, hinit⟩ cs
  refine ⟨this.2, ?_⟩
  obtain ⟨c', o', hn, _, _, R, hR, hiv', hlog⟩ := this.1
  rw [hn.bs] at hR
  rw [hiv', hR.ivProp, hlog.last]

/-- C71, CFB. -/
theorem C71_cfb (a : Alg) (kv ivv : PyVal) (key iv : Bytes) (hk : kv.data? = some key)
    (hl : key.length = 32) (hv : ivv.data? = some iv) (h0 : 0 < iv.length)
    (hiv : iv.length % a.blockSize = 0) (pad : Option Int) (dat : Option PyVal) :
    ∃ s, newCipher a.name kv modeCfb pad (some ivv) dat = .ok (.cfb s) ∧
      ∀ cs : List CipherCall,
        runHistory Cfb.encrypt Cfb.decrypt Fb.clear s cs =
          (anyRun (fun c => cfbCall (if c then a.cleared else a.encrypt key) a.blockSize
            (iv.length / a.blockSize)) false (blocks a.blockSize iv) (cs.map CipherCall.any)).2.map anyRes ∧
        ivProp a.blockSize (afterHistory Cfb.encrypt Cfb.decrypt Fb.clear s cs).iv =
          (anyRun (fun c => cfbCall (if c then a.cleared else a.encrypt key) a.blockSize
            (iv.length / a.blockSize)) false (blocks a.blockSize iv) (cs.map CipherCall.any)).1.getLastD [] := by
  obtain ⟨o, D, h1, hg, h3, hI⟩ := new_cfb a kv ivv key iv hk hl hv hiv pad dat
  have hpos : 0 < a.blockSize := Alg.blockSize_pos a
  refine ⟨_, h1, ?_⟩
  intro cs
  have hinit : FbLogged o (iv.length / a.blockSize) ⟨o, iv⟩ (blocks a.blockSize iv) := by
    rw [← h3] at hiv hpos ⊢
    exact ⟨rfl, _, (goodReg_blocks hpos h0 hiv).1, (goodReg_blocks hpos h0 hiv).2.symm,
      logged_init hpos h0 hiv⟩
  have := any_sim (fun c s X => ∃ o, Now a key (fun c => if c then clearedD a else D) c o ∧
      FbLogged o (iv.length / a.blockSize) s X) Cfb.encrypt Cfb.decrypt Fb.clear
    (fun c => cfbCall (if c then a.cleared else a.encrypt key) a.blockSize (iv.length / a.blockSize))
    (fun c s X v d h hv => by
      obtain ⟨o, hn, rfl, R, hR, hiv, hlog⟩ := h
      have hI := hn.impl
      rw [Cfb.encrypt_ok s hI R hR hiv v d hv]
      have := fbLogged_run hI (maskG (encNow a key c)) (fun r b hr hb => by
        rw [maskG_length hI r b hr (by omega), hb]) rfl hR hlog d
      rw [hn.bs] at this ⊢
      exact ⟨⟨_, hn, this.1⟩, by show Except.ok _ = Except.ok _; rw [this.2]; rfl⟩)
    (fun c s X v d h hv => by
      obtain ⟨o, hn, rfl, R, hR, hiv, hlog⟩ := h
      have hI := hn.impl
      rw [Cfb.decrypt_ok s hI R hR hiv v d hv]
      have := fbLogged_run hI sndB (fun r b hr hb => hb) rfl hR hlog d
      rw [hn.bs] at this ⊢
      exact ⟨⟨_, hn, this.1⟩, by show Except.ok _ = Except.ok _; rw [this.2]; rfl⟩)
    (fun c s X h => by
      obtain ⟨o, hn, hs, R, hR, hiv, hlog⟩ := h
      refine ⟨o.clear, hn.clear, ?_, R, ?_, hiv, hlog⟩
      · rw [← hs]; rfl
      · rw [CipherObj.clear_blockSize]; exact hR)
    (fun s v hv => by simp only [Cfb.encrypt, hv])
    (fun s v hv => by simp only [Cfb.decrypt, hv])
    false _ _ ⟨o, ⟨hg, h3, hI⟩, hinit⟩ cs
  refine ⟨this.2, ?_⟩
  obtain ⟨c', o', hn, _, R, hR, hiv', hlog⟩ := this.1
  rw [hn.bs] at hR
  rw [hiv', hR.ivProp, hlog.last]

/-- C71, OFB. -/
theorem C71_ofb (a : Alg) (kv ivv : PyVal) (key iv : Bytes) (hk : kv.data? = some key)
    (hl : key.length = 32) (hv : ivv.data? = some iv) (h0 : 0 < iv.length)
    (hiv : iv.length % a.blockSize = 0) (pad : Option Int) (dat : Option PyVal) :
    ∃ s, newCipher a.name kv modeOfb pad (some ivv) dat = .ok (.ofb s) ∧
      ∀ cs : List CipherCall,
        runHistory Ofb.encrypt Ofb.decrypt Fb.clear s cs =
          (anyRun (fun c => ofbCall (if c then a.cleared else a.encrypt key) a.blockSize
            (iv.length / a.blockSize)) false (blocks a.blockSize iv) (cs.map CipherCall.any)).2.map anyRes ∧
        ivProp a.blockSize (afterHistory Ofb.encrypt Ofb.decrypt Fb.clear s cs).iv =
          (anyRun (fun c => ofbCall (if c then a.cleared else a.encrypt key) a.blockSize
            (iv.length / a.blockSize)) false (blocks a.blockSize iv) (cs.map CipherCall.any)).1.getLastD [] := by
  obtain ⟨o, D, h1, hg, h3, hI⟩ := new_ofb a kv ivv key iv hk hl hv hiv pad dat
  have hpos : 0 < a.blockSize := Alg.blockSize_pos a
  refine ⟨_, h1, ?_⟩
  intro cs
  have hinit : FbLogged o (iv.length / a.blockSize) ⟨o, iv⟩ (blocks a.blockSize iv) := by
    rw [← h3] at hiv hpos ⊢
    exact ⟨rfl, _, (goodReg_blocks hpos h0 hiv).1, (goodReg_blocks hpos h0 hiv).2.symm,
      logged_init hpos h0 hiv⟩
  have hstep : ∀ (c : Bool) (s : Fb) (X : List Bytes) (v : PyVal) (d : Bytes) (op : CipherOp), op.data = d →
      (∃ o, Now a key (fun c => if c then clearedD a else D) c o ∧
        FbLogged o (iv.length / a.blockSize) s X) → v.data? = some d →
      (∃ o, Now a key (fun c => if c then clearedD a else D) c o ∧
        FbLogged o (iv.length / a.blockSize) (Ofb.encrypt s v).1
        (ofbCall (encNow a key c) a.blockSize (iv.length / a.blockSize) X op).1) ∧
      (Ofb.encrypt s v).2 =
        .ok (ofbCall (encNow a key c) a.blockSize (iv.length / a.blockSize) X op).2 := by
    intro c s X v d op hop h hv
    subst hop
    obtain ⟨o, hn, rfl, R, hR, hiv, hlog⟩ := h
    have hI := hn.impl
    rw [Ofb.encrypt_ok s hI R hR hiv v _ hv]
    have := fbLogged_run hI (ofbH (encNow a key c)) (fun r b hr hb => hI.enc_len r hr) rfl hR hlog op.data
    rw [hn.bs] at this ⊢
    exact ⟨⟨_, hn, this.1⟩, by show Except.ok _ = Except.ok _; rw [this.2]; rfl⟩
  have := any_sim (fun c s X => ∃ o, Now a key (fun c => if c then clearedD a else D) c o ∧
      FbLogged o (iv.length / a.blockSize) s X) Ofb.encrypt Ofb.decrypt Fb.clear
    (fun c => ofbCall (if c then a.cleared else a.encrypt key) a.blockSize (iv.length / a.blockSize))
    (fun c s X v d h hv => hstep c s X v d _ rfl h hv)
    (fun c s X v d h hv => by rw [Ofb.decrypt_eq s v d hv]; exact hstep c s X v d _ rfl h hv)
    (fun c s X h => by
      obtain ⟨o, hn, hs, R, hR, hiv, hlog⟩ := h
      refine ⟨o.clear, hn.clear, ?_, R, ?_, hiv, hlog⟩
      · rw [← hs]; rfl
      · rw [CipherObj.clear_blockSize]; exact hR)
    (fun s v hv => by simp only [Ofb.encrypt, hv])
    (fun s v hv => by simp only [Ofb.decrypt, hv])
    false _ _ ⟨o, ⟨hg, h3, hI⟩, hinit⟩ cs
  refine ⟨this.2, ?_⟩
  obtain ⟨c', o', hn, _, R, hR, hiv', hlog⟩ := this.1
  rw [hn.bs] at hR
  rw [hiv', hR.ivProp, hlog.last]

/-- C71, CTR. -/
theorem C71_ctr (a : Alg) (kv ivv : PyVal) (key iv : Bytes) (hk : kv.data? = some key)
    (hl : key.length = 32) (hv : ivv.data? = some iv) (hiv : iv.length = a.blockSize / 2)
    (pad : Option Int) (dat : Option PyVal) :
    ∃ s, newCipher a.name kv modeCtr pad (some ivv) dat = .ok (.ctr s) ∧
      ∀ cs : List CipherCall,
        runHistory Ctr.encrypt Ctr.decrypt Ctr.clear s cs =
          (anyRun (fun c => ctrCall (if c then a.cleared else a.encrypt key) a.blockSize iv) false 0
            (cs.map CipherCall.any)).2.map anyRes ∧
        (afterHistory Ctr.encrypt Ctr.decrypt Ctr.clear s cs).counter =
          Spec.byteCounter a.blockSize iv
            (anyRun (fun c => ctrCall (if c then a.cleared else a.encrypt key) a.blockSize iv) false 0
              (cs.map CipherCall.any)).1 := by
  obtain ⟨o, D, h1, hg, h3, hI⟩ := new_ctr a kv ivv key iv hk hl hv hiv pad dat
  refine ⟨_, h1, ?_⟩
  intro cs
  have hstep : ∀ (c : Bool) (s : Ctr) (N : Nat) (v : PyVal) (d : Bytes) (op : CipherOp), op.data = d →
      (Now a key (fun c => if c then clearedD a else D) c s.obj ∧ s.counter = ctrAt (ctr0 a.blockSize iv) N) →
      v.data? = some d →
      (Now a key (fun c => if c then clearedD a else D) c (s.encrypt v).1.obj ∧ (s.encrypt v).1.counter =
        ctrAt (ctr0 a.blockSize iv) (ctrCall (encNow a key c) a.blockSize iv N op).1) ∧
      (s.encrypt v).2 = .ok (ctrCall (encNow a key c) a.blockSize iv N op).2 := by
    intro c s N v d op hop h hv
    subst hop
    obtain ⟨hn, hcn⟩ := h
    have hlen : s.counter.length = s.obj.blockSize := by
      rw [hcn, ctrAt_length, ctr0_length a iv hiv, hn.bs]
    rw [Ctr.encrypt_stream s hn.impl hlen v _ hv]
    refine ⟨⟨hn, ?_⟩, ?_⟩
    · show ctrAt s.counter _ = _
      rw [hcn, ctrAt_add, hn.bs]; rfl
    · show Except.ok _ = Except.ok _
      rw [hcn, ctrStream_eq, hn.bs]; rfl
  have := any_sim (fun c (s : Ctr) (N : Nat) => Now a key (fun c => if c then clearedD a else D) c s.obj ∧
      s.counter = ctrAt (ctr0 a.blockSize iv) N)
    Ctr.encrypt Ctr.decrypt Ctr.clear
    (fun c => ctrCall (if c then a.cleared else a.encrypt key) a.blockSize iv)
    (fun c s X v d h hv => hstep c s X v d _ rfl h hv)
    (fun c s X v d h hv => by rw [Ctr.decrypt_eq s v d hv]; exact hstep c s X v d _ rfl h hv)
    (fun c s X h => ⟨h.1.clear, h.2⟩)
    (fun s v hv => by simp only [Ctr.encrypt, hv])
    (fun s v hv => by simp only [Ctr.decrypt, hv])
    false (⟨o, iv, ctr0 a.blockSize iv⟩ : Ctr) 0 ⟨⟨hg, h3, hI⟩, rfl⟩ cs
  refine ⟨this.2, ?_⟩
  obtain ⟨c', hn, hcn⟩ := this.1
  rw [hcn, ctrAt_ctr0]
  rfl

/-- C71, ECB. -/
theorem C71_ecb (a : Alg) (kv : PyVal) (key : Bytes) (hk : kv.data? = some key)
    (hl : key.length = 32) (pad : Int) (hp : PadOk pad) (iv dat : Option PyVal) :
    ∃ s D P, newCipher a.name kv modeEcb (some pad) iv dat = .ok (.ecb s) ∧
      DecPair a key D ∧ PadSpec a.blockSize pad P ∧
      ∀ cs : List CipherCall,
        runHistory Ecb.encrypt Ecb.decrypt Ecb.clear s cs =
          (anyRun (fun c => ecbCall (if c then a.cleared else a.encrypt key) (D c) P a.blockSize) false ()
            (cs.map CipherCall.any)).2.map anyRes := by
  obtain ⟨o, D, h1, hg, h3, hI⟩ := new_ecb a kv key hk hl pad hp iv dat
  refine ⟨_, fun c => if c then clearedD a else D, fun d => setPadding a.blockSize d pad, h1,
    ⟨fun b hb => ⟨hI.D_E b (by rw [h3, hb]), hI.E_D b (by rw [h3, hb])⟩, inverse_cleared a⟩,
    padSpec_setPadding (Alg.blockSize_pos a) hp, ?_⟩
  intro cs
  exact (any_sim (fun c (s : Ecb) (_ : Unit) => Now a key (fun c => if c then clearedD a else D) c s.obj ∧
      s.padMode = pad) Ecb.encrypt Ecb.decrypt Ecb.clear
    (fun c => ecbCall (if c then a.cleared else a.encrypt key) (if c then clearedD a else D)
      (fun d => setPadding a.blockSize d pad) a.blockSize)
    (fun c s X v d h hv => by
      rw [Ecb.encrypt_ok s h.1.impl v d hv, h.1.bs, h.2]; exact ⟨⟨h.1, rfl⟩, rfl⟩)
    (fun c s X v d h hv => by
      rw [Ecb.decrypt_ok s h.1.impl v d hv, h.1.bs]; exact ⟨h, rfl⟩)
    (fun c s X h => ⟨h.1.clear, h.2⟩)
    (fun s v hv => by simp only [Ecb.encrypt, hv])
    (fun s v hv => by simp only [Ecb.decrypt, hv])
    false _ () ⟨⟨hg, h3, hI⟩, rfl⟩ cs).2

/-! ### Concrete cases -/

/-- A refused call in the middle of a CFB message: the first block is decrypted with the key, the second
with the public cipher, which masks the register that the first block has left. -/
example : ∃ s, newCipher Alg.magma.name (.bytes Ex.key) modeCfb
      (initVect := some (.bytes (Ex.count 9 8))) = .ok (.cfb s) ∧
    runHistory Cfb.encrypt Cfb.decrypt Fb.clear s [.decrypt (.bytes (Ex.count 1 8)), .encrypt .other,
        .decrypt (.bytes (Ex.count 50 8))] =
      [.ok (Spec.xor (Alg.magma.encrypt Ex.key (Ex.count 9 8)) (Ex.count 1 8)),
       .error (.cipherError "GOSTCipherError: invalid plaintext data"),
       .ok (Spec.xor (Spec.Magma.encrypt (List.replicate 8 Spec.clearWord).flatten (Ex.count 1 8))
         (Ex.count 50 8))] := by
  obtain ⟨s, h1, h2⟩ := C71_cfb .magma (.bytes Ex.key) (.bytes (Ex.count 9 8)) Ex.key (Ex.count 9 8)
    rfl (by decide) rfl (by decide) (by decide) none none
  refine ⟨s, h1, (h2 _).1.trans ?_⟩
  have hb : ∀ k, blocks 8 (Ex.count k 8) = [Ex.count k 8] := fun k => by
    simp [blocks, Ex.count, List.take_of_length_le]
  have hr : ∀ k, rest 8 (Ex.count k 8) = [] := fun k => by simp [rest, Ex.count]
  have hx : ∀ x : Bytes, Spec.xor x [] = [] := fun x => by simp [Spec.xor]
  simp [CipherCall.any, PyVal.data?, anyRun, cfbCall, anyRes, Spec.feed, Alg.blockSize, hb, hr, hx,
    Spec.tap, Alg.cleared, Ex.count_length]

end Gost
