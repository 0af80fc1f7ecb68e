import Verif.Proofs.New
import Verif.Proofs.CtrStream
import Verif.Proofs.RoundTrip
import Verif.Spec.Calls
import Verif.Spec.CipherCalls
import Verif.Props.Examples

/-! Property C65: any mixture of `encrypt` and `decrypt` calls on one cipher object. -/

namespace Gost
open Spec (Alg blocks rest CipherOp tap feed cbcCall cfbCall ofbCall ctrCall ecbCall opsRun InverseOn
  ZeroPadded MarkPadded)

/-- The call which a value in a call of the package stands for, if the value is a byte object. -/
def CipherCall.op? : CipherCall → Option CipherOp
  | .encrypt v => v.data?.map .encrypt
  | .decrypt v => v.data?.map .decrypt
  | .clear => none

/-- The object after a sequence of calls, going on after exceptions. -/
def afterHistory {σ : Type} (enc dec : σ → PyVal → σ × Res Bytes) (clr : σ → σ) :
    σ → List CipherCall → σ
  | s, [] => s
  | s, .encrypt v :: cs => afterHistory enc dec clr (enc s v).1 cs
  | s, .decrypt v :: cs => afterHistory enc dec clr (dec s v).1 cs
  | s, .clear :: cs => afterHistory enc dec clr (clr s) cs

/-- Objects and logs which correspond behave alike for ever. -/
theorem history_sim {σ X : Type} (R : σ → X → Prop) (enc dec : σ → PyVal → σ × Res Bytes)
    (clr : σ → σ) (call : X → CipherOp → X × Bytes)
    (he : ∀ s x v d, R s x → v.data? = some d →
      R (enc s v).1 (call x (.encrypt d)).1 ∧ (enc s v).2 = .ok (call x (.encrypt d)).2)
    (hd : ∀ s x v d, R s x → v.data? = some d →
      R (dec s v).1 (call x (.decrypt d)).1 ∧ (dec s v).2 = .ok (call x (.decrypt d)).2)
    (s : σ) (x : X) (h : R s x) (cs : List CipherCall) (ops : List CipherOp)
    (hc : cs.map CipherCall.op? = ops.map some) :
    R (afterHistory enc dec clr s cs) (opsRun call x ops).1 ∧
      runHistory enc dec clr s cs = (opsRun call x ops).2.map .ok := by
  induction cs generalizing ops s x with
  | nil =>
    cases ops with
    | nil => exact ⟨h, rfl⟩
    | cons op ops => cases hc
  | cons c cs ih =>
    cases ops with
    | nil => cases hc
    | cons op ops =>
      rw [List.map_cons, List.map_cons, List.cons.injEq] at hc
      obtain ⟨h1, h2⟩ := hc
      cases c with
      | encrypt v =>
        cases hv : v.data? with
        | none => rw [CipherCall.op?, hv] at h1; cases h1
        | some d =>
          rw [CipherCall.op?, hv] at h1
          cases h1
          have hs := he s x v d h hv
          have := ih _ _ hs.1 ops h2
          refine ⟨this.1, ?_⟩
          simp only [runHistory, opsRun, List.map_cons]
          rw [this.2, hs.2]
      | decrypt v =>
        cases hv : v.data? with
        | none => rw [CipherCall.op?, hv] at h1; cases h1
        | some d =>
          rw [CipherCall.op?, hv] at h1
          cases h1
          have hs := hd s x v d h hv
          have := ih _ _ hs.1 ops h2
          refine ⟨this.1, ?_⟩
          simp only [runHistory, opsRun, List.map_cons]
          rw [this.2, hs.2]
      | clear => cases h1

/-- A register of `m` blocks is the end of the log. -/
def Logged (m : Nat) (R X : List Bytes) : Prop :=
  0 < m ∧ m ≤ X.length ∧ R = X.drop (X.length - m)

theorem Logged.head {m : Nat} {R X : List Bytes} (h : Logged m R X) : R.headD [] = tap m X := by
  obtain ⟨h0, h1, rfl⟩ := h
  unfold tap
  rw [List.getD_eq_getElem?_getD, ← List.head?_drop]
  cases X.drop (X.length - m) <;> rfl

theorem Logged.step {m : Nat} {R X : List Bytes} (h : Logged m R X) (b : Bytes) :
    Logged m (R.tail ++ [b]) (X ++ [b]) := by
  obtain ⟨h0, h1, rfl⟩ := h
  refine ⟨h0, by simp; omega, ?_⟩
  rw [List.tail_drop, List.drop_append_of_le_length (by simp; omega)]
  congr 2
  simp; omega

/-- The register run and the log run. -/
theorem Logged.run {m : Nat} (g h : Bytes → Bytes → Bytes) {R X : List Bytes} (hl : Logged m R X)
    (bl : List Bytes) :
    Logged m (mapAccum (regStep g h) R bl).1 (feed m g h X bl).1 ∧
      (mapAccum (regStep g h) R bl).2 = (feed m g h X bl).2 := by
  induction bl generalizing R X with
  | nil => exact ⟨hl, rfl⟩
  | cons b bl ih =>
    have := ih (hl.step (h (R.headD []) b))
    simp only [mapAccum, feed, regStep]
    rw [← hl.head]
    exact ⟨this.1, by rw [this.2]⟩

/-- A register of the CBC object and a log. -/
def CbcLogged (o : CipherObj) (pad : Int) (m : Nat) (s : Cbc) (X : List Bytes) : Prop :=
  s.obj = o ∧ s.padMode = pad ∧ ∃ R, GoodReg o.blockSize R ∧ s.iv = R.flatten ∧ Logged m R X

/-- A register of a CFB or OFB object and a log. -/
def FbLogged (o : CipherObj) (m : Nat) (s : Fb) (X : List Bytes) : Prop :=
  s.obj = o ∧ ∃ R, GoodReg o.blockSize R ∧ s.iv = R.flatten ∧ Logged m R X

theorem Logged.last {m : Nat} {R X : List Bytes} (h : Logged m R X) : R.getLastD [] = X.getLastD [] := by
  obtain ⟨h0, h1, rfl⟩ := h
  rw [List.getLastD_eq_getLast?, List.getLastD_eq_getLast?, List.getLast?_drop, if_neg (by omega)]

theorem CbcLogged.encrypt {o : CipherObj} {E D : Bytes → Bytes} (hI : Implements o E D) {pad : Int}
    {m : Nat} {s : Cbc} {X : List Bytes} (h : CbcLogged o pad m s X) (v : PyVal) (d : Bytes)
    (hv : v.data? = some d) :
    CbcLogged o pad m (s.encrypt v).1
        (cbcCall E D (fun d => setPadding o.blockSize d pad) o.blockSize m X (.encrypt d)).1 ∧
      (s.encrypt v).2 =
        .ok (cbcCall E D (fun d => setPadding o.blockSize d pad) o.blockSize m X (.encrypt d)).2 := by
  obtain ⟨rfl, rfl, R, hR, hiv, hl⟩ := h
  rw [Cbc.encrypt_ok s hI R hR hiv v d hv]
  have hr := hl.run (cbcG E) (cbcG E) (blocks s.obj.blockSize (setPadding s.obj.blockSize d s.padMode))
  have hgood := (regRun_good s.obj.blockSize s.obj.blockSize (cbcG E) (cbcG E)
    (fun r b => cbcG_length hI r b) (fun r b => cbcG_length hI r b) R _ hR
    (fun b hb => mem_blocks_length (d := setPadding s.obj.blockSize d s.padMode) hb)).1
  refine ⟨⟨rfl, rfl, _, hgood, rfl, hr.1⟩, ?_⟩
  show Except.ok _ = Except.ok _
  rw [hr.2]
  rfl

theorem CbcLogged.decrypt {o : CipherObj} {E D : Bytes → Bytes} (hI : Implements o E D) {pad : Int}
    {m : Nat} {s : Cbc} {X : List Bytes} (h : CbcLogged o pad m s X) (v : PyVal) (d : Bytes)
    (hv : v.data? = some d) :
    CbcLogged o pad m (s.decrypt v).1
        (cbcCall E D (fun d => setPadding o.blockSize d pad) o.blockSize m X (.decrypt d)).1 ∧
      (s.decrypt v).2 =
        .ok (cbcCall E D (fun d => setPadding o.blockSize d pad) o.blockSize m X (.decrypt d)).2 := by
  obtain ⟨rfl, rfl, R, hR, hiv, hl⟩ := h
  rw [Cbc.decrypt_ok s hI R hR hiv v d hv]
  have hr := hl.run (cbcG' D) sndB (blocks s.obj.blockSize d)
  have hgood := (regRun_good s.obj.blockSize s.obj.blockSize (cbcG' D) sndB
    (fun r b _ hb => hb) (fun r b hr hb => by
      simp [cbcG', hr, hI.dec_len b hb]) R _ hR
    (fun b hb => mem_blocks_length (d := d) hb)).1
  refine ⟨⟨rfl, rfl, _, hgood, rfl, hr.1⟩, ?_⟩
  show Except.ok _ = Except.ok _
  rw [hr.2]
  rfl

/-- The register of `new` is the log which consists of the initialisation vector. -/
theorem logged_init {n : Nat} {iv : Bytes} (hbs : 0 < n) (h1 : 0 < iv.length) (h2 : iv.length % n = 0) :
    Logged (iv.length / n) (blocks n iv) (blocks n iv) := by
  have h3 := blocks_length n iv
  refine ⟨Nat.div_pos (Nat.le_of_dvd h1 (Nat.dvd_of_mod_eq_zero h2)) hbs, by omega, ?_⟩
  rw [h3, Nat.sub_self, List.drop_zero]

/-- The padding of a padding mode as the specification has it. -/
def PadSpec (n : Nat) (pad : Int) (P : Bytes → Bytes) : Prop :=
  (pad = padMode1 ∧ ∀ d, ZeroPadded n d (P d)) ∨ (pad = padMode2 ∧ ∀ d, MarkPadded n d (P d))

theorem padSpec_setPadding {n : Nat} (hn : 0 < n) {pad : Int} (hp : PadOk pad) :
    PadSpec n pad (fun d => setPadding n d pad) := by
  rcases hp with rfl | rfl
  · exact .inl ⟨rfl, fun d => zeroPadded_setPadding n hn d⟩
  · exact .inr ⟨rfl, fun d => markPadded_setPadding n hn d⟩

/-- C65, CBC: after any mixture of encryptions and decryptions the results are those of one log
which starts with the initialisation vector and to which every ciphertext block, produced or
received, is appended; `iv` is its last entry. -/
theorem C65_cbc (a : Alg) (kv ivv : PyVal) (key iv : Bytes) (hk : kv.data? = some key)
    (hl : key.length = 32) (hv : ivv.data? = some iv) (h0 : 0 < iv.length)
    (hiv : iv.length % a.blockSize = 0) (pad : Int) (hp : PadOk pad) (dat : Option PyVal) :
    ∃ s D P, newCipher a.name kv modeCbc (some pad) (some ivv) dat = .ok (.cbc s) ∧
      InverseOn a.blockSize (a.encrypt key) D ∧ PadSpec a.blockSize pad P ∧
      ∀ cs ops, cs.map CipherCall.op? = ops.map some →
        runHistory Cbc.encrypt Cbc.decrypt Cbc.clear s cs =
          (opsRun (cbcCall (a.encrypt key) D P a.blockSize (iv.length / a.blockSize))
            (blocks a.blockSize iv) ops).2.map .ok ∧
        ivProp a.blockSize (afterHistory Cbc.encrypt Cbc.decrypt Cbc.clear s cs).iv =
          (opsRun (cbcCall (a.encrypt key) D P a.blockSize (iv.length / a.blockSize))
            (blocks a.blockSize iv) ops).1.getLastD [] := by
  obtain ⟨o, D, h1, _, h3, hI⟩ := new_cbc a kv ivv key iv hk hl hv hiv pad hp dat
  have hpos : 0 < o.blockSize := Implements.pos
  rw [← h3] at hiv ⊢
  refine ⟨_, D, fun d => setPadding o.blockSize d pad, h1, fun b hb => ⟨hI.D_E b hb, hI.E_D b hb⟩,
    padSpec_setPadding hpos hp, ?_⟩
  intro cs ops hc
  have hinit : CbcLogged o pad (iv.length / o.blockSize) ⟨o, iv, pad⟩ (blocks o.blockSize iv) :=
    ⟨rfl, rfl, _, (goodReg_blocks hpos h0 hiv).1, (goodReg_blocks hpos h0 hiv).2.symm,
      logged_init hpos h0 hiv⟩
  have := history_sim (CbcLogged o pad (iv.length / o.blockSize)) Cbc.encrypt Cbc.decrypt Cbc.clear
    (cbcCall (a.encrypt key) D (fun d => setPadding o.blockSize d pad) o.blockSize
      (iv.length / o.blockSize))
    (fun s X v d h hv => h.encrypt hI v d hv) (fun s X v d h hv => h.decrypt hI v d hv) _ _ hinit cs ops hc
  refine ⟨this.2, ?_⟩
  obtain ⟨_, _, R, hR, hiv', hlog⟩ := this.1
  rw [hiv', hR.ivProp, hlog.last]

theorem fbLogged_run {o : CipherObj} {E D : Bytes → Bytes} (hI : Implements o E D)
    (h : Bytes → Bytes → Bytes)
    (hlen : ∀ r b, r.length = o.blockSize → b.length = o.blockSize → (h r b).length = o.blockSize)
    {m : Nat} {s : Fb} {X R : List Bytes} (ho : s.obj = o) (hR : GoodReg o.blockSize R)
    (hl : Logged m R X) (d : Bytes) :
    FbLogged o m (s.withReg (mapAccum (regStep (maskG E) h) R (blocks o.blockSize d)).1)
        (feed m (maskG E) h X (blocks o.blockSize d)).1 ∧
      (mapAccum (regStep (maskG E) h) R (blocks o.blockSize d)).2.flatten ++
         maskG E ((mapAccum (regStep (maskG E) h) R (blocks o.blockSize d)).1.headD [])
           (rest o.blockSize d) =
        (feed m (maskG E) h X (blocks o.blockSize d)).2.flatten ++
          maskG E (tap m (feed m (maskG E) h X (blocks o.blockSize d)).1) (rest o.blockSize d) := by
  have hr := hl.run (maskG E) h (blocks o.blockSize d)
  have hgood := (regRun_good o.blockSize o.blockSize (maskG E) h hlen
    (fun r b hr hb => by rw [maskG_length hI r b hr (by omega), hb]) R _ hR
    (fun b hb => mem_blocks_length (d := d) hb)).1
  refine ⟨⟨ho, _, hgood, rfl, hr.1⟩, ?_⟩
  rw [hr.2, hr.1.head]

/-- C65, CFB: the log gets every ciphertext block, produced or received. -/
theorem C65_cfb (a : Alg) (kv ivv : PyVal) (key iv : Bytes) (hk : kv.data? = some key)
    (hl : key.length = 32) (hv : ivv.data? = some iv) (h0 : 0 < iv.length)
    (hiv : iv.length % a.blockSize = 0) (pad : Option Int) (dat : Option PyVal) :
    ∃ s, newCipher a.name kv modeCfb pad (some ivv) dat = .ok (.cfb s) ∧
      ∀ cs ops, cs.map CipherCall.op? = ops.map some →
        runHistory Cfb.encrypt Cfb.decrypt Fb.clear s cs =
          (opsRun (cfbCall (a.encrypt key) a.blockSize (iv.length / a.blockSize))
            (blocks a.blockSize iv) ops).2.map .ok ∧
        ivProp a.blockSize (afterHistory Cfb.encrypt Cfb.decrypt Fb.clear s cs).iv =
          (opsRun (cfbCall (a.encrypt key) a.blockSize (iv.length / a.blockSize))
            (blocks a.blockSize iv) ops).1.getLastD [] := by
  obtain ⟨o, D, h1, _, h3, hI⟩ := new_cfb a kv ivv key iv hk hl hv hiv pad dat
  have hpos : 0 < o.blockSize := Implements.pos
  rw [← h3] at hiv ⊢
  refine ⟨_, h1, ?_⟩
  intro cs ops hc
  have hinit : FbLogged o (iv.length / o.blockSize) ⟨o, iv⟩ (blocks o.blockSize iv) :=
    ⟨rfl, _, (goodReg_blocks hpos h0 hiv).1, (goodReg_blocks hpos h0 hiv).2.symm,
      logged_init hpos h0 hiv⟩
  have := history_sim (FbLogged o (iv.length / o.blockSize)) Cfb.encrypt Cfb.decrypt Fb.clear
    (cfbCall (a.encrypt key) o.blockSize (iv.length / o.blockSize))
    (fun s X v d h hv => by
      obtain ⟨rfl, R, hR, hiv, hlog⟩ := h
      rw [Cfb.encrypt_ok s hI R hR hiv v d hv]
      have := fbLogged_run hI (maskG (a.encrypt key)) (fun r b hr hb => by
        rw [maskG_length hI r b hr (by omega), hb]) rfl hR hlog d
      exact ⟨this.1, by show Except.ok _ = Except.ok _; rw [this.2]; rfl⟩)
    (fun s X v d h hv => by
      obtain ⟨rfl, R, hR, hiv, hlog⟩ := h
      rw [Cfb.decrypt_ok s hI R hR hiv v d hv]
      have := fbLogged_run hI sndB (fun r b hr hb => hb) rfl hR hlog d
      exact ⟨this.1, by show Except.ok _ = Except.ok _; rw [this.2]; rfl⟩) _ _ hinit cs ops hc
  refine ⟨this.2, ?_⟩
  obtain ⟨_, R, hR, hiv', hlog⟩ := this.1
  rw [hiv', hR.ivProp, hlog.last]

/-- C65, OFB: the log gets every keystream block used in full. -/
theorem C65_ofb (a : Alg) (kv ivv : PyVal) (key iv : Bytes) (hk : kv.data? = some key)
    (hl : key.length = 32) (hv : ivv.data? = some iv) (h0 : 0 < iv.length)
    (hiv : iv.length % a.blockSize = 0) (pad : Option Int) (dat : Option PyVal) :
    ∃ s, newCipher a.name kv modeOfb pad (some ivv) dat = .ok (.ofb s) ∧
      ∀ cs ops, cs.map CipherCall.op? = ops.map some →
        runHistory Ofb.encrypt Ofb.decrypt Fb.clear s cs =
          (opsRun (ofbCall (a.encrypt key) a.blockSize (iv.length / a.blockSize))
            (blocks a.blockSize iv) ops).2.map .ok ∧
        ivProp a.blockSize (afterHistory Ofb.encrypt Ofb.decrypt Fb.clear s cs).iv =
          (opsRun (ofbCall (a.encrypt key) a.blockSize (iv.length / a.blockSize))
            (blocks a.blockSize iv) ops).1.getLastD [] := by
  obtain ⟨o, D, h1, _, h3, hI⟩ := new_ofb a kv ivv key iv hk hl hv hiv pad dat
  have hpos : 0 < o.blockSize := Implements.pos
  rw [← h3] at hiv ⊢
  refine ⟨_, h1, ?_⟩
  intro cs ops hc
  have hinit : FbLogged o (iv.length / o.blockSize) ⟨o, iv⟩ (blocks o.blockSize iv) :=
    ⟨rfl, _, (goodReg_blocks hpos h0 hiv).1, (goodReg_blocks hpos h0 hiv).2.symm,
      logged_init hpos h0 hiv⟩
  have hstep : ∀ (s : Fb) (X : List Bytes) (v : PyVal) (d : Bytes) (op : CipherOp), op.data = d →
      FbLogged o (iv.length / o.blockSize) s X → v.data? = some d →
      FbLogged o (iv.length / o.blockSize) (Ofb.encrypt s v).1
        (ofbCall (a.encrypt key) o.blockSize (iv.length / o.blockSize) X op).1 ∧
      (Ofb.encrypt s v).2 =
        .ok (ofbCall (a.encrypt key) o.blockSize (iv.length / o.blockSize) X op).2 := by
    intro s X v d op hop h hv
    subst hop
    obtain ⟨rfl, R, hR, hiv, hlog⟩ := h
    rw [Ofb.encrypt_ok s hI R hR hiv v _ hv]
    have := fbLogged_run hI (ofbH (a.encrypt key)) (fun r b hr hb => hI.enc_len r hr) rfl hR hlog op.data
    exact ⟨this.1, by show Except.ok _ = Except.ok _; rw [this.2]; rfl⟩
  have := history_sim (FbLogged o (iv.length / o.blockSize)) Ofb.encrypt Ofb.decrypt Fb.clear
    (ofbCall (a.encrypt key) o.blockSize (iv.length / o.blockSize))
    (fun s X v d h hv => hstep s X v d _ rfl h hv)
    (fun s X v d h hv => by rw [Ofb.decrypt_eq s v d hv]; exact hstep s X v d _ rfl h hv)
    _ _ hinit cs ops hc
  refine ⟨this.2, ?_⟩
  obtain ⟨_, R, hR, hiv', hlog⟩ := this.1
  rw [hiv', hR.ivProp, hlog.last]

/-- C65, CTR: only the number of counter blocks used so far is remembered. -/
theorem C65_ctr (a : Alg) (kv ivv : PyVal) (key iv : Bytes) (hk : kv.data? = some key)
    (hl : key.length = 32) (hv : ivv.data? = some iv) (hiv : iv.length = a.blockSize / 2)
    (pad : Option Int) (dat : Option PyVal) :
    ∃ s, newCipher a.name kv modeCtr pad (some ivv) dat = .ok (.ctr s) ∧
      ∀ cs ops, cs.map CipherCall.op? = ops.map some →
        runHistory Ctr.encrypt Ctr.decrypt Ctr.clear s cs =
          (opsRun (ctrCall (a.encrypt key) a.blockSize iv) 0 ops).2.map .ok ∧
        (afterHistory Ctr.encrypt Ctr.decrypt Ctr.clear s cs).counter =
          Spec.byteCounter a.blockSize iv (opsRun (ctrCall (a.encrypt key) a.blockSize iv) 0 ops).1 := by
  obtain ⟨o, D, h1, _, h3, hI⟩ := new_ctr a kv ivv key iv hk hl hv hiv pad dat
  refine ⟨_, h1, ?_⟩
  intro cs ops hc
  have hstep : ∀ (s : Ctr) (N : Nat) (v : PyVal) (d : Bytes) (op : CipherOp), op.data = d →
      (s.obj = o ∧ s.counter = ctrAt (ctr0 a.blockSize iv) N) → v.data? = some d →
      ((s.encrypt v).1.obj = o ∧ (s.encrypt v).1.counter =
        ctrAt (ctr0 a.blockSize iv) (ctrCall (a.encrypt key) a.blockSize iv N op).1) ∧
      (s.encrypt v).2 = .ok (ctrCall (a.encrypt key) a.blockSize iv N op).2 := by
    intro s N v d op hop h hv
    subst hop
    obtain ⟨rfl, hcn⟩ := h
    have hlen : s.counter.length = s.obj.blockSize := by
      rw [hcn, ctrAt_length, ctr0_length a iv hiv, h3]
    rw [Ctr.encrypt_stream s hI hlen v _ hv]
    refine ⟨⟨rfl, ?_⟩, ?_⟩
    · show ctrAt s.counter _ = _
      rw [hcn, ctrAt_add, h3]; rfl
    · show Except.ok _ = Except.ok _
      rw [hcn, ctrStream_eq, h3]; rfl
  have := history_sim (fun (s : Ctr) (N : Nat) => s.obj = o ∧ s.counter = ctrAt (ctr0 a.blockSize iv) N)
    Ctr.encrypt Ctr.decrypt Ctr.clear (ctrCall (a.encrypt key) a.blockSize iv)
    (fun s X v d h hv => hstep s X v d _ rfl h hv)
    (fun s X v d h hv => by rw [Ctr.decrypt_eq s v d hv]; exact hstep s X v d _ rfl h hv)
    (⟨o, iv, ctr0 a.blockSize iv⟩ : Ctr) 0 ⟨rfl, rfl⟩ cs ops hc
  refine ⟨this.2, ?_⟩
  rw [this.1.2, ctrAt_ctr0]
  rfl

/-- C65, ECB: every call by itself. -/
theorem C65_ecb (a : Alg) (kv : PyVal) (key : Bytes) (hk : kv.data? = some key)
    (hl : key.length = 32) (pad : Int) (hp : PadOk pad) (iv dat : Option PyVal) :
    ∃ s D P, newCipher a.name kv modeEcb (some pad) iv dat = .ok (.ecb s) ∧
      InverseOn a.blockSize (a.encrypt key) D ∧ PadSpec a.blockSize pad P ∧
      ∀ cs ops, cs.map CipherCall.op? = ops.map some →
        runHistory Ecb.encrypt Ecb.decrypt Ecb.clear s cs =
          (opsRun (ecbCall (a.encrypt key) D P a.blockSize) () ops).2.map .ok := by
  obtain ⟨o, D, h1, _, h3, hI⟩ := new_ecb a kv key hk hl pad hp iv dat
  rw [← h3]
  refine ⟨_, D, fun d => setPadding o.blockSize d pad, h1, fun b hb => ⟨hI.D_E b hb, hI.E_D b hb⟩,
    padSpec_setPadding Implements.pos hp, ?_⟩
  intro cs ops hc
  exact (history_sim (fun (s : Ecb) (_ : Unit) => s = ⟨o, pad⟩) Ecb.encrypt Ecb.decrypt Ecb.clear
    (ecbCall (a.encrypt key) D (fun d => setPadding o.blockSize d pad) o.blockSize)
    (fun s X v d h hv => by
      subst h; rw [Ecb.encrypt_ok ⟨o, pad⟩ hI v d hv]; exact ⟨rfl, rfl⟩)
    (fun s X v d h hv => by
      subst h; rw [Ecb.decrypt_ok ⟨o, pad⟩ hI v d hv]; exact ⟨rfl, rfl⟩)
    _ () rfl cs ops hc).2

/-! ### Concrete cases -/

/-- A CFB object with a register of two blocks: an encryption, a decryption and another encryption
meet the hypotheses of the theorem. -/
example : ∃ s, newCipher Alg.magma.name (.bytes Ex.key) modeCfb
      (initVect := some (.bytes (Ex.count 9 16))) = .ok (.cfb s) ∧
    runHistory Cfb.encrypt Cfb.decrypt Fb.clear s [.encrypt (.bytes (Ex.count 1 8)),
        .decrypt (.bytearray (Ex.count 50 24)), .encrypt (.bytes (Ex.count 2 5))] =
      (opsRun (cfbCall (Alg.magma.encrypt Ex.key) 8 2) [Ex.count 9 8, Ex.count 17 8]
        [.encrypt (Ex.count 1 8), .decrypt (Ex.count 50 24), .encrypt (Ex.count 2 5)]).2.map .ok := by
  obtain ⟨s, h1, h2⟩ := C65_cfb .magma (.bytes Ex.key) (.bytes (Ex.count 9 16)) Ex.key (Ex.count 9 16)
    rfl (by decide) rfl (by decide) (by decide) none none
  exact ⟨s, h1, (h2 _ [.encrypt (Ex.count 1 8), .decrypt (Ex.count 50 24), .encrypt (Ex.count 2 5)] rfl).1⟩

/-- The log at work, with blocks of two bytes and `E` adding one to every byte: the second call does
not decrypt the result of the first one, because the register has moved on. -/
example : opsRun (cfbCall (List.map (· + 1)) 2 1) [[0, 0]] [.encrypt [7, 7], .decrypt [6, 6], .decrypt [5]] =
    ([[0, 0], [6, 6], [6, 6]], [[6, 6], [1, 1], [2]]) := by decide

/-- The same calls in OFB, CBC and CTR give different logs. -/
example : opsRun (ofbCall (List.map (· + 1)) 2 1) [[0, 0]] [.encrypt [7, 7], .decrypt [6, 6], .decrypt [5]] =
    ([[0, 0], [1, 1], [2, 2]], [[6, 6], [4, 4], [6]]) := by decide

example : opsRun (cbcCall (List.map (· + 1)) (List.map (· - 1)) id 2 1) [[0, 0]]
    [.encrypt [7, 7], .decrypt [6, 6], .decrypt [5]] =
    ([[0, 0], [8, 8], [6, 6]], [[8, 8], [13, 13], []]) := by decide

example : opsRun (ctrCall (List.map (· + 1)) 2 [4]) 0 [.encrypt [7, 7], .decrypt [6, 6], .decrypt [5]] =
    (3, [[2, 6], [3, 4], [0]]) := by decide

example : PadOk padMode2 ∧ ([CipherCall.encrypt (.bytes [1]), .decrypt (.bytearray [2])]).map CipherCall.op? =
    [CipherOp.encrypt [1], .decrypt [2]].map some := ⟨.inr rfl, rfl⟩

end Gost
