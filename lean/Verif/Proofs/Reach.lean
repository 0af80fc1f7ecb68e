import Verif.Proofs.RoundTrip
import Verif.Spec.Calls

/-! Invariants of all reachable cipher objects. -/

namespace Gost
open Spec (Alg blocks rest)

theorem baseInit_inv {alg : String} {kv : PyVal} {o : CipherObj} (h : baseInit alg kv = .ok o) :
    ∃ (a : Alg) (key : Bytes), alg = a.name ∧ kv.data? = some key ∧ key.length = 32 := by
  unfold baseInit at h
  split at h
  · cases h
  next hn =>
  split at h
  · cases h
  next hc =>
  split at h
  · cases h
  next k hk =>
  rw [checkValue_data hk] at hc
  have hl : k.length = 32 := by simpa using hc
  by_cases h1 : alg = "kuznechik"
  · exact ⟨.kuznechik, k, h1, hk, hl⟩
  · have h2 : alg = "magma" := by
      by_cases h2 : alg = "magma"
      · exact h2
      · exact absurd ⟨h2, h1⟩ hn
    exact ⟨.magma, k, h2, hk, hl⟩

theorem baseInit_good {alg : String} {kv : PyVal} {o : CipherObj} (h : baseInit alg kv = .ok o) :
    o.Good := by
  obtain ⟨a, key, rfl, hk, hl⟩ := baseInit_inv h
  obtain ⟨o', h1, h2, _⟩ := baseInit_ok a kv key hk hl
  rw [h1] at h
  cases h
  exact h2

/-- Inversion of a bind which succeeded. -/
theorem Res.bind_eq_ok {α β : Type} {x : Res α} {f : α → Res β} {b : β} (h : (x >>= f) = .ok b) :
    ∃ a, x = .ok a ∧ f a = .ok b := by
  cases x with
  | error e => rw [Res.bind_error] at h; cases h
  | ok a => exact ⟨a, rfl, by rw [Res.bind_ok] at h; exact h⟩

theorem Ecb.init_inv {alg : String} {kv : PyVal} {pad : Int} {s : Ecb}
    (h : Ecb.init alg kv pad = .ok s) : baseInit alg kv = .ok s.obj ∧ s.padMode = pad ∧ PadOk pad := by
  unfold Ecb.init at h
  obtain ⟨o, h1, h2⟩ := Res.bind_eq_ok h
  split at h2
  · cases h2
  next hp =>
  rw [Res.pure_eq] at h2
  cases h2
  refine ⟨h1, rfl, ?_⟩
  unfold PadOk
  by_cases h : pad = padMode1
  · exact Or.inl h
  · by_cases h' : pad = padMode2
    · exact Or.inr h'
    · exact absurd ⟨h, h'⟩ hp

theorem checkIv_inv {bs : Nat} {v : PyVal} {iv : Bytes} (h : checkIv bs v = .ok iv) :
    v.data? = some iv ∧ iv.length % bs = 0 := by
  unfold checkIv at h
  split at h
  · cases h
  next w hw =>
  split at h
  · cases h
  next hl =>
  cases h
  exact ⟨hw, by omega⟩

theorem Cbc.init_inv {alg : String} {kv ivv : PyVal} {pad : Int} {s : Cbc}
    (h : Cbc.init alg kv ivv pad = .ok s) :
    baseInit alg kv = .ok s.obj ∧ s.padMode = pad ∧ PadOk pad ∧ ivv.data? = some s.iv ∧
      s.iv.length % s.obj.blockSize = 0 := by
  unfold Cbc.init at h
  obtain ⟨e, h1, h⟩ := Res.bind_eq_ok h
  obtain ⟨o, h2, h⟩ := Res.bind_eq_ok h
  obtain ⟨v, h3, h⟩ := Res.bind_eq_ok h
  rw [Res.pure_eq] at h
  cases h
  have h1 := Ecb.init_inv h1
  have h3 := checkIv_inv h3
  exact ⟨h2, h1.2.1, h1.2.2, h3.1, h3.2⟩

theorem Fb.init_inv {alg : String} {kv ivv : PyVal} {s : Fb}
    (h : Fb.init alg kv ivv = .ok s) :
    baseInit alg kv = .ok s.obj ∧ ivv.data? = some s.iv ∧ s.iv.length % s.obj.blockSize = 0 := by
  unfold Fb.init at h
  obtain ⟨o, h2, h⟩ := Res.bind_eq_ok h
  obtain ⟨v, h3, h⟩ := Res.bind_eq_ok h
  rw [Res.pure_eq] at h
  cases h
  have h3 := checkIv_inv h3
  exact ⟨h2, h3.1, h3.2⟩

theorem Ctr.init_inv {alg : String} {kv ivv : PyVal} {s : Ctr}
    (h : Ctr.init alg kv ivv = .ok s) :
    baseInit alg kv = .ok s.obj ∧ ivv.data? = some s.initVect ∧
      s.initVect.length = s.obj.blockSize / 2 ∧ s.counter = ctr0 s.obj.blockSize s.initVect := by
  unfold Ctr.init at h
  obtain ⟨o, h2, h⟩ := Res.bind_eq_ok h
  split at h
  · cases h
  next v hv =>
  split at h
  · cases h
  next hl =>
  rw [Res.pure_eq] at h
  cases h
  refine ⟨h2, hv, by simpa using hl, ?_⟩
  simp only [ctr0]
  rw [zeros_nat]

/-- What a successful `new` built. -/
theorem newCipher_inv {alg : String} {kv : PyVal} {mode : Int} {pad : Option Int}
    {iv dat : Option PyVal} {c : Cipher} (h : newCipher alg kv mode pad iv dat = .ok c) :
    (∃ s, mode = modeEcb ∧ c = .ecb s ∧ Ecb.init alg kv (pad.getD padMode1) = .ok s) ∨
    (∃ s, mode = modeCbc ∧ c = .cbc s ∧ Cbc.init alg kv (iv.getD (.bytearray
      (if alg = "magma" then defaultIvCbcMagma else defaultIvKuz))) (pad.getD padMode1) = .ok s) ∨
    (∃ s, mode = modeCfb ∧ c = .cfb s ∧ Fb.init alg kv (iv.getD (.bytearray
      (if alg = "magma" then defaultIvMagma else defaultIvKuz))) = .ok s) ∨
    (∃ s, mode = modeOfb ∧ c = .ofb s ∧ Fb.init alg kv (iv.getD (.bytearray
      (if alg = "magma" then defaultIvMagma else defaultIvKuz))) = .ok s) ∨
    (∃ s, mode = modeCtr ∧ c = .ctr s ∧ Ctr.init alg kv (iv.getD (.bytearray
      (if alg = "magma" then defaultIvCtrMagma else defaultIvCtrKuz))) = .ok s) ∨
    (∃ s, mode = modeMac ∧ c = .mac s ∧ Mac.init alg kv (dat.getD (.bytearray [])) = .ok s) := by
  unfold newCipher at h
  split at h
  · obtain ⟨s, h1, h2⟩ := Res.bind_eq_ok h
    rw [Res.pure_eq] at h2; cases h2
    exact Or.inl ⟨s, by assumption, rfl, h1⟩
  split at h
  · obtain ⟨s, h1, h2⟩ := Res.bind_eq_ok h
    rw [Res.pure_eq] at h2; cases h2
    exact Or.inr (Or.inl ⟨s, by assumption, rfl, h1⟩)
  split at h
  · obtain ⟨s, h1, h2⟩ := Res.bind_eq_ok h
    rw [Res.pure_eq] at h2; cases h2
    exact Or.inr (Or.inr (Or.inl ⟨s, by assumption, rfl, h1⟩))
  split at h
  · obtain ⟨s, h1, h2⟩ := Res.bind_eq_ok h
    rw [Res.pure_eq] at h2; cases h2
    exact Or.inr (Or.inr (Or.inr (Or.inl ⟨s, by assumption, rfl, h1⟩)))
  split at h
  · obtain ⟨s, h1, h2⟩ := Res.bind_eq_ok h
    rw [Res.pure_eq] at h2; cases h2
    exact Or.inr (Or.inr (Or.inr (Or.inr (Or.inl ⟨s, by assumption, rfl, h1⟩))))
  split at h
  · obtain ⟨s, h1, h2⟩ := Res.bind_eq_ok h
    rw [Res.pure_eq] at h2; cases h2
    exact Or.inr (Or.inr (Or.inr (Or.inr (Or.inr ⟨s, by assumption, rfl, h1⟩))))
  · cases h

/-! ### ECB -/

theorem Ecb.Reachable.inv {s : Ecb} (h : Ecb.Reachable s) : s.obj.Good ∧ PadOk s.padMode := by
  induction h with
  | new h =>
    rcases newCipher_inv h with ⟨s, _, e, h⟩ | ⟨s, _, e, h⟩ | ⟨s, _, e, h⟩ | ⟨s, _, e, h⟩ |
      ⟨s, _, e, h⟩ | ⟨s, _, e, h⟩ <;> cases e
    have h := Ecb.init_inv h
    exact ⟨baseInit_good h.1, h.2.1 ▸ h.2.2⟩
  | @encrypt s v _ ih =>
    cases hv : v.data? with
    | none => simp only [Ecb.encrypt, hv]; exact ⟨ih.1.clear, ih.2⟩
    | some d => rw [Ecb.encrypt_ok s ih.1.implements v d hv]; exact ih
  | @decrypt s v _ ih =>
    cases hv : v.data? with
    | none => simp only [Ecb.decrypt, hv]; exact ⟨ih.1.clear, ih.2⟩
    | some d => rw [Ecb.decrypt_ok s ih.1.implements v d hv]; exact ih
  | clear _ ih => exact ⟨ih.1.clear, ih.2⟩

/-! ### The register -/

/-- The register is empty (an IV of no blocks was accepted) or consists of whole blocks. -/
def RegOk (bs : Nat) (iv : Bytes) : Prop := iv = [] ∨ ∃ R, GoodReg bs R ∧ iv = R.flatten

theorem regOk_of_mod {bs : Nat} {iv : Bytes} (hbs : 0 < bs) (h : iv.length % bs = 0) : RegOk bs iv := by
  by_cases h0 : iv = []
  · exact Or.inl h0
  · have := goodReg_blocks hbs (List.length_pos_iff.2 h0) h
    exact Or.inr ⟨_, this.1, this.2.symm⟩

theorem RegOk.reg {bs : Nat} {iv : Bytes} (h : RegOk bs iv) (h0 : iv ≠ []) :
    ∃ R, GoodReg bs R ∧ iv = R.flatten := h.resolve_left h0

theorem setInitVect_nil (bs : Nat) (x : Bytes) : setInitVect bs [] x = x := by
  unfold setInitVect pySliceAssign
  simp [pySlice]

/-- A loop whose first step fails. -/
theorem blockLoop_fail {σ : Type} (step : σ → Bytes → Res (σ × Bytes)) (bs : Nat) (data : Bytes)
    (s : σ) (e : Err) (h : ∀ b, step s b = .error e) (n : Nat) (hn : 0 < n) :
    blockLoop step bs data (List.range n) s [] = (s, .error e) := by
  obtain ⟨n, rfl⟩ : ∃ m, n = m + 1 := ⟨n - 1, by omega⟩
  rw [List.range_succ_eq_map]
  simp only [blockLoop]
  rw [h]

/-- CBC encryption with an empty register raises `IndexError` and changes nothing. -/
theorem Cbc.encrypt_empty (s : Cbc) (hg : s.obj.Good) (hp : PadOk s.padMode) (hiv : s.iv = [])
    (v : PyVal) (d : Bytes) (hv : v.data? = some d) : s.encrypt v = (s, .error .indexError) := by
  have hpos : 0 < s.obj.blockSize := Implements.pos
  unfold Cbc.encrypt
  rw [hv]
  apply blockLoop_fail
  · intro b
    unfold Cbc.encStep
    rw [hiv]
    have : pySlice ([] : Bytes) 0 (s.obj.blockSize : Int) = [] := by simp [pySlice]
    simp only [this, addXor_nil_left, hg.implements.enc_short [] (by simpa using hpos), Res.bind_error]
  · have hd := setPadding_dvd s.obj.blockSize hpos d s.padMode hp
    have hl : 0 < (setPadding s.obj.blockSize d s.padMode).length := by
      rcases hp with hp | hp <;> rw [hp]
      · rw [setPadding_1]
        by_cases h : d = []
        · subst h; rw [getPadSize_nil _ hpos]; simpa using hpos
        · have := List.length_pos_iff.2 h
          simp; omega
      · rw [setPadding_2 _ hpos, List.length_append, List.length_cons]; omega
    exact Nat.div_pos (Nat.le_of_dvd hl hd) hpos

/-- The step of CBC decryption where the register may be empty. -/
def cbcOptStep (D : Bytes → Bytes) (R : Option (List Bytes)) (b : Bytes) :
    Option (List Bytes) × Bytes :=
  match R with
  | none => (some [b], [])
  | some R => (some (regStep (cbcG' D) sndB R b).1, (regStep (cbcG' D) sndB R b).2)

/-- A state with the given register, or the state itself. -/
def Cbc.withOpt (s : Cbc) : Option (List Bytes) → Cbc
  | none => s
  | some R => s.withReg R

theorem mapAccum_some (D : Bytes → Bytes) (R : List Bytes) (bl : List Bytes) :
    mapAccum (cbcOptStep D) (some R) bl =
      (some (mapAccum (regStep (cbcG' D) sndB) R bl).1, (mapAccum (regStep (cbcG' D) sndB) R bl).2) := by
  induction bl generalizing R with
  | nil => rfl
  | cons b bl ih => simp only [mapAccum, cbcOptStep, ih]

/-- CBC decryption with an empty register: the first block gives no output and becomes the
register. -/
theorem Cbc.decrypt_empty (s : Cbc) {E D : Bytes → Bytes} (hI : Implements s.obj E D) (hiv : s.iv = []) (v : PyVal) (d : Bytes)
    (hv : v.data? = some d) :
    s.decrypt v =
      match blocks s.obj.blockSize d with
      | [] => (s, .ok [])
      | b :: bl => (s.withReg (mapAccum (regStep (cbcG' D) sndB) [b] bl).1,
          .ok (mapAccum (regStep (cbcG' D) sndB) [b] bl).2.flatten) := by
  have h0 : pySlice ([] : Bytes) 0 (s.obj.blockSize : Int) = [] := by simp [pySlice]
  have h := blockLoop_ok Cbc.decStep s.withOpt
    (fun R => ∀ Q, R = some Q → GoodReg s.obj.blockSize Q) (cbcOptStep D) s.obj.blockSize
    (by
      intro R b hR hb
      cases R with
      | none =>
        refine ⟨?_, ?_⟩
        · simp only [Cbc.withOpt, cbcOptStep]
          unfold Cbc.decStep
          simp only [hI.dec b hb, Res.bind_ok, Res.pure_eq, hiv, h0, addXor_nil_left, setInitVect_nil]
          simp [Cbc.withReg]
        · intro Q hQ
          cases hQ
          exact ⟨by simp, by simpa using hb⟩
      | some R =>
        have := Cbc.decStep_ok s hI R b (hR R rfl) hb
        refine ⟨this.1, ?_⟩
        intro Q hQ
        cases hQ
        exact this.2) d none (by simp)
  unfold Cbc.decrypt
  rw [hv]
  simp only []
  rw [show s.withOpt none = s from rfl] at h
  rw [h]
  cases blocks s.obj.blockSize d with
  | nil => rfl
  | cons b bl => simp only [mapAccum, cbcOptStep, mapAccum_some, List.flatten_cons, List.nil_append, Cbc.withOpt]

theorem Cbc.Reachable.inv {s : Cbc} (h : Cbc.Reachable s) :
    s.obj.Good ∧ PadOk s.padMode ∧ RegOk s.obj.blockSize s.iv := by
  induction h with
  | new h =>
    rcases newCipher_inv h with ⟨s, _, e, h⟩ | ⟨s, _, e, h⟩ | ⟨s, _, e, h⟩ | ⟨s, _, e, h⟩ |
      ⟨s, _, e, h⟩ | ⟨s, _, e, h⟩ <;> cases e
    have h := Cbc.init_inv h
    exact ⟨baseInit_good h.1, h.2.1 ▸ h.2.2.1, regOk_of_mod Implements.pos h.2.2.2.2⟩
  | @encrypt s v _ ih =>
    obtain ⟨hg, hp, hR⟩ := ih
    cases hv : v.data? with
    | none =>
      simp only [Cbc.encrypt, hv]
      exact ⟨hg.clear, hp, by simpa [Cbc.clear] using hR⟩
    | some d =>
      rcases hR with h0 | ⟨R, hR, hiv⟩
      · rw [Cbc.encrypt_empty s hg hp h0 v d hv]; exact ⟨hg, hp, Or.inl h0⟩
      · rw [Cbc.encrypt_ok s hg.implements R hR hiv v d hv]
        refine ⟨hg, hp, Or.inr ⟨_, ?_, rfl⟩⟩
        exact (regRun_good s.obj.blockSize s.obj.blockSize (cbcG s.obj.E) (cbcG s.obj.E)
          (fun r b hr hb => cbcG_length hg.implements r b hr hb)
          (fun r b hr hb => cbcG_length hg.implements r b hr hb) R _ hR
          (fun b hb => mem_blocks_length hb)).1
  | @decrypt s v _ ih =>
    obtain ⟨hg, hp, hR⟩ := ih
    have hdec : ∀ (R bl : List Bytes), GoodReg s.obj.blockSize R → (∀ b ∈ bl, b.length = s.obj.blockSize) →
        GoodReg s.obj.blockSize (mapAccum (regStep (cbcG' s.obj.D) sndB) R bl).1 := by
      intro R bl hR hbl
      exact (regRun_good s.obj.blockSize s.obj.blockSize (cbcG' s.obj.D) sndB (fun _ _ _ hb => hb)
          (fun r b hr hb => by simp [cbcG', hr, hg.implements.dec_len b hb]) R bl hR hbl).1
    cases hv : v.data? with
    | none =>
      simp only [Cbc.decrypt, hv]
      exact ⟨hg.clear, hp, by simpa [Cbc.clear] using hR⟩
    | some d =>
      have hl : ∀ b ∈ blocks s.obj.blockSize d, b.length = s.obj.blockSize :=
        fun b hb => mem_blocks_length hb
      rcases hR with h0 | ⟨R, hR, hiv⟩
      · rw [Cbc.decrypt_empty s hg.implements h0 v d hv]
        cases hb : blocks s.obj.blockSize d with
        | nil => exact ⟨hg, hp, Or.inl h0⟩
        | cons b bl =>
          rw [hb] at hl
          exact ⟨hg, hp, Or.inr ⟨_, hdec [b] bl ⟨by simp, by simpa using hl b (by simp)⟩
            (fun x hx => hl x (by simp [hx])), rfl⟩⟩
      · rw [Cbc.decrypt_ok s hg.implements R hR hiv v d hv]
        exact ⟨hg, hp, Or.inr ⟨_, hdec R _ hR hl, rfl⟩⟩
  | clear _ ih => exact ⟨ih.1.clear, ih.2.1, by simpa [Cbc.clear] using ih.2.2⟩

/-! ### CFB and OFB -/

/-- A CFB or OFB call with an empty register: nothing to do, or `IndexError`. -/
theorem Fb.run_empty (s : Fb) (hg : s.obj.Good) (hiv : s.iv = [])
    (step : Fb → Bytes → Res (Fb × Bytes)) (hs : ∀ b, step s b = .error .indexError) (d : Bytes) :
    Fb.tail d (blockLoop step s.obj.blockSize d (List.range (getNumBlock s.obj.blockSize d)) s []) =
      (s, if d = [] then .ok [] else .error .indexError) := by
  have hpos : 0 < s.obj.blockSize := Implements.pos
  by_cases hlt : d.length < s.obj.blockSize
  · have hn : getNumBlock s.obj.blockSize d = 0 := Nat.div_eq_of_lt hlt
    rw [hn, List.range_zero]
    simp only [blockLoop, Fb.tail]
    by_cases h0 : d = []
    · subst h0; simp
    · have hl := List.length_pos_iff.2 h0
      have hm : d.length % s.obj.blockSize ≠ 0 := by rw [Nat.mod_eq_of_lt hlt]; omega
      rw [if_pos hm, if_neg h0]
      unfold finalCipher getGamma
      rw [hiv]
      have : pySlice ([] : Bytes) 0 (s.obj.blockSize : Int) = [] := by simp [pySlice]
      simp only [this, hg.implements.enc_short [] (by simpa using hpos), Res.bind_error]
  · have hn : 0 < getNumBlock s.obj.blockSize d := Nat.div_pos (by omega) hpos
    rw [blockLoop_fail step _ _ s _ hs _ hn]
    have h0 : d ≠ [] := by
      rintro rfl
      simp at hlt
      omega
    simp [Fb.tail, h0]

theorem getGamma_nil (o : CipherObj) (hg : o.Good) : getGamma o [] = .error .indexError := by
  unfold getGamma
  have : pySlice ([] : Bytes) 0 (o.blockSize : Int) = [] := by simp [pySlice]
  rw [this, hg.implements.enc_short [] (by simpa using Implements.pos)]

theorem Cfb.encrypt_empty (s : Fb) (hg : s.obj.Good) (hiv : s.iv = []) (v : PyVal) (d : Bytes)
    (hv : v.data? = some d) :
    Cfb.encrypt s v = (s, if d = [] then .ok [] else .error .indexError) := by
  unfold Cfb.encrypt
  rw [hv]
  apply Fb.run_empty s hg hiv
  intro b
  unfold Cfb.encStep
  rw [hiv, getGamma_nil _ hg]
  rfl

theorem Cfb.decrypt_empty (s : Fb) (hg : s.obj.Good) (hiv : s.iv = []) (v : PyVal) (d : Bytes)
    (hv : v.data? = some d) :
    Cfb.decrypt s v = (s, if d = [] then .ok [] else .error .indexError) := by
  unfold Cfb.decrypt
  rw [hv]
  apply Fb.run_empty s hg hiv
  intro b
  unfold Cfb.decStep
  rw [hiv, getGamma_nil _ hg]
  rfl

theorem Ofb.encrypt_empty (s : Fb) (hg : s.obj.Good) (hiv : s.iv = []) (v : PyVal) (d : Bytes)
    (hv : v.data? = some d) :
    Ofb.encrypt s v = (s, if d = [] then .ok [] else .error .indexError) := by
  unfold Ofb.encrypt
  rw [hv]
  apply Fb.run_empty s hg hiv
  intro b
  unfold Ofb.step
  rw [hiv, getGamma_nil _ hg]
  rfl

theorem Cfb.Reachable.inv {s : Fb} (h : Cfb.Reachable s) :
    s.obj.Good ∧ RegOk s.obj.blockSize s.iv := by
  induction h with
  | new h =>
    rcases newCipher_inv h with ⟨s, _, e, h⟩ | ⟨s, _, e, h⟩ | ⟨s, _, e, h⟩ | ⟨s, _, e, h⟩ |
      ⟨s, _, e, h⟩ | ⟨s, _, e, h⟩ <;> cases e
    have h := Fb.init_inv h
    exact ⟨baseInit_good h.1, regOk_of_mod Implements.pos h.2.2⟩
  | @encrypt s v _ ih =>
    obtain ⟨hg, hR⟩ := ih
    cases hv : v.data? with
    | none =>
      simp only [Cfb.encrypt, hv]
      exact ⟨hg.clear, by simpa [Fb.clear] using hR⟩
    | some d =>
      rcases hR with h0 | ⟨R, hR, hiv⟩
      · rw [Cfb.encrypt_empty s hg h0 v d hv]; exact ⟨hg, Or.inl h0⟩
      · rw [Cfb.encrypt_ok s hg.implements R hR hiv v d hv]
        refine ⟨hg, Or.inr ⟨_, ?_, rfl⟩⟩
        have hl : ∀ r b : Bytes, r.length = s.obj.blockSize → b.length = s.obj.blockSize →
            (maskG s.obj.E r b).length = s.obj.blockSize :=
          fun r b hr hb => by rw [maskG_length hg.implements r b hr (by omega), hb]
        exact (regRun_good s.obj.blockSize s.obj.blockSize (maskG s.obj.E) (maskG s.obj.E) hl hl R _ hR
          (fun b hb => mem_blocks_length hb)).1
  | @decrypt s v _ ih =>
    obtain ⟨hg, hR⟩ := ih
    cases hv : v.data? with
    | none =>
      simp only [Cfb.decrypt, hv]
      exact ⟨hg.clear, by simpa [Fb.clear] using hR⟩
    | some d =>
      rcases hR with h0 | ⟨R, hR, hiv⟩
      · rw [Cfb.decrypt_empty s hg h0 v d hv]; exact ⟨hg, Or.inl h0⟩
      · rw [Cfb.decrypt_ok s hg.implements R hR hiv v d hv]
        refine ⟨hg, Or.inr ⟨_, ?_, rfl⟩⟩
        have hl : ∀ r b : Bytes, r.length = s.obj.blockSize → b.length = s.obj.blockSize →
            (maskG s.obj.E r b).length = s.obj.blockSize :=
          fun r b hr hb => by rw [maskG_length hg.implements r b hr (by omega), hb]
        exact (regRun_good s.obj.blockSize s.obj.blockSize (maskG s.obj.E) sndB (fun _ _ _ hb => hb) hl R _ hR
          (fun b hb => mem_blocks_length hb)).1
  | clear _ ih => exact ⟨ih.1.clear, by simpa [Fb.clear] using ih.2⟩

theorem Ofb.Reachable.inv {s : Fb} (h : Ofb.Reachable s) :
    s.obj.Good ∧ RegOk s.obj.blockSize s.iv := by
  have key : ∀ (s : Fb) (v : PyVal), (s.obj.Good ∧ RegOk s.obj.blockSize s.iv) →
      (Ofb.encrypt s v).1.obj.Good ∧ RegOk (Ofb.encrypt s v).1.obj.blockSize (Ofb.encrypt s v).1.iv := by
    intro s v ih
    obtain ⟨hg, hR⟩ := ih
    cases hv : v.data? with
    | none =>
      simp only [Ofb.encrypt, hv]
      exact ⟨hg.clear, by simpa [Fb.clear] using hR⟩
    | some d =>
      rcases hR with h0 | ⟨R, hR, hiv⟩
      · rw [Ofb.encrypt_empty s hg h0 v d hv]; exact ⟨hg, Or.inl h0⟩
      · rw [Ofb.encrypt_ok s hg.implements R hR hiv v d hv]
        refine ⟨hg, Or.inr ⟨_, ?_, rfl⟩⟩
        have hl : ∀ r b : Bytes, r.length = s.obj.blockSize → b.length = s.obj.blockSize →
            (maskG s.obj.E r b).length = s.obj.blockSize :=
          fun r b hr hb => by rw [maskG_length hg.implements r b hr (by omega), hb]
        exact (regRun_good s.obj.blockSize s.obj.blockSize (maskG s.obj.E) (ofbH s.obj.E)
          (fun r _ hr _ => hg.implements.enc_len r hr) hl R _ hR
          (fun b hb => mem_blocks_length hb)).1
  induction h with
  | new h =>
    rcases newCipher_inv h with ⟨s, _, e, h⟩ | ⟨s, _, e, h⟩ | ⟨s, _, e, h⟩ | ⟨s, _, e, h⟩ |
      ⟨s, _, e, h⟩ | ⟨s, _, e, h⟩ <;> cases e
    have h := Fb.init_inv h
    exact ⟨baseInit_good h.1, regOk_of_mod Implements.pos h.2.2⟩
  | @encrypt s v _ ih => exact key s v ih
  | @decrypt s v _ ih =>
    cases hv : v.data? with
    | none =>
      simp only [Ofb.decrypt, hv]
      exact ⟨ih.1.clear, by simpa [Fb.clear] using ih.2⟩
    | some d => rw [Ofb.decrypt_eq s v d hv]; exact key s v ih
  | clear _ ih => exact ⟨ih.1.clear, by simpa [Fb.clear] using ih.2⟩

/-! ### CTR -/

theorem ctr0_length' (bs : Nat) (hbs : bs % 2 = 0) (iv : Bytes) (h : iv.length = bs / 2) :
    (ctr0 bs iv).length = bs := by
  simp only [ctr0, List.length_append, List.length_replicate, h]
  omega

theorem blockSize_even (o : CipherObj) : o.blockSize % 2 = 0 := by cases o <;> simp [CipherObj.blockSize]

theorem Ctr.Reachable.inv {s : Ctr} (h : Ctr.Reachable s) :
    s.obj.Good ∧ s.counter.length = s.obj.blockSize := by
  have key : ∀ (s : Ctr) (v : PyVal), (s.obj.Good ∧ s.counter.length = s.obj.blockSize) →
      (s.encrypt v).1.obj.Good ∧ (s.encrypt v).1.counter.length = (s.encrypt v).1.obj.blockSize := by
    intro s v ih
    cases hv : v.data? with
    | none =>
      simp only [Ctr.encrypt, hv]
      exact ⟨ih.1.clear, by simpa [Ctr.clear] using ih.2⟩
    | some d =>
      rw [Ctr.encrypt_stream s ih.1.implements ih.2 v d hv]
      exact ⟨ih.1, by simp only [Ctr.withCtr, ctrAt_length]; exact ih.2⟩
  induction h with
  | new h =>
    rcases newCipher_inv h with ⟨s, _, e, h⟩ | ⟨s, _, e, h⟩ | ⟨s, _, e, h⟩ | ⟨s, _, e, h⟩ |
      ⟨s, _, e, h⟩ | ⟨s, _, e, h⟩ <;> cases e
    have h := Ctr.init_inv h
    exact ⟨baseInit_good h.1, by rw [h.2.2.2]; exact ctr0_length' _ (blockSize_even _) _ h.2.2.1⟩
  | @encrypt s v _ ih => exact key s v ih
  | @decrypt s v _ ih =>
    cases hv : v.data? with
    | none =>
      simp only [Ctr.decrypt, hv]
      exact ⟨ih.1.clear, by simpa [Ctr.clear] using ih.2⟩
    | some d => rw [Ctr.decrypt_eq s v d hv]; exact key s v ih
  | clear _ ih => exact ⟨ih.1.clear, by simpa [Ctr.clear] using ih.2⟩

end Gost
