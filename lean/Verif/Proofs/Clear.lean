import Verif.Proofs.Mac

/-! The cipher objects after `clear`. -/

namespace Gost
open Spec (Alg blocks rest)

theorem zeroFill_length (k : Bytes) : (zeroFill k).length = 4 * k.length := by
  simp [zeroFill, slashX00]; omega

/-- `zero_fill` of a long enough value begins with copies of the literal. -/
theorem zeroFill_take (k : Bytes) (n : Nat) (h : n ≤ k.length) :
    (zeroFill k).take (4 * n) = (List.replicate n slashX00).flatten := by
  have e : k.length = n + (k.length - n) := by omega
  unfold zeroFill
  rw [e, ← List.replicate_append_replicate, List.flatten_append]
  exact List.take_left' (by simp [slashX00]; omega)

theorem clear_getD (ks : List Bytes) (n : Nat) (h : n < ks.length) :
    (ks.map zeroFill).getD n [] = zeroFill (ks.getD n []) := by
  simp [List.getD, List.getElem?_eq_getElem h]

theorem foldl_congr_inv {α β : Type} (f g : β → α → β) (P : β → Prop) (l : List α) (b : β) (hb : P b)
    (h : ∀ b, P b → ∀ a ∈ l, f b a = g b a ∧ P (f b a)) : l.foldl f b = l.foldl g b := by
  induction l generalizing b with
  | nil => rfl
  | cons a l ih =>
    have := h b hb a (by simp)
    rw [List.foldl_cons, List.foldl_cons, ← this.1]
    exact ih _ this.2 fun b hb a ha => h b hb a (by simp [ha])

theorem foldl_inv {α β : Type} (f : β → α → β) (P : β → Prop) (l : List α) (b : β) (hb : P b)
    (h : ∀ b, P b → ∀ a ∈ l, P (f b a)) : P (l.foldl f b) := by
  induction l generalizing b with
  | nil => exact hb
  | cons a l ih => exact ih _ (h b hb a (by simp)) fun b hb a ha => h b hb a (by simp [ha])

theorem addXor_congr_take (k k' b : Bytes) (n : Nat) (hb : b.length ≤ n) (h : k.take n = k'.take n) :
    addXor k b = addXor k' b := by
  rw [← addXor_take k b n hb, h, addXor_take k' b n hb]

namespace Kuz

/-- Encryption and decryption only use the first 16 bytes of each round key. -/
theorem E_congr {ks ks' : List Bytes} (h : GoodKeys ks) (h' : GoodKeys ks')
    (he : ∀ n, n < 10 → (ks.getD n []).take 16 = (ks'.getD n []).take 16) (b : Bytes)
    (hb : b.length = 16) : E ks b = E ks' b ∧ D ks b = D ks' b := by
  constructor
  · unfold E
    have e : (List.range 9).foldl (fun b n => round (ks.getD n []) b) b =
        (List.range 9).foldl (fun b n => round (ks'.getD n []) b) b := by
      refine foldl_congr_inv _ _ (fun b => b.length = 16) _ b hb ?_
      intro b hb n hn
      have hn : n < 9 := by simpa using hn
      refine ⟨?_, round_length _ _ (h.get n (by omega)) hb⟩
      unfold round
      rw [addXor_congr_take _ _ b 16 (by omega) (he n (by omega))]
    have hl : ((List.range 9).foldl (fun b n => round (ks'.getD n []) b) b).length = 16 := by
      refine foldl_inv _ (fun b => b.length = 16) _ b hb ?_
      intro b hb n hn
      have hn : n < 9 := by simpa using hn
      exact round_length _ _ (h'.get n (by omega)) hb
    rw [e]
    exact addXor_congr_take _ _ _ 16 (by omega) (he 9 (by omega))
  · unfold D
    rw [addXor_congr_take _ _ b 16 (by omega) (he 9 (by omega))]
    have h9 := h'.get 9 (by omega)
    refine foldl_congr_inv _ _ (fun b => b.length = 16) _ _ (by lens) ?_
    intro b hb n hn
    have hn : n < 9 := by simpa using hn
    refine ⟨?_, roundInv_length _ _ (h.get n (by omega)) hb⟩
    unfold roundInv
    have := Linv_length b hb
    exact addXor_congr_take _ _ _ 16 (by lens) (he n (by omega))

theorem clear_take {ks : List Bytes} (h : GoodKeys ks) (n : Nat) (hn : n < 10) :
    ((clear ks).getD n []).take 16 = (List.replicate 4 slashX00).flatten := by
  unfold clear
  rw [clear_getD ks n (by rw [h.1]; exact hn)]
  exact zeroFill_take _ 4 (by have := h.get n hn; omega)

end Kuz

namespace Magma

theorem gB_congr (k k' a : Bytes) (h : k.take 4 = k'.take 4) : gB k a = gB k' a := by
  unfold gB; rw [h]

theorem steps_congr {ks ks' : List Bytes} 
    (he : ∀ n, n < 32 → (ks.getD n []).take 4 = (ks'.getD n []).take 4) (l : List Nat)
    (hl : ∀ n ∈ l, n < 32) (b : Bytes) : steps ks l b = steps ks' l b := by
  unfold steps
  refine foldl_congr_inv _ _ (fun _ => True) _ b trivial ?_
  intro b _ n hn
  refine ⟨?_, trivial⟩
  unfold G
  rw [gB_congr _ _ _ (he n (hl n hn))]

theorem clear_take {ks : List Bytes} (h : GoodKeys ks) (n : Nat) (hn : n < 32) :
    ((clear ks).getD n []).take 4 = slashX00 := by
  unfold clear
  rw [clear_getD ks n (by rw [h.1]; exact hn)]
  exact (zeroFill_take _ 1 (by have := h.get n hn; omega)).trans (by simp)

end Magma

/-- Two objects of one class encrypt and decrypt alike after `clear`, whatever keys they had. -/
theorem clear_congr {o o' : CipherObj} (h : o.Good) (h' : o'.Good) (hbs : o.blockSize = o'.blockSize)
    (b : Bytes) (hb : b.length = o.blockSize) :
    o.clear.encrypt b = o'.clear.encrypt b ∧ o.clear.decrypt b = o'.clear.decrypt b := by
  cases o with
  | kuz ks =>
    cases o' with
    | magma ks' => cases hbs
    | kuz ks' =>
      have g := Kuz.clear_good h
      have g' := Kuz.clear_good h'
      have hb : b.length = 16 := hb
      have := Kuz.E_congr g g' (fun n hn => by rw [Kuz.clear_take h n hn, Kuz.clear_take h' n hn]) b hb
      simp only [CipherObj.clear, CipherObj.encrypt, CipherObj.decrypt]
      rw [(Kuz.encrypt_ok g b hb).1, (Kuz.encrypt_ok g' b hb).1, (Kuz.decrypt_ok g b hb).1,
        (Kuz.decrypt_ok g' b hb).1, this.1, this.2]
      exact ⟨rfl, rfl⟩
  | magma ks =>
    cases o' with
    | kuz ks' => cases hbs
    | magma ks' =>
      have g := Magma.clear_good h
      have g' := Magma.clear_good h'
      have hb : b.length = 8 := hb
      have he : ∀ n, n < 32 → ((Magma.clear ks).getD n []).take 4 = ((Magma.clear ks').getD n []).take 4 :=
        fun n hn => by rw [Magma.clear_take h n hn, Magma.clear_take h' n hn]
      have e1 := Magma.steps_congr he (List.range 32) (by simp) b
      have e2 := Magma.steps_congr he (List.range 32).reverse (by simp) b
      simp only [CipherObj.clear, CipherObj.encrypt, CipherObj.decrypt]
      rw [(Magma.encrypt_ok g b hb).1, (Magma.encrypt_ok g' b hb).1, (Magma.decrypt_ok g b hb).1,
        (Magma.decrypt_ok g' b hb).1]
      unfold Magma.E Magma.D
      rw [e1, e2]
      exact ⟨rfl, rfl⟩

/-- A cleared Magma object is a Magma object with the known key `"/x00"` eight times. -/
theorem clear_magma {o : CipherObj} (h : o.Good) (hbs : o.blockSize = 8) (b : Bytes)
    (hb : b.length = 8) :
    o.clear.encrypt b = .ok (Spec.Magma.encrypt (List.replicate 8 slashX00).flatten b) := by
  cases o with
  | kuz ks => cases hbs
  | magma ks =>
    have g := Magma.clear_good h
    simp only [CipherObj.clear, CipherObj.encrypt]
    rw [(Magma.encrypt_ok g b hb).1]
    refine congrArg Except.ok (Magma.E_spec _ _ ?_ b hb)
    intro n hn
    rw [Magma.clear_take h n hn]
    have : ∀ n : Fin 32, Gost.Spec.beNat slashX00 =
      Spec.Magma.subkey (List.replicate 8 slashX00).flatten n := by decide +kernel
    exact this ⟨n, hn⟩

/-- The round keys. -/
def CipherObj.keys : CipherObj → List Bytes
  | .kuz ks => ks
  | .magma ks => ks

theorem replicate_zeroFill (ks : List Bytes) (m n : Nat) (h : ks.length = n) (hk : ∀ k ∈ ks, k.length = m) :
    ks.map zeroFill = List.replicate n (List.replicate m slashX00).flatten := by
  rw [List.eq_replicate_iff]
  refine ⟨by simp [h], ?_⟩
  intro b hb
  obtain ⟨k, hk', rfl⟩ := List.mem_map.1 hb
  rw [zeroFill, hk k hk']

/-- The cipher object which a new object has after `clear`. -/
def clearedObj : Alg → CipherObj
  | .kuznechik => .kuz (List.replicate 10 (List.replicate 16 slashX00).flatten)
  | .magma => .magma (List.replicate 32 (List.replicate 4 slashX00).flatten)

theorem Magma.init_lengths (key : Bytes) (h : key.length = 32) (ks : List Bytes)
    (hi : Magma.init key = .ok ks) : ks.length = 32 ∧ ∀ k ∈ ks, k.length = 4 := by
  obtain ⟨ks', h1, h2, h3, _⟩ := Magma.init_ok key h
  rw [h1] at hi
  cases hi
  exact ⟨h2.1, h3⟩

theorem baseInit_clear (a : Alg) (v : PyVal) (key : Bytes) (hv : v.data? = some key)
    (hk : key.length = 32) (o : CipherObj) (h : baseInit a.name v = .ok o) : o.clear = clearedObj a := by
  have hc : (!checkValue v 32) = false := by rw [checkValue_data hv, hk]; rfl
  cases a with
  | kuznechik =>
    unfold baseInit at h
    rw [if_neg (by simp [Alg.name]), hc, hv] at h
    simp only [Alg.name, Bool.false_eq_true, if_false, if_true, Kuz.init_ok key hk, Res.bind_ok,
      Res.pure_eq] at h
    cases h
    simp only [CipherObj.clear, Kuz.clear, clearedObj]
    rw [replicate_zeroFill _ 16 10 (by simp)]
    intro k hk'
    obtain ⟨n, hn, rfl⟩ := List.mem_map.1 hk'
    exact Kuz.roundKey_length key hk n
  | magma =>
    obtain ⟨ks, h1, h2, _, h4⟩ := Magma.init_ok key hk
    unfold baseInit at h
    rw [if_neg (by simp [Alg.name]), hc, hv] at h
    have : ¬ ("magma" = "kuznechik") := by decide
    simp only [Alg.name, Bool.false_eq_true, if_false, this, h1, Res.bind_ok, Res.pure_eq] at h
    cases h
    have hl := Magma.init_lengths key hk ks h1
    simp only [CipherObj.clear, Magma.clear, clearedObj]
    rw [replicate_zeroFill _ 4 32 hl.1 hl.2]

end Gost

namespace Gost
open Spec (Alg blocks rest)

/-! ### Objects which differ only in the representation of their round keys -/

/-- Two cipher objects which encrypt and decrypt every block alike. -/
structure Same (o o' : CipherObj) : Prop where
  good : o.Good
  good' : o'.Good
  bs : o'.blockSize = o.blockSize
  enc : ∀ b : Bytes, b.length = o.blockSize → o'.encrypt b = o.encrypt b
  dec : ∀ b : Bytes, b.length = o.blockSize → o'.decrypt b = o.decrypt b

theorem Same.implements {o o' : CipherObj} (h : Same o o') : Implements o' o.E o.D := by
  have hI := h.good.implements
  exact {
    enc := fun b hb => by rw [h.enc b (hb.trans h.bs), hI.enc b (hb.trans h.bs)]
    enc_len := fun b hb => by rw [h.bs]; exact hI.enc_len b (hb.trans h.bs)
    dec := fun b hb => by rw [h.dec b (hb.trans h.bs), hI.dec b (hb.trans h.bs)]
    dec_len := fun b hb => by rw [h.bs]; exact hI.dec_len b (hb.trans h.bs)
    D_E := fun b hb => hI.D_E b (hb.trans h.bs)
    E_D := fun b hb => hI.E_D b (hb.trans h.bs)
    enc_short := h.good'.implements.enc_short }

theorem Same.clear_of {o o' : CipherObj} (h : o.Good) (h' : o'.Good) (hbs : o'.blockSize = o.blockSize) :
    Same o.clear o'.clear where
  good := h.clear
  good' := h'.clear
  bs := by simp [hbs]
  enc := fun b hb => (clear_congr h' h hbs b (by rw [hbs]; simpa using hb)).1
  dec := fun b hb => (clear_congr h' h hbs b (by rw [hbs]; simpa using hb)).2

theorem Same.clear {o o' : CipherObj} (h : Same o o') : Same o.clear o'.clear :=
  Same.clear_of h.good h.good' h.bs

theorem runHistory_congr {σ : Type} (enc dec : σ → PyVal → σ × Res Bytes) (clr : σ → σ)
    (Rel : σ → σ → Prop)
    (he : ∀ s s' v, Rel s s' → Rel (enc s v).1 (enc s' v).1 ∧ (enc s v).2 = (enc s' v).2)
    (hd : ∀ s s' v, Rel s s' → Rel (dec s v).1 (dec s' v).1 ∧ (dec s v).2 = (dec s' v).2)
    (hc : ∀ s s', Rel s s' → Rel (clr s) (clr s')) (cs : List CipherCall) :
    ∀ s s', Rel s s' → runHistory enc dec clr s cs = runHistory enc dec clr s' cs := by
  induction cs with
  | nil => intro _ _ _; rfl
  | cons c cs ih =>
    intro s s' h
    cases c with
    | encrypt v => simp only [runHistory]; rw [(he s s' v h).2, ih _ _ (he s s' v h).1]
    | decrypt v => simp only [runHistory]; rw [(hd s s' v h).2, ih _ _ (hd s s' v h).1]
    | clear => simp only [runHistory]; exact ih _ _ (hc s s' h)

/-- The relation for ECB. -/
def Ecb.Rel (s s' : Ecb) : Prop := Same s.obj s'.obj ∧ s'.padMode = s.padMode

theorem Ecb.rel_run (cs : List CipherCall) (s s' : Ecb) (h : Ecb.Rel s s') :
    runHistory Ecb.encrypt Ecb.decrypt Ecb.clear s cs = runHistory Ecb.encrypt Ecb.decrypt Ecb.clear s' cs := by
  refine runHistory_congr _ _ _ Ecb.Rel ?_ ?_ (fun s s' (h : Ecb.Rel s s') => (⟨h.1.clear, h.2⟩ : Ecb.Rel s.clear s'.clear)) cs s s' h
  · intro s s' v h
    cases hv : v.data? with
    | none => simp only [Ecb.encrypt, hv]; exact ⟨⟨h.1.clear, h.2⟩, trivial⟩
    | some d =>
      rw [Ecb.encrypt_ok s h.1.good.implements v d hv, Ecb.encrypt_ok s' h.1.implements v d hv, h.2, h.1.bs]
      exact ⟨h, rfl⟩
  · intro s s' v h
    cases hv : v.data? with
    | none => simp only [Ecb.decrypt, hv]; exact ⟨⟨h.1.clear, h.2⟩, trivial⟩
    | some d =>
      rw [Ecb.decrypt_ok s h.1.good.implements v d hv, Ecb.decrypt_ok s' h.1.implements v d hv, h.1.bs]
      exact ⟨h, rfl⟩

/-- The relation for CBC. -/
def Cbc.Rel (s s' : Cbc) : Prop :=
  Same s.obj s'.obj ∧ s'.padMode = s.padMode ∧ s'.iv = s.iv ∧ PadOk s.padMode ∧ RegOk s.obj.blockSize s.iv

theorem cbcEnc_good {o : CipherObj} (hg : o.Good) (R : List Bytes) (hR : GoodReg o.blockSize R)
    (bl : List Bytes) (hbl : ∀ b ∈ bl, b.length = o.blockSize) :
    GoodReg o.blockSize (mapAccum (regStep (cbcG o.E) (cbcG o.E)) R bl).1 :=
  (regRun_good o.blockSize o.blockSize (cbcG o.E) (cbcG o.E)
    (fun r b hr hb => cbcG_length hg.implements r b hr hb)
    (fun r b hr hb => cbcG_length hg.implements r b hr hb) R _ hR hbl).1

theorem cbcDec_good {o : CipherObj} (hg : o.Good) (R : List Bytes) (hR : GoodReg o.blockSize R)
    (bl : List Bytes) (hbl : ∀ b ∈ bl, b.length = o.blockSize) :
    GoodReg o.blockSize (mapAccum (regStep (cbcG' o.D) sndB) R bl).1 :=
  (regRun_good o.blockSize o.blockSize (cbcG' o.D) sndB (fun _ _ _ hb => hb)
    (fun r b hr hb => by simp [cbcG', hr, hg.implements.dec_len b hb]) R bl hR hbl).1

theorem Cbc.rel_clear {s s' : Cbc} (h : Cbc.Rel s s') : Cbc.Rel s.clear s'.clear := by
  obtain ⟨h1, h2, h3, h4, h5⟩ := h
  exact ⟨h1.clear, h2, h3, h4, by simpa [Cbc.clear] using h5⟩

theorem Cbc.rel_withReg {s s' : Cbc} (h : Cbc.Rel s s') (R : List Bytes) (hR : GoodReg s.obj.blockSize R) :
    Cbc.Rel (s.withReg R) (s'.withReg R) := by
  obtain ⟨h1, h2, h3, h4, h5⟩ := h
  exact ⟨h1, h2, rfl, h4, Or.inr ⟨R, hR, rfl⟩⟩

theorem Cbc.rel_run (cs : List CipherCall) (s s' : Cbc) (h : Cbc.Rel s s') :
    runHistory Cbc.encrypt Cbc.decrypt Cbc.clear s cs = runHistory Cbc.encrypt Cbc.decrypt Cbc.clear s' cs := by
  refine runHistory_congr _ _ _ Cbc.Rel ?_ ?_ (fun s s' h => Cbc.rel_clear h) cs s s' h
  · intro s s' v h
    have h0 := h
    obtain ⟨h1, h2, h3, h4, h5⟩ := h
    cases hv : v.data? with
    | none => simp only [Cbc.encrypt, hv]; exact ⟨Cbc.rel_clear h0, trivial⟩
    | some d =>
      rcases h5 with h5 | ⟨R, hR, hiv⟩
      · rw [Cbc.encrypt_empty s h1.good h4 h5 v d hv, Cbc.encrypt_empty s' h1.good' (h2 ▸ h4) (h3 ▸ h5) v d hv]
        exact ⟨h0, rfl⟩
      · have hR' : GoodReg s'.obj.blockSize R := by rw [h1.bs]; exact hR
        rw [Cbc.encrypt_ok s h1.good.implements R hR hiv v d hv,
          Cbc.encrypt_ok s' h1.implements R hR' (h3 ▸ hiv) v d hv, h1.bs, h2]
        exact ⟨Cbc.rel_withReg h0 _ (cbcEnc_good h1.good R hR _ (fun b hb => mem_blocks_length hb)), rfl⟩
  · intro s s' v h
    have h0 := h
    obtain ⟨h1, h2, h3, h4, h5⟩ := h
    cases hv : v.data? with
    | none => simp only [Cbc.decrypt, hv]; exact ⟨Cbc.rel_clear h0, trivial⟩
    | some d =>
      have hl : ∀ b ∈ blocks s.obj.blockSize d, b.length = s.obj.blockSize :=
        fun b hb => mem_blocks_length hb
      rcases h5 with h5 | ⟨R, hR, hiv⟩
      · rw [Cbc.decrypt_empty s h1.good.implements h5 v d hv,
          Cbc.decrypt_empty s' h1.implements (h3 ▸ h5) v d hv, h1.bs]
        cases hb : blocks s.obj.blockSize d with
        | nil => exact ⟨h0, rfl⟩
        | cons b bl =>
          rw [hb] at hl
          exact ⟨Cbc.rel_withReg h0 _ (cbcDec_good h1.good [b] ⟨by simp, by simpa using hl b (by simp)⟩ bl
            (fun x hx => hl x (by simp [hx]))), rfl⟩
      · have hR' : GoodReg s'.obj.blockSize R := by rw [h1.bs]; exact hR
        rw [Cbc.decrypt_ok s h1.good.implements R hR hiv v d hv,
          Cbc.decrypt_ok s' h1.implements R hR' (h3 ▸ hiv) v d hv, h1.bs]
        exact ⟨Cbc.rel_withReg h0 _ (cbcDec_good h1.good R hR _ hl), rfl⟩

/-- The relation for CFB and OFB. -/
def Fb.Rel (s s' : Fb) : Prop := Same s.obj s'.obj ∧ s'.iv = s.iv ∧ RegOk s.obj.blockSize s.iv

theorem Fb.rel_clear {s s' : Fb} (h : Fb.Rel s s') : Fb.Rel s.clear s'.clear := by
  obtain ⟨h1, h2, h3⟩ := h
  exact ⟨h1.clear, h2, by simpa [Fb.clear] using h3⟩

theorem Fb.rel_withReg {s s' : Fb} (h : Fb.Rel s s') (R : List Bytes) (hR : GoodReg s.obj.blockSize R) :
    Fb.Rel (s.withReg R) (s'.withReg R) := ⟨h.1, rfl, Or.inr ⟨R, hR, rfl⟩⟩

theorem mask_good {o : CipherObj} (hg : o.Good) (h : Bytes → Bytes → Bytes)
    (hh : ∀ r b : Bytes, r.length = o.blockSize → b.length = o.blockSize → (h r b).length = o.blockSize)
    (R : List Bytes) (hR : GoodReg o.blockSize R) (d : Bytes) :
    GoodReg o.blockSize (mapAccum (regStep (maskG o.E) h) R (blocks o.blockSize d)).1 := by
  have hl : ∀ r b : Bytes, r.length = o.blockSize → b.length = o.blockSize →
      (maskG o.E r b).length = o.blockSize :=
    fun r b hr hb => by rw [maskG_length hg.implements r b hr (by omega), hb]
  exact (regRun_good o.blockSize o.blockSize (maskG o.E) h hh hl R _ hR (fun b hb => mem_blocks_length hb)).1

theorem Cfb.rel_run (cs : List CipherCall) (s s' : Fb) (h : Fb.Rel s s') :
    runHistory Cfb.encrypt Cfb.decrypt Fb.clear s cs = runHistory Cfb.encrypt Cfb.decrypt Fb.clear s' cs := by
  refine runHistory_congr _ _ _ Fb.Rel ?_ ?_ (fun s s' h => Fb.rel_clear h) cs s s' h
  · intro s s' v h
    have h0 := h
    obtain ⟨h1, h3, h5⟩ := h
    cases hv : v.data? with
    | none => simp only [Cfb.encrypt, hv]; exact ⟨Fb.rel_clear h0, trivial⟩
    | some d =>
      rcases h5 with h5 | ⟨R, hR, hiv⟩
      · rw [Cfb.encrypt_empty s h1.good h5 v d hv, Cfb.encrypt_empty s' h1.good' (h3 ▸ h5) v d hv]
        exact ⟨h0, rfl⟩
      · have hR' : GoodReg s'.obj.blockSize R := by rw [h1.bs]; exact hR
        rw [Cfb.encrypt_ok s h1.good.implements R hR hiv v d hv,
          Cfb.encrypt_ok s' h1.implements R hR' (h3 ▸ hiv) v d hv, h1.bs]
        refine ⟨Fb.rel_withReg h0 _ (mask_good h1.good _ ?_ R hR d), rfl⟩
        exact fun r b hr hb => by rw [maskG_length h1.good.implements r b hr (by omega), hb]
  · intro s s' v h
    have h0 := h
    obtain ⟨h1, h3, h5⟩ := h
    cases hv : v.data? with
    | none => simp only [Cfb.decrypt, hv]; exact ⟨Fb.rel_clear h0, trivial⟩
    | some d =>
      rcases h5 with h5 | ⟨R, hR, hiv⟩
      · rw [Cfb.decrypt_empty s h1.good h5 v d hv, Cfb.decrypt_empty s' h1.good' (h3 ▸ h5) v d hv]
        exact ⟨h0, rfl⟩
      · have hR' : GoodReg s'.obj.blockSize R := by rw [h1.bs]; exact hR
        rw [Cfb.decrypt_ok s h1.good.implements R hR hiv v d hv,
          Cfb.decrypt_ok s' h1.implements R hR' (h3 ▸ hiv) v d hv, h1.bs]
        exact ⟨Fb.rel_withReg h0 _ (mask_good h1.good _ (fun _ _ _ hb => hb) R hR d), rfl⟩

theorem Ofb.rel_run (cs : List CipherCall) (s s' : Fb) (h : Fb.Rel s s') :
    runHistory Ofb.encrypt Ofb.decrypt Fb.clear s cs = runHistory Ofb.encrypt Ofb.decrypt Fb.clear s' cs := by
  have key : ∀ (s s' : Fb) (v : PyVal), Fb.Rel s s' →
      Fb.Rel (Ofb.encrypt s v).1 (Ofb.encrypt s' v).1 ∧ (Ofb.encrypt s v).2 = (Ofb.encrypt s' v).2 := by
    intro s s' v h
    have h0 := h
    obtain ⟨h1, h3, h5⟩ := h
    cases hv : v.data? with
    | none => simp only [Ofb.encrypt, hv]; exact ⟨Fb.rel_clear h0, trivial⟩
    | some d =>
      rcases h5 with h5 | ⟨R, hR, hiv⟩
      · rw [Ofb.encrypt_empty s h1.good h5 v d hv, Ofb.encrypt_empty s' h1.good' (h3 ▸ h5) v d hv]
        exact ⟨h0, rfl⟩
      · have hR' : GoodReg s'.obj.blockSize R := by rw [h1.bs]; exact hR
        rw [Ofb.encrypt_ok s h1.good.implements R hR hiv v d hv,
          Ofb.encrypt_ok s' h1.implements R hR' (h3 ▸ hiv) v d hv, h1.bs]
        exact ⟨Fb.rel_withReg h0 _ (mask_good h1.good _
          (fun r _ hr _ => h1.good.implements.enc_len r hr) R hR d), rfl⟩
  refine runHistory_congr _ _ _ Fb.Rel key ?_ (fun s s' h => Fb.rel_clear h) cs s s' h
  intro s s' v h
  cases hv : v.data? with
  | none => simp only [Ofb.decrypt, hv]; exact ⟨Fb.rel_clear h, trivial⟩
  | some d => rw [Ofb.decrypt_eq s v d hv, Ofb.decrypt_eq s' v d hv]; exact key s s' v h

/-- The relation for CTR. -/
def Ctr.Rel (s s' : Ctr) : Prop :=
  Same s.obj s'.obj ∧ s'.counter = s.counter ∧ s.counter.length = s.obj.blockSize

theorem Ctr.rel_clear {s s' : Ctr} (h : Ctr.Rel s s') : Ctr.Rel s.clear s'.clear :=
  ⟨h.1.clear, h.2.1, by simpa [Ctr.clear] using h.2.2⟩

theorem Ctr.rel_run (cs : List CipherCall) (s s' : Ctr) (h : Ctr.Rel s s') :
    runHistory Ctr.encrypt Ctr.decrypt Ctr.clear s cs = runHistory Ctr.encrypt Ctr.decrypt Ctr.clear s' cs := by
  have key : ∀ (s s' : Ctr) (v : PyVal), Ctr.Rel s s' →
      Ctr.Rel (s.encrypt v).1 (s'.encrypt v).1 ∧ (s.encrypt v).2 = (s'.encrypt v).2 := by
    intro s s' v h
    have h0 := h
    obtain ⟨h1, h2, h3⟩ := h
    cases hv : v.data? with
    | none => simp only [Ctr.encrypt, hv]; exact ⟨Ctr.rel_clear h0, trivial⟩
    | some d =>
      rw [Ctr.encrypt_stream s h1.good.implements h3 v d hv,
        Ctr.encrypt_stream s' h1.implements (by rw [h2, h1.bs]; exact h3) v d hv, h1.bs, h2]
      exact ⟨⟨h1, rfl, by simp only [Ctr.withCtr, ctrAt_length]; exact h3⟩, rfl⟩
  refine runHistory_congr _ _ _ Ctr.Rel key ?_ (fun s s' h => Ctr.rel_clear h) cs s s' h
  intro s s' v h
  cases hv : v.data? with
  | none => simp only [Ctr.decrypt, hv]; exact ⟨Ctr.rel_clear h, trivial⟩
  | some d => rw [Ctr.decrypt_eq s v d hv, Ctr.decrypt_eq s' v d hv]; exact key s s' v h

end Gost
