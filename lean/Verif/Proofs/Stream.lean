import Verif.Proofs.Reach

/-! Calls on consecutive pieces of a message. -/

namespace Gost
open Spec (Alg blocks rest)

/-- The result of a call followed by the result of another. -/
def andThen {σ : Type} (out : Bytes) (r : σ × Res Bytes) : σ × Res Bytes :=
  match r with
  | (s, .error e) => (s, .error e)
  | (s, .ok out') => (s, .ok (out ++ out'))

theorem runCalls_cons {σ : Type} (call : σ → PyVal → σ × Res Bytes) (s s' : σ) (v : PyVal)
    (vs : List PyVal) (out : Bytes) (h : call s v = (s', .ok out)) :
    runCalls call s (v :: vs) = andThen out (runCalls call s' vs) := by
  rw [runCalls, h]
  simp only [andThen]
  rcases runCalls call s' vs with ⟨t, e | o⟩ <;> rfl

/-- If a call on a piece can be merged with the next call, then any number of calls is one. -/
theorem runCalls_merge {σ : Type} (call : σ → PyVal → σ × Res Bytes) (Inv : σ → Prop)
    (P Q : Bytes → Prop) (hPQ : ∀ d e, P d → Q e → Q (d ++ e))
    (hval : ∀ s v d, v.data? = some d → call s v = call s (.bytes d))
    (hstep : ∀ s d, Inv s → P d → ∃ s' out, call s (.bytes d) = (s', .ok out) ∧ Inv s' ∧
      ∀ e, Q e → call s (.bytes (d ++ e)) = andThen out (call s' (.bytes e)))
    (vs : List PyVal) (ds : List Bytes) (hds : vs.map PyVal.data? = ds.map some)
    (hP : ∀ d ∈ ds, P d) (v : PyVal) (d : Bytes) (hv : v.data? = some d) (hQ : Q d) (s : σ)
    (hI : Inv s) :
    runCalls call s (vs ++ [v]) = call s (.bytes (ds.flatten ++ d)) := by
  have hQf : ∀ ds : List Bytes, (∀ d ∈ ds, P d) → Q (ds.flatten ++ d) := by
    intro ds
    induction ds with
    | nil => intro _; simpa using hQ
    | cons x ds ih =>
      intro h
      rw [List.flatten_cons, List.append_assoc]
      exact hPQ _ _ (h x (by simp)) (ih fun y hy => h y (by simp [hy]))
  induction vs generalizing s ds with
  | nil =>
    cases ds with
    | cons => simp at hds
    | nil =>
      simp only [List.nil_append, List.flatten_nil]
      rw [← hval s v d hv]
      simp only [runCalls]
      split
      · next h => exact h.symm
      · next h => rw [h, List.append_nil]
  | cons w vs ih =>
    cases ds with
    | nil => simp at hds
    | cons x ds =>
      simp only [List.map_cons, List.cons.injEq] at hds
      obtain ⟨s', out, h1, h2, h3⟩ := hstep s x hI (hP x (by simp))
      have hw : call s w = (s', .ok out) := by rw [hval s w x hds.1, h1]
      rw [List.cons_append, runCalls_cons call s s' w _ out hw,
        ih ds hds.2 (fun y hy => hP y (by simp [hy])) s' h2, List.flatten_cons, List.append_assoc,
        h3 _ (hQf ds fun y hy => hP y (by simp [hy]))]

/-! ### CBC -/

theorem getPadSize_append (bs : Nat) (d e : Bytes) (hd : bs ∣ d.length) (he : e ≠ []) :
    getPadSize bs (d ++ e) = getPadSize bs e := by
  obtain ⟨k, hk⟩ := hd
  have hl := List.length_pos_iff.2 he
  have h1 : (d ++ e).length % bs = e.length % bs := by
    rw [List.length_append, hk, Nat.mul_add_mod]
  have hform : ∀ x : Bytes, x ≠ [] → getPadSize bs x = if x.length % bs = 0 then 0 else bs - x.length % bs := by
    intro x hx
    have hl := List.length_pos_iff.2 hx
    unfold getPadSize
    by_cases h : x.length < bs
    · rw [if_pos h, Nat.mod_eq_of_lt h, if_neg (by omega)]
    · rw [if_neg h]
      simp
  rw [hform _ (by simp [he]), hform _ he, h1]

theorem setPadding_append (bs : Nat) (d e : Bytes) (hd : bs ∣ d.length) (he : e ≠ []) :
    setPadding bs (d ++ e) padMode1 = d ++ setPadding bs e padMode1 := by
  rw [setPadding_1, setPadding_1, getPadSize_append bs d e hd he, List.append_assoc]

theorem setPadding_aligned (bs : Nat) (d : Bytes) (hd : bs ∣ d.length) (h0 : d ≠ []) :
    setPadding bs d padMode1 = d := by
  have hl := List.length_pos_iff.2 h0
  rw [setPadding_1]
  have : getPadSize bs d = 0 := by
    unfold getPadSize
    have h1 : ¬ d.length < bs := by
      have := Nat.le_of_dvd hl hd
      omega
    rw [if_neg h1]
    simp [Nat.mod_eq_zero_of_dvd hd]
  rw [this]
  simp

theorem Cbc.encrypt_val (s : Cbc) (v : PyVal) (d : Bytes) (hv : v.data? = some d) :
    s.encrypt v = s.encrypt (.bytes d) := by
  unfold Cbc.encrypt; rw [hv]; rfl

theorem Cbc.decrypt_val (s : Cbc) (v : PyVal) (d : Bytes) (hv : v.data? = some d) :
    s.decrypt v = s.decrypt (.bytes d) := by
  unfold Cbc.decrypt; rw [hv]; rfl

theorem Cfb.encrypt_val (s : Fb) (v : PyVal) (d : Bytes) (hv : v.data? = some d) :
    Cfb.encrypt s v = Cfb.encrypt s (.bytes d) := by
  unfold Cfb.encrypt; rw [hv]; rfl

theorem Cfb.decrypt_val (s : Fb) (v : PyVal) (d : Bytes) (hv : v.data? = some d) :
    Cfb.decrypt s v = Cfb.decrypt s (.bytes d) := by
  unfold Cfb.decrypt; rw [hv]; rfl

theorem Ofb.encrypt_val (s : Fb) (v : PyVal) (d : Bytes) (hv : v.data? = some d) :
    Ofb.encrypt s v = Ofb.encrypt s (.bytes d) := by
  unfold Ofb.encrypt; rw [hv]; rfl

theorem Ofb.decrypt_val (s : Fb) (v : PyVal) (d : Bytes) (hv : v.data? = some d) :
    Ofb.decrypt s v = Ofb.decrypt s (.bytes d) := by
  rw [Ofb.decrypt_eq s v d hv, Ofb.decrypt_eq s _ d rfl, Ofb.encrypt_val s v d hv]

theorem Ctr.encrypt_val (s : Ctr) (v : PyVal) (d : Bytes) (hv : v.data? = some d) :
    s.encrypt v = s.encrypt (.bytes d) := by
  unfold Ctr.encrypt; rw [hv]; rfl

theorem Ctr.decrypt_val (s : Ctr) (v : PyVal) (d : Bytes) (hv : v.data? = some d) :
    s.decrypt v = s.decrypt (.bytes d) := by
  rw [Ctr.decrypt_eq s v d hv, Ctr.decrypt_eq s _ d rfl, Ctr.encrypt_val s v d hv]

/-- An object with the cipher `o` and a register of whole blocks. -/
def Cbc.Ready (o : CipherObj) (pad : Int) (s : Cbc) : Prop :=
  s.obj = o ∧ s.padMode = pad ∧ ∃ R, GoodReg o.blockSize R ∧ s.iv = R.flatten

theorem Cbc.encrypt_merge (o : CipherObj) (hg : o.Good) (s : Cbc) (hs : Cbc.Ready o padMode1 s)
    (d : Bytes) (hd : d ≠ [] ∧ o.blockSize ∣ d.length) :
    ∃ s' out, s.encrypt (.bytes d) = (s', .ok out) ∧ Cbc.Ready o padMode1 s' ∧
      ∀ e : Bytes, e ≠ [] → s.encrypt (.bytes (d ++ e)) = andThen out (s'.encrypt (.bytes e)) := by
  obtain ⟨rfl, hp, R, hR, hiv⟩ := hs
  have hpos : 0 < s.obj.blockSize := Implements.pos
  have hR' := (regRun_good s.obj.blockSize s.obj.blockSize (cbcG s.obj.E) (cbcG s.obj.E)
    (fun r b hr hb => cbcG_length hg.implements r b hr hb)
    (fun r b hr hb => cbcG_length hg.implements r b hr hb) R (blocks s.obj.blockSize d) hR
    (fun b hb => mem_blocks_length hb)).1
  have h1 := Cbc.encrypt_ok s hg.implements R hR hiv (.bytes d) d rfl
  rw [hp, setPadding_aligned _ d hd.2 hd.1] at h1
  refine ⟨_, _, h1, ⟨rfl, hp, _, hR', rfl⟩, ?_⟩
  intro e he
  have h2 := Cbc.encrypt_ok (s.withReg (mapAccum (regStep (cbcG s.obj.E) (cbcG s.obj.E)) R
    (blocks s.obj.blockSize d)).1) hg.implements _ hR' rfl (.bytes e) e rfl
  rw [h2, Cbc.encrypt_ok s hg.implements R hR hiv _ (d ++ e) rfl]
  simp only [Cbc.withReg, hp, setPadding_append _ d e hd.2 he, blocks_append _ hpos d _ hd.2,
    mapAccum_append, List.flatten_append, andThen]

theorem Cbc.decrypt_merge (o : CipherObj) (hg : o.Good) (pad : Int) (s : Cbc) (hs : Cbc.Ready o pad s)
    (d : Bytes) (hd : o.blockSize ∣ d.length) :
    ∃ s' out, s.decrypt (.bytes d) = (s', .ok out) ∧ Cbc.Ready o pad s' ∧
      ∀ e : Bytes, True → s.decrypt (.bytes (d ++ e)) = andThen out (s'.decrypt (.bytes e)) := by
  obtain ⟨rfl, hp, R, hR, hiv⟩ := hs
  have hpos : 0 < s.obj.blockSize := Implements.pos
  have hR' := (regRun_good s.obj.blockSize s.obj.blockSize (cbcG' s.obj.D) sndB
    (fun _ _ _ hb => hb) (fun r b hr hb => by simp [cbcG', hr, hg.implements.dec_len b hb])
    R (blocks s.obj.blockSize d) hR (fun b hb => mem_blocks_length hb)).1
  refine ⟨_, _, Cbc.decrypt_ok s hg.implements R hR hiv _ d rfl, ⟨rfl, hp, _, hR', rfl⟩, ?_⟩
  intro e _
  have h2 := Cbc.decrypt_ok (s.withReg (mapAccum (regStep (cbcG' s.obj.D) sndB) R
    (blocks s.obj.blockSize d)).1) hg.implements _ hR' rfl (.bytes e) e rfl
  rw [h2, Cbc.decrypt_ok s hg.implements R hR hiv _ (d ++ e) rfl]
  simp only [Cbc.withReg, blocks_append _ hpos d _ hd,
    mapAccum_append, List.flatten_append, andThen]

/-! ### CFB and OFB -/

/-- An object with the cipher `o` and a register of whole blocks. -/
def Fb.Ready (o : CipherObj) (s : Fb) : Prop :=
  s.obj = o ∧ ∃ R, GoodReg o.blockSize R ∧ s.iv = R.flatten

theorem Fb.merge (o : CipherObj) (hg : o.Good) (call : Fb → PyVal → Fb × Res Bytes)
    (h : Bytes → Bytes → Bytes)
    (hlen : ∀ r b, r.length = o.blockSize → b.length = o.blockSize → (h r b).length = o.blockSize)
    (hcall : ∀ s R d, s.obj = o → GoodReg s.obj.blockSize R → s.iv = R.flatten → call s (.bytes d) =
      (s.withReg (mapAccum (regStep (maskG o.E) h) R (blocks o.blockSize d)).1,
       .ok ((mapAccum (regStep (maskG o.E) h) R (blocks o.blockSize d)).2.flatten ++
         maskG o.E ((mapAccum (regStep (maskG o.E) h) R (blocks o.blockSize d)).1.headD [])
           (rest o.blockSize d))))
    (s : Fb) (hs : Fb.Ready o s) (d : Bytes) (hd : o.blockSize ∣ d.length) :
    ∃ s' out, call s (.bytes d) = (s', .ok out) ∧ Fb.Ready o s' ∧
      ∀ e : Bytes, True → call s (.bytes (d ++ e)) = andThen out (call s' (.bytes e)) := by
  obtain ⟨rfl, R, hR, hiv⟩ := hs
  have hpos : 0 < s.obj.blockSize := Implements.pos
  have hR' := (regRun_good s.obj.blockSize s.obj.blockSize (maskG s.obj.E) h hlen
    (fun r b hr hb => by rw [maskG_length hg.implements r b hr (by omega), hb])
    R (blocks s.obj.blockSize d) hR (fun b hb => mem_blocks_length hb)).1
  refine ⟨_, _, hcall s R d rfl hR hiv, ⟨rfl, _, hR', rfl⟩, ?_⟩
  intro e _
  rw [hcall s R (d ++ e) rfl hR hiv, hcall (s.withReg _) _ e rfl hR' rfl]
  simp only [Fb.withReg, blocks_append _ hpos d _ hd, rest_append _ hpos d e hd,
    mapAccum_append, List.flatten_append, andThen, rest_aligned _ d hd, maskG, addXor_nil_right,
    List.append_nil, List.append_assoc]

theorem Cfb.encrypt_merge (o : CipherObj) (hg : o.Good) (s : Fb) (hs : Fb.Ready o s) (d : Bytes)
    (hd : o.blockSize ∣ d.length) :
    ∃ s' out, Cfb.encrypt s (.bytes d) = (s', .ok out) ∧ Fb.Ready o s' ∧
      ∀ e : Bytes, True → Cfb.encrypt s (.bytes (d ++ e)) = andThen out (Cfb.encrypt s' (.bytes e)) := by
  refine Fb.merge o hg Cfb.encrypt (maskG o.E)
    (fun r b hr hb => by rw [maskG_length hg.implements r b hr (by omega), hb]) ?_ s hs d hd
  rintro s R d rfl hR hiv
  exact Cfb.encrypt_ok s hg.implements R hR hiv _ d rfl

theorem Cfb.decrypt_merge (o : CipherObj) (hg : o.Good) (s : Fb) (hs : Fb.Ready o s) (d : Bytes)
    (hd : o.blockSize ∣ d.length) :
    ∃ s' out, Cfb.decrypt s (.bytes d) = (s', .ok out) ∧ Fb.Ready o s' ∧
      ∀ e : Bytes, True → Cfb.decrypt s (.bytes (d ++ e)) = andThen out (Cfb.decrypt s' (.bytes e)) := by
  refine Fb.merge o hg Cfb.decrypt sndB (fun _ _ _ hb => hb) ?_ s hs d hd
  rintro s R d rfl hR hiv
  exact Cfb.decrypt_ok s hg.implements R hR hiv _ d rfl

theorem Ofb.encrypt_merge (o : CipherObj) (hg : o.Good) (s : Fb) (hs : Fb.Ready o s) (d : Bytes)
    (hd : o.blockSize ∣ d.length) :
    ∃ s' out, Ofb.encrypt s (.bytes d) = (s', .ok out) ∧ Fb.Ready o s' ∧
      ∀ e : Bytes, True → Ofb.encrypt s (.bytes (d ++ e)) = andThen out (Ofb.encrypt s' (.bytes e)) := by
  refine Fb.merge o hg Ofb.encrypt (ofbH o.E) (fun r _ hr _ => hg.implements.enc_len r hr) ?_ s hs d hd
  rintro s R d rfl hR hiv
  exact Ofb.encrypt_ok s hg.implements R hR hiv _ d rfl

theorem Ofb.decrypt_merge (o : CipherObj) (hg : o.Good) (s : Fb) (hs : Fb.Ready o s) (d : Bytes)
    (hd : o.blockSize ∣ d.length) :
    ∃ s' out, Ofb.decrypt s (.bytes d) = (s', .ok out) ∧ Fb.Ready o s' ∧
      ∀ e : Bytes, True → Ofb.decrypt s (.bytes (d ++ e)) = andThen out (Ofb.decrypt s' (.bytes e)) := by
  obtain ⟨s', out, h1, h2, h3⟩ := Ofb.encrypt_merge o hg s hs d hd
  exact ⟨s', out, by rw [Ofb.decrypt_eq s _ d rfl, h1], h2, fun e he => by
    rw [Ofb.decrypt_eq s _ (d ++ e) rfl, h3 e he, Ofb.decrypt_eq s' _ e rfl]⟩

/-! ### CTR -/

/-- An object with the cipher `o` and a counter of one block. -/
def Ctr.Ready (o : CipherObj) (s : Ctr) : Prop := s.obj = o ∧ s.counter.length = o.blockSize

theorem allBlocks_append (bs : Nat) (hbs : 0 < bs) (d e : Bytes) (hd : bs ∣ d.length) :
    allBlocks bs (d ++ e) = allBlocks bs d ++ allBlocks bs e := by
  have h1 : (d ++ e).length % bs = e.length % bs := by
    obtain ⟨k, hk⟩ := hd
    rw [List.length_append, hk, Nat.mul_add_mod]
  unfold allBlocks
  rw [blocks_append bs hbs d e hd, rest_append bs hbs d e hd, h1, Nat.mod_eq_zero_of_dvd hd]
  simp

theorem Ctr.encrypt_merge (o : CipherObj) (hg : o.Good) (s : Ctr) (hs : Ctr.Ready o s) (d : Bytes)
    (hd : o.blockSize ∣ d.length) :
    ∃ s' out, s.encrypt (.bytes d) = (s', .ok out) ∧ Ctr.Ready o s' ∧
      ∀ e : Bytes, True → s.encrypt (.bytes (d ++ e)) = andThen out (s'.encrypt (.bytes e)) := by
  obtain ⟨rfl, hc⟩ := hs
  have hpos : 0 < s.obj.blockSize := Implements.pos
  have hc' : (mapAccum (ctrF s.obj.E) s.counter (allBlocks s.obj.blockSize d)).1.length = s.obj.blockSize := by
    rw [(ctrRun_eq s.obj.E s.counter _).1, ctrAt_length, hc]
  refine ⟨_, _, Ctr.encrypt_ok s hg.implements hc _ d rfl, ⟨rfl, hc'⟩, ?_⟩
  intro e _
  rw [Ctr.encrypt_ok s hg.implements hc _ (d ++ e) rfl,
    Ctr.encrypt_ok (s.withCtr (mapAccum (ctrF s.obj.E) s.counter (allBlocks s.obj.blockSize d)).1) hg.implements hc' _ e rfl]
  simp only [Ctr.withCtr, allBlocks_append _ hpos d e hd, mapAccum_append, List.flatten_append, andThen]

theorem Ctr.decrypt_merge (o : CipherObj) (hg : o.Good) (s : Ctr) (hs : Ctr.Ready o s) (d : Bytes)
    (hd : o.blockSize ∣ d.length) :
    ∃ s' out, s.decrypt (.bytes d) = (s', .ok out) ∧ Ctr.Ready o s' ∧
      ∀ e : Bytes, True → s.decrypt (.bytes (d ++ e)) = andThen out (s'.decrypt (.bytes e)) := by
  obtain ⟨s', out, h1, h2, h3⟩ := Ctr.encrypt_merge o hg s hs d hd
  exact ⟨s', out, by rw [Ctr.decrypt_eq s _ d rfl, h1], h2, fun e he => by
    rw [Ctr.decrypt_eq s _ (d ++ e) rfl, h3 e he, Ctr.decrypt_eq s' _ e rfl]⟩

end Gost
