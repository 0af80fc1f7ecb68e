import Verif.Proofs.RoundTrip
import Verif.Spec.Modes
import Verif.Props.Examples

/-! Property C16: CBC, CFB and OFB follow the register equations of GOST R 34.13-2015.

In the statements `n` is the block size, `P` are the blocks of the (padded) plaintext, `C` those
of the ciphertext and `X = IV blocks ‖ feedback` is the sequence of blocks at the output end of
the register, so `X_i` is IV block `i` for `i < m` and feedback block `i - m` afterwards.
`List.zipWith f X P` is `f X_0 P_0, f X_1 P_1, …` for the blocks of `P`, because `X` is longer. -/

namespace Gost
open Spec (Alg blocks rest)

theorem regRun_same (g : Bytes → Bytes → Bytes) (R bl : List Bytes) (hR : R ≠ []) :
    (mapAccum (regStep g g) R bl).2 =
      List.zipWith g (R ++ (mapAccum (regStep g g) R bl).2) bl ∧
    (mapAccum (regStep g g) R bl).1 = (R ++ (mapAccum (regStep g g) R bl).2).drop bl.length := by
  obtain ⟨h1, h2, h3⟩ := regRun_eq g g R bl hR
  have : feeds g g R bl = (mapAccum (regStep g g) R bl).2 := by rw [h1]; exact h2
  rw [this] at h1 h3
  exact ⟨h1, h3⟩

theorem feeds_snd (g : Bytes → Bytes → Bytes) (R bl : List Bytes) :
    feeds g sndB R bl = bl := by
  induction bl generalizing R with
  | nil => rfl
  | cons b bl ih => simp [feeds, sndB, ih]

theorem getLastD_drop (R F : List Bytes) (hR : R ≠ []) :
    ((R ++ F).drop F.length).getLastD [] = (R ++ F).getLastD [] := by
  have h : (R ++ F).drop F.length ≠ [] := by
    intro h
    have := congrArg List.length h
    have h0 : R.length ≠ 0 := fun h => hR (List.length_eq_zero_iff.1 h)
    rw [List.length_drop, List.length_append, List.length_nil] at this
    omega
  simp only [List.getLastD_eq_getLast?]
  rw [List.getLast?_drop]
  split
  · rename_i h'
    have h0 : R.length ≠ 0 := fun h => hR (List.length_eq_zero_iff.1 h)
    rw [List.length_append] at h'
    omega
  · rfl

theorem blocks_flatten_short (n : Nat) (hn : 0 < n) (l : List Bytes) (hl : ∀ b ∈ l, b.length = n)
    (t : Bytes) (ht : t.length < n) :
    blocks n (l.flatten ++ t) = l ∧ rest n (l.flatten ++ t) = t := by
  rw [blocks_flatten_append n hn l hl, rest_flatten_append n hn l hl, blocks_of_lt n t ht,
    rest_of_lt n t ht, List.append_nil]
  exact ⟨rfl, rfl⟩

theorem headD_drop (l : List Bytes) (q : Nat) : (l.drop q).headD [] = l.getD q [] := by
  rw [List.headD_eq_head?_getD, List.head?_drop, List.getD_eq_getElem?_getD]

/-- C16, CBC encryption: `C_i = E(X_i ⊕ P_i)`. -/
theorem C16_cbc_encrypt (a : Alg) (kv ivv : PyVal) (key iv : Bytes) (pad : Int)
    (hk : kv.data? = some key) (hkl : key.length = 32) (hiv : ivv.data? = some iv)
    (hiv0 : 0 < iv.length) (hivl : iv.length % a.blockSize = 0)
    (hpad : pad = padMode1 ∨ pad = padMode2) (v : PyVal) (d : Bytes) (hv : v.data? = some d) :
    ∃ s s' out M, newCipher a.name kv modeCbc (padMode := some pad) (initVect := some ivv) =
        .ok (.cbc s) ∧
      s.encrypt v = (s', .ok out) ∧
      (pad = padMode1 → Spec.ZeroPadded a.blockSize d M) ∧
      (pad = padMode2 → Spec.MarkPadded a.blockSize d M) ∧
      out.length = M.length ∧
      blocks a.blockSize out = List.zipWith (fun x p => a.encrypt key (Spec.xor x p))
        (blocks a.blockSize iv ++ blocks a.blockSize out) (blocks a.blockSize M) ∧
      ivProp a.blockSize s'.iv = (blocks a.blockSize iv ++ blocks a.blockSize out).getLastD [] := by
  obtain ⟨o, D, h1, hg, h3, hI⟩ := new_cbc a kv ivv key iv hk hkl hiv hivl pad hpad none
  have hpos := Alg.blockSize_pos a
  obtain ⟨hR, hRf⟩ := goodReg_blocks hpos hiv0 hivl
  have hR' := hR
  rw [← h3] at hR'
  have he := Cbc.encrypt_ok ⟨o, iv, pad⟩ hI _ hR' (by rw [h3]; exact hRf.symm) v d hv
  simp only [h3] at he
  generalize hM : setPadding a.blockSize d pad = M at he
  have hMd : a.blockSize ∣ M.length := by rw [← hM]; exact setPadding_dvd _ hpos d pad hpad
  generalize hbl : blocks a.blockSize M = bl at he
  have hblen : ∀ b ∈ bl, b.length = a.blockSize := by rw [← hbl]; exact fun b hb => mem_blocks_length hb
  have hcl : ∀ r b : Bytes, r.length = a.blockSize → b.length = a.blockSize →
      (cbcG (a.encrypt key) r b).length = a.blockSize := by
    intro r b hr hb
    rw [← h3] at hr hb ⊢
    exact cbcG_length hI r b hr hb
  obtain ⟨e1, e2⟩ := regRun_same (cbcG (a.encrypt key)) (blocks a.blockSize iv) bl hR.1
  obtain ⟨g1, g2⟩ := regRun_good a.blockSize a.blockSize _ _ hcl hcl _ bl hR hblen
  have hl := mapAccum_length (regStep (cbcG (a.encrypt key)) (cbcG (a.encrypt key)))
    (blocks a.blockSize iv) bl
  have hob := blocks_flatten a.blockSize hpos _ g2
  refine ⟨_, _, _, M, h1, he, ?_, ?_, ?_, ?_, ?_⟩
  · rintro rfl; rw [← hM]; exact zeroPadded_setPadding _ hpos d
  · rintro rfl; rw [← hM]; exact markPadded_setPadding _ hpos d
  · rw [flatten_length_const _ _ g2, hl, ← hbl, blocks_length, Nat.mul_div_cancel' hMd]
  · rw [hob, hbl]; exact e1
  · rw [hob]
    show ivProp a.blockSize (List.flatten _) = _
    rw [g1.ivProp, e2, ← hl, getLastD_drop _ _ hR.1]

/-- C16, CBC decryption of any data: the blocks of the result satisfy `C_i = E(X_i ⊕ P_i)` where
`C` are the whole blocks of the data; what follows them is ignored. -/
theorem C16_cbc_decrypt (a : Alg) (kv ivv : PyVal) (key iv : Bytes) (pad : Int)
    (hk : kv.data? = some key) (hkl : key.length = 32) (hiv : ivv.data? = some iv)
    (hiv0 : 0 < iv.length) (hivl : iv.length % a.blockSize = 0)
    (hpad : pad = padMode1 ∨ pad = padMode2) (v : PyVal) (c : Bytes) (hv : v.data? = some c) :
    ∃ s s' out, newCipher a.name kv modeCbc (padMode := some pad) (initVect := some ivv) =
        .ok (.cbc s) ∧
      s.decrypt v = (s', .ok out) ∧
      out.length = a.blockSize * (c.length / a.blockSize) ∧
      blocks a.blockSize c = List.zipWith (fun x p => a.encrypt key (Spec.xor x p))
        (blocks a.blockSize iv ++ blocks a.blockSize c) (blocks a.blockSize out) ∧
      ivProp a.blockSize s'.iv = (blocks a.blockSize iv ++ blocks a.blockSize c).getLastD [] := by
  obtain ⟨o, D, h1, hg, h3, hI⟩ := new_cbc a kv ivv key iv hk hkl hiv hivl pad hpad none
  have hpos := Alg.blockSize_pos a
  obtain ⟨hR, hRf⟩ := goodReg_blocks hpos hiv0 hivl
  have hR' := hR
  rw [← h3] at hR'
  have he := Cbc.decrypt_ok ⟨o, iv, pad⟩ hI _ hR' (by rw [h3]; exact hRf.symm) v c hv
  simp only [h3] at he
  have hDl : ∀ b : Bytes, b.length = a.blockSize → (D b).length = a.blockSize := by
    intro b hb; rw [← h3] at hb ⊢; exact hI.dec_len b hb
  have hED : ∀ b : Bytes, b.length = a.blockSize → a.encrypt key (D b) = b := by
    intro b hb; rw [← h3] at hb; exact hI.E_D b hb
  have hcl : ∀ r b : Bytes, r.length = a.blockSize → b.length = a.blockSize →
      (cbcG' D r b).length = a.blockSize := by
    intro r b hr hb
    unfold cbcG'
    rw [addXor_length, hr, hDl b hb, Nat.min_self]
  obtain ⟨e1, -, e2⟩ := regRun_eq (cbcG' D) sndB (blocks a.blockSize iv) (blocks a.blockSize c) hR.1
  rw [feeds_snd] at e1 e2
  obtain ⟨g1, g2⟩ := regRun_good a.blockSize a.blockSize (cbcG' D) sndB (fun _ b _ hb => hb) hcl
    _ (blocks a.blockSize c) hR (fun b hb => mem_blocks_length hb)
  have hl := mapAccum_length (regStep (cbcG' D) sndB) (blocks a.blockSize iv) (blocks a.blockSize c)
  have hob := blocks_flatten a.blockSize hpos _ g2
  refine ⟨_, _, _, h1, he, ?_, ?_, ?_⟩
  · rw [flatten_length_const _ _ g2, hl, blocks_length]
  · rw [hob, e1]
    have hX : ∀ x ∈ blocks a.blockSize iv ++ blocks a.blockSize c, x.length = a.blockSize := by
      intro x hx
      rcases List.mem_append.1 hx with hx | hx <;> exact mem_blocks_length hx
    have hXl : (blocks a.blockSize c).length ≤ (blocks a.blockSize iv ++ blocks a.blockSize c).length := by
      rw [List.length_append]; omega
    have hC : ∀ x ∈ blocks a.blockSize c, x.length = a.blockSize := fun x hx => mem_blocks_length hx
    generalize blocks a.blockSize iv ++ blocks a.blockSize c = X at hX hXl ⊢
    generalize blocks a.blockSize c = C at hC hXl ⊢
    induction C generalizing X with
    | nil => simp
    | cons b C ih =>
      cases X with
      | nil => simp at hXl
      | cons x X =>
        simp only [List.zipWith_cons_cons, List.cons.injEq]
        refine ⟨?_, ih X (fun y hy => hX y (by simp [hy])) (fun y hy => hC y (by simp [hy]))
          (by simpa using hXl)⟩
        have hx := hX x (by simp)
        have hb := hC b (by simp)
        show b = a.encrypt key (addXor x (addXor x (D b)))
        rw [addXor_cancel x (D b) (by rw [hDl b hb, hx]; exact Nat.le_refl _), hED b hb]
  · show ivProp a.blockSize (List.flatten _) = _
    rw [g1.ivProp, e2, getLastD_drop _ _ hR.1]

/-- C16, CFB encryption: `C_i = E(X_i) ⊕ P_i`, and the short last block is masked with the
leading bytes of the next keystream block. -/
theorem C16_cfb_encrypt (a : Alg) (kv ivv : PyVal) (key iv : Bytes)
    (hk : kv.data? = some key) (hkl : key.length = 32) (hiv : ivv.data? = some iv)
    (hiv0 : 0 < iv.length) (hivl : iv.length % a.blockSize = 0)
    (v : PyVal) (d : Bytes) (hv : v.data? = some d) :
    ∃ s s' out, newCipher a.name kv modeCfb (initVect := some ivv) = .ok (.cfb s) ∧
      Cfb.encrypt s v = (s', .ok out) ∧
      out.length = d.length ∧
      blocks a.blockSize out = List.zipWith (fun x p => Spec.xor (a.encrypt key x) p)
        (blocks a.blockSize iv ++ blocks a.blockSize out) (blocks a.blockSize d) ∧
      rest a.blockSize out = Spec.xor (a.encrypt key ((blocks a.blockSize iv ++ blocks a.blockSize out).getD
        (d.length / a.blockSize) [])) (rest a.blockSize d) ∧
      ivProp a.blockSize s'.iv = (blocks a.blockSize iv ++ blocks a.blockSize out).getLastD [] := by
  obtain ⟨o, D, h1, hg, h3, hI⟩ := new_cfb a kv ivv key iv hk hkl hiv hivl none none
  have hpos := Alg.blockSize_pos a
  obtain ⟨hR, hRf⟩ := goodReg_blocks hpos hiv0 hivl
  have hR' := hR
  rw [← h3] at hR'
  have he := Cfb.encrypt_ok ⟨o, iv⟩ hI _ hR' (by rw [h3]; exact hRf.symm) v d hv
  simp only [h3] at he
  have hcl : ∀ r b : Bytes, r.length = a.blockSize → b.length = a.blockSize →
      (maskG (a.encrypt key) r b).length = a.blockSize := by
    intro r b hr hb
    rw [← h3] at hr hb ⊢
    rw [maskG_length hI r b hr (by omega), hb]
  obtain ⟨e1, e2⟩ := regRun_same (maskG (a.encrypt key)) (blocks a.blockSize iv) (blocks a.blockSize d) hR.1
  obtain ⟨g1, g2⟩ := regRun_good a.blockSize a.blockSize _ _ hcl hcl _ (blocks a.blockSize d) hR
    (fun b hb => mem_blocks_length hb)
  have hl := mapAccum_length (regStep (maskG (a.encrypt key)) (maskG (a.encrypt key)))
    (blocks a.blockSize iv) (blocks a.blockSize d)
  have htl : (maskG (a.encrypt key) ((mapAccum (regStep (maskG (a.encrypt key)) (maskG (a.encrypt key)))
      (blocks a.blockSize iv) (blocks a.blockSize d)).1.headD []) (rest a.blockSize d)).length =
      d.length % a.blockSize := by
    rw [maskG_length hI _ _ (g1.head.trans h3.symm)
      (by rw [rest_length, h3]; exact Nat.le_of_lt (Nat.mod_lt _ hpos)), rest_length]
  have hlt : d.length % a.blockSize < a.blockSize := Nat.mod_lt _ hpos
  obtain ⟨hob, hrb⟩ := blocks_flatten_short a.blockSize hpos _ g2 _ (Nat.lt_of_le_of_lt (Nat.le_of_eq htl) hlt)
  refine ⟨_, _, _, h1, he, ?_, ?_, ?_, ?_⟩
  · rw [List.length_append, htl, flatten_length_const _ _ g2, hl, blocks_length, Nat.div_add_mod]
  · rw [hob]; exact e1
  · rw [hob, hrb, e2, headD_drop, blocks_length]; rfl
  · rw [hob]
    show ivProp a.blockSize (List.flatten _) = _
    rw [g1.ivProp, e2, ← hl, getLastD_drop _ _ hR.1]

/-- C16, CFB decryption: `P_i = E(X_i) ⊕ C_i` where the register is fed with the ciphertext. -/
theorem C16_cfb_decrypt (a : Alg) (kv ivv : PyVal) (key iv : Bytes)
    (hk : kv.data? = some key) (hkl : key.length = 32) (hiv : ivv.data? = some iv)
    (hiv0 : 0 < iv.length) (hivl : iv.length % a.blockSize = 0)
    (v : PyVal) (c : Bytes) (hv : v.data? = some c) :
    ∃ s s' out, newCipher a.name kv modeCfb (initVect := some ivv) = .ok (.cfb s) ∧
      Cfb.decrypt s v = (s', .ok out) ∧
      out.length = c.length ∧
      blocks a.blockSize out = List.zipWith (fun x p => Spec.xor (a.encrypt key x) p)
        (blocks a.blockSize iv ++ blocks a.blockSize c) (blocks a.blockSize c) ∧
      rest a.blockSize out = Spec.xor (a.encrypt key ((blocks a.blockSize iv ++ blocks a.blockSize c).getD
        (c.length / a.blockSize) [])) (rest a.blockSize c) ∧
      ivProp a.blockSize s'.iv = (blocks a.blockSize iv ++ blocks a.blockSize c).getLastD [] := by
  obtain ⟨o, D, h1, hg, h3, hI⟩ := new_cfb a kv ivv key iv hk hkl hiv hivl none none
  have hpos := Alg.blockSize_pos a
  obtain ⟨hR, hRf⟩ := goodReg_blocks hpos hiv0 hivl
  have hR' := hR
  rw [← h3] at hR'
  have he := Cfb.decrypt_ok ⟨o, iv⟩ hI _ hR' (by rw [h3]; exact hRf.symm) v c hv
  simp only [h3] at he
  have hcl : ∀ r b : Bytes, r.length = a.blockSize → b.length = a.blockSize →
      (maskG (a.encrypt key) r b).length = a.blockSize := by
    intro r b hr hb
    rw [← h3] at hr hb ⊢
    rw [maskG_length hI r b hr (by omega), hb]
  obtain ⟨e1, -, e2⟩ := regRun_eq (maskG (a.encrypt key)) sndB (blocks a.blockSize iv)
    (blocks a.blockSize c) hR.1
  rw [feeds_snd] at e1 e2
  obtain ⟨g1, g2⟩ := regRun_good a.blockSize a.blockSize _ sndB (fun _ b _ hb => hb) hcl _
    (blocks a.blockSize c) hR (fun b hb => mem_blocks_length hb)
  have hl := mapAccum_length (regStep (maskG (a.encrypt key)) sndB)
    (blocks a.blockSize iv) (blocks a.blockSize c)
  have htl : (maskG (a.encrypt key) ((mapAccum (regStep (maskG (a.encrypt key)) sndB)
      (blocks a.blockSize iv) (blocks a.blockSize c)).1.headD []) (rest a.blockSize c)).length =
      c.length % a.blockSize := by
    rw [maskG_length hI _ _ (g1.head.trans h3.symm)
      (by rw [rest_length, h3]; exact Nat.le_of_lt (Nat.mod_lt _ hpos)), rest_length]
  have hlt : c.length % a.blockSize < a.blockSize := Nat.mod_lt _ hpos
  obtain ⟨hob, hrb⟩ := blocks_flatten_short a.blockSize hpos _ g2 _ (Nat.lt_of_le_of_lt (Nat.le_of_eq htl) hlt)
  refine ⟨_, _, _, h1, he, ?_, ?_, ?_, ?_⟩
  · rw [List.length_append, htl, flatten_length_const _ _ g2, hl, blocks_length, Nat.div_add_mod]
  · rw [hob]; exact e1
  · rw [hrb, e2, headD_drop, blocks_length]; rfl
  · show ivProp a.blockSize (List.flatten _) = _
    rw [g1.ivProp, e2, getLastD_drop _ _ hR.1]

/-- C16, OFB: there is a keystream `Y_i = E(X_i)`, `X = IV blocks ‖ Y`, with `C_i = P_i ⊕ Y_i`; the
short last block is masked with the leading bytes of the next keystream block. Decryption is the
same operation. -/
theorem C16_ofb (a : Alg) (kv ivv : PyVal) (key iv : Bytes)
    (hk : kv.data? = some key) (hkl : key.length = 32) (hiv : ivv.data? = some iv)
    (hiv0 : 0 < iv.length) (hivl : iv.length % a.blockSize = 0)
    (v : PyVal) (d : Bytes) (hv : v.data? = some d) :
    ∃ s s' out Y, newCipher a.name kv modeOfb (initVect := some ivv) = .ok (.ofb s) ∧
      Ofb.encrypt s v = (s', .ok out) ∧ Ofb.decrypt s v = (s', .ok out) ∧
      Y.length = d.length / a.blockSize ∧
      Y = ((blocks a.blockSize iv ++ Y).take (d.length / a.blockSize)).map (a.encrypt key) ∧
      out.length = d.length ∧
      blocks a.blockSize out = List.zipWith Spec.xor Y (blocks a.blockSize d) ∧
      rest a.blockSize out = Spec.xor (a.encrypt key ((blocks a.blockSize iv ++ Y).getD
        (d.length / a.blockSize) [])) (rest a.blockSize d) ∧
      ivProp a.blockSize s'.iv = (blocks a.blockSize iv ++ Y).getLastD [] := by
  obtain ⟨o, D, h1, hg, h3, hI⟩ := new_ofb a kv ivv key iv hk hkl hiv hivl none none
  have hpos := Alg.blockSize_pos a
  obtain ⟨hR, hRf⟩ := goodReg_blocks hpos hiv0 hivl
  have hR' := hR
  rw [← h3] at hR'
  have he := Ofb.encrypt_ok ⟨o, iv⟩ hI _ hR' (by rw [h3]; exact hRf.symm) v d hv
  simp only [h3] at he
  have hel : ∀ r b : Bytes, r.length = a.blockSize → b.length = a.blockSize →
      (ofbH (a.encrypt key) r b).length = a.blockSize := by
    intro r b hr hb
    rw [← h3] at hr ⊢
    exact hI.enc_len r hr
  have hcl : ∀ r b : Bytes, r.length = a.blockSize → b.length = a.blockSize →
      (maskG (a.encrypt key) r b).length = a.blockSize := by
    intro r b hr hb
    rw [← h3] at hr hb ⊢
    rw [maskG_length hI r b hr (by omega), hb]
  obtain ⟨e1, e3, e2⟩ := regRun_eq (maskG (a.encrypt key)) (ofbH (a.encrypt key)) (blocks a.blockSize iv)
    (blocks a.blockSize d) hR.1
  have hfl := feeds_length (maskG (a.encrypt key)) (ofbH (a.encrypt key)) (blocks a.blockSize iv)
    (blocks a.blockSize d)
  obtain ⟨g1, g2⟩ := regRun_good a.blockSize a.blockSize _ _ hel hcl _
    (blocks a.blockSize d) hR (fun b hb => mem_blocks_length hb)
  have hl := mapAccum_length (regStep (maskG (a.encrypt key)) (ofbH (a.encrypt key)))
    (blocks a.blockSize iv) (blocks a.blockSize d)
  have htl : (maskG (a.encrypt key) ((mapAccum (regStep (maskG (a.encrypt key)) (ofbH (a.encrypt key)))
      (blocks a.blockSize iv) (blocks a.blockSize d)).1.headD []) (rest a.blockSize d)).length =
      d.length % a.blockSize := by
    rw [maskG_length hI _ _ (g1.head.trans h3.symm)
      (by rw [rest_length, h3]; exact Nat.le_of_lt (Nat.mod_lt _ hpos)), rest_length]
  have hlt : d.length % a.blockSize < a.blockSize := Nat.mod_lt _ hpos
  obtain ⟨hob, hrb⟩ := blocks_flatten_short a.blockSize hpos _ g2 _ (Nat.lt_of_le_of_lt (Nat.le_of_eq htl) hlt)
  have hgen : ∀ (X B : List Bytes), B.length ≤ X.length →
      List.zipWith (ofbH (a.encrypt key)) X B = (X.take B.length).map (a.encrypt key) ∧
      List.zipWith (maskG (a.encrypt key)) X B =
        List.zipWith Spec.xor (List.zipWith (ofbH (a.encrypt key)) X B) B := by
    intro X B
    induction B generalizing X with
    | nil => simp
    | cons b B ih =>
      intro h
      cases X with
      | nil => simp at h
      | cons x X =>
        obtain ⟨i1, i2⟩ := ih X (by simpa using h)
        constructor
        · simp only [List.zipWith_cons_cons, List.length_cons, List.take_succ_cons, List.map_cons,
            i1]
          rfl
        · simp only [List.zipWith_cons_cons, ← i2]
          rfl
  obtain ⟨k1, k2⟩ := hgen (blocks a.blockSize iv ++ feeds (maskG (a.encrypt key)) (ofbH (a.encrypt key))
    (blocks a.blockSize iv) (blocks a.blockSize d)) (blocks a.blockSize d)
    (by rw [List.length_append, hfl]; omega)
  refine ⟨_, _, _, feeds (maskG (a.encrypt key)) (ofbH (a.encrypt key)) (blocks a.blockSize iv)
    (blocks a.blockSize d), h1, he, ?_, ?_, ?_, ?_, ?_, ?_, ?_⟩
  · rw [Ofb.decrypt_eq _ v d hv]; exact he
  · rw [hfl, blocks_length]
  · rw [← blocks_length, ← k1]; exact e3
  · rw [List.length_append, htl, flatten_length_const _ _ g2, hl, blocks_length, Nat.div_add_mod]
  · rw [hob, e1, k2, ← e3]
  · rw [hrb, e2, headD_drop, blocks_length]; rfl
  · show ivProp a.blockSize (List.flatten _) = _
    rw [g1.ivProp, e2, ← hfl, getLastD_drop _ _ hR.1]

/-- Arguments as in the theorems: an IV of two blocks of Magma and a message of two and a half
blocks. -/
example : 0 < (Ex.count 9 16).length ∧ (Ex.count 9 16).length % Alg.magma.blockSize = 0 ∧
    (blocks Alg.magma.blockSize (Ex.count 9 16)).length = 2 ∧
    (rest Alg.magma.blockSize (Ex.count 1 20)).length = 4 := by decide

end Gost
