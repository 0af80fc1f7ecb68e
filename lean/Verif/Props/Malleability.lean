import Verif.Proofs.KeyStream
import Verif.Props.RegisterEq

/-! Properties C51 to C54: the keystream of OFB and CTR does not depend on the data, decryption
in CBC and CFB is local and recovers from a wrong initialisation vector, every ciphertext is
reached, ECB works block by block. -/

namespace Gost
open Spec (Alg blocks rest)

/-! ### C51 -/

/-- C51, OFB. In every state which `new` and any calls can produce (with a nonempty register) there
is a keystream which does not depend on what is processed; a call adds its beginning to the data,
and the state afterwards depends on nothing but the length. -/
theorem C51_ofb_keystream (s : Fb) (hs : Ofb.Reachable s) (hiv : s.iv ≠ []) :
    ∃ (g : Nat → UInt8) (next : Nat → Fb), ∀ (v : PyVal) (d : Bytes), v.data? = some d →
      Ofb.encrypt s v = (next d.length, .ok (Spec.xor d ((List.range d.length).map g))) ∧
      Ofb.decrypt s v = (next d.length, .ok (Spec.xor d ((List.range d.length).map g))) := by
  obtain ⟨hg, hr⟩ := hs.inv
  obtain ⟨R, hR, he⟩ := hr.reg hiv
  refine ⟨gammaByte s.obj.blockSize fun i => s.obj.E ((ofbReg s.obj.E R i).headD []),
    fun n => s.withReg (ofbReg s.obj.E R (n / s.obj.blockSize)), fun v d hv => ?_⟩
  have h := Ofb.encrypt_stream s hg.implements R hR he v d hv
  rw [Ofb.decrypt_eq s v d hv]
  exact ⟨h, h⟩

/-- C51, CTR. -/
theorem C51_ctr_keystream (s : Ctr) (hs : Ctr.Reachable s) :
    ∃ (g : Nat → UInt8) (next : Nat → Ctr), ∀ (v : PyVal) (d : Bytes), v.data? = some d →
      s.encrypt v = (next d.length, .ok (Spec.xor d ((List.range d.length).map g))) ∧
      s.decrypt v = (next d.length, .ok (Spec.xor d ((List.range d.length).map g))) := by
  obtain ⟨hg, hc⟩ := hs.inv
  refine ⟨gammaByte s.obj.blockSize fun i => s.obj.E (ctrAt s.counter i),
    fun n => s.withCtr (ctrAt s.counter ((n + s.obj.blockSize - 1) / s.obj.blockSize)),
    fun v d hv => ?_⟩
  have h := Ctr.encrypt_gamma s hg.implements hc v d hv
  rw [Ctr.decrypt_eq s v d hv]
  exact ⟨h, h⟩

theorem xor_xor_stream (d δ k : Bytes) : Spec.xor (Spec.xor d δ) k = Spec.xor (Spec.xor d k) δ := by
  show addXor (addXor d δ) k = addXor (addXor d k) δ
  rw [addXor_assoc, addXor_assoc, addXor_comm δ k]

/-- C51, consequence: changing bits of the ciphertext (or plaintext) changes the same bits of the
result and nothing else, also of later calls, because the state is the same. -/
theorem C51_bit_flip :
    (∀ s : Fb, Ofb.Reachable s → s.iv ≠ [] → ∀ (v w : PyVal) (d δ : Bytes), v.data? = some d →
      δ.length = d.length → w.data? = some (Spec.xor d δ) →
      ∃ s' out, Ofb.encrypt s v = (s', .ok out) ∧ Ofb.encrypt s w = (s', .ok (Spec.xor out δ)) ∧
        Ofb.decrypt s v = (s', .ok out) ∧ Ofb.decrypt s w = (s', .ok (Spec.xor out δ))) ∧
    (∀ s : Ctr, Ctr.Reachable s → ∀ (v w : PyVal) (d δ : Bytes), v.data? = some d →
      δ.length = d.length → w.data? = some (Spec.xor d δ) →
      ∃ s' out, s.encrypt v = (s', .ok out) ∧ s.encrypt w = (s', .ok (Spec.xor out δ)) ∧
        s.decrypt v = (s', .ok out) ∧ s.decrypt w = (s', .ok (Spec.xor out δ))) := by
  constructor
  · intro s hs hiv v w d δ hv hδ hw
    obtain ⟨g, next, h⟩ := C51_ofb_keystream s hs hiv
    have hl : (Spec.xor d δ).length = d.length := by
      show (addXor d δ).length = _
      rw [addXor_length, hδ, Nat.min_self]
    obtain ⟨h1, h2⟩ := h v d hv
    obtain ⟨h3, h4⟩ := h w _ hw
    rw [hl, xor_xor_stream] at h3 h4
    exact ⟨_, _, h1, h3, h2, h4⟩
  · intro s hs v w d δ hv hδ hw
    obtain ⟨g, next, h⟩ := C51_ctr_keystream s hs
    have hl : (Spec.xor d δ).length = d.length := by
      show (addXor d δ).length = _
      rw [addXor_length, hδ, Nat.min_self]
    obtain ⟨h1, h2⟩ := h v d hv
    obtain ⟨h3, h4⟩ := h w _ hw
    rw [hl, xor_xor_stream] at h3 h4
    exact ⟨_, _, h1, h3, h2, h4⟩

/-- A case for C51: an OFB object with a register of two blocks after a call. -/
example : ∃ s, Ofb.Reachable s ∧ s.iv ≠ [] := by
  obtain ⟨o, D, h1, hg, h3, hI⟩ := new_ofb .magma (.bytes Ex.key) (.bytes (Ex.count 9 16)) _ _ rfl
    (by decide) rfl (by decide) none none
  obtain ⟨hR, hRf⟩ := goodReg_blocks (Alg.blockSize_pos .magma)
    (show 0 < (Ex.count 9 16).length by decide) (by decide)
  rw [← h3] at hR
  have h := Ofb.encrypt_ok ⟨o, Ex.count 9 16⟩ hI _ hR (by rw [h3]; exact hRf.symm)
    (.bytes (Ex.count 1 13)) _ rfl
  have hgd := (regRun_good o.blockSize o.blockSize (maskG (Alg.magma.encrypt Ex.key))
    (ofbH (Alg.magma.encrypt Ex.key)) (fun r b hr _ => hI.enc_len r hr)
    (fun r b hr hb => by rw [maskG_length hI r b hr (by omega), hb]) _
    (blocks o.blockSize (Ex.count 1 13)) hR (fun b hb => mem_blocks_length hb)).1
  refine ⟨_, .encrypt (.bytes (Ex.count 1 13)) (.new h1), ?_⟩
  rw [h]
  exact hgd.flatten_ne Implements.pos

/-! ### C52 -/

/-- Two lists of `n` bytes and of the same length whose sums with a third pair agree. -/
theorem getElem?_zipWith_some {α β γ : Type} (f : α → β → γ) (X : List α) (Y : List β) (i : Nat)
    (x : α) (y : β) (hx : X[i]? = some x) (hy : Y[i]? = some y) :
    (List.zipWith f X Y)[i]? = some (f x y) := by
  rw [List.getElem?_zipWith, hx, hy]

theorem getElem?_blocks (n : Nat) (d : Bytes) (i : Nat) (h : i < d.length / n) :
    ∃ b, (blocks n d)[i]? = some b ∧ b.length = n := by
  have h' : i < (blocks n d).length := by rw [blocks_length]; exact h
  exact ⟨_, List.getElem?_eq_getElem h', mem_blocks_length (List.getElem_mem h')⟩

/-- C52, CBC. Two decryptions under one key with initialisation vectors of one length and data of
one length. If the ciphertext blocks number `i` are the same, the plaintext blocks number `i`
differ exactly in the bits in which the register blocks differ, which are the blocks of the
initialisation vector for `i < m` and ciphertext blocks `i - m` afterwards. -/
theorem C52_cbc_local (a : Alg) (kv ivv ivw : PyVal) (key iv iv' : Bytes) (pad : Int)
    (hk : kv.data? = some key) (hkl : key.length = 32) (hiv : ivv.data? = some iv)
    (hiv' : ivw.data? = some iv') (hivs : iv'.length = iv.length)
    (hiv0 : 0 < iv.length) (hivl : iv.length % a.blockSize = 0)
    (hpad : pad = padMode1 ∨ pad = padMode2) (v w : PyVal) (c c' : Bytes) (hv : v.data? = some c)
    (hw : w.data? = some c') (hcs : c'.length = c.length) :
    ∃ s t s' t' out out',
      newCipher a.name kv modeCbc (padMode := some pad) (initVect := some ivv) = .ok (.cbc s) ∧
      newCipher a.name kv modeCbc (padMode := some pad) (initVect := some ivw) = .ok (.cbc t) ∧
      s.decrypt v = (s', .ok out) ∧ t.decrypt w = (t', .ok out') ∧
      out.length = a.blockSize * (c.length / a.blockSize) ∧ out'.length = out.length ∧
      ∀ i < c.length / a.blockSize, (blocks a.blockSize c)[i]? = (blocks a.blockSize c')[i]? →
        ∃ p p' x x', (blocks a.blockSize out)[i]? = some p ∧
          (blocks a.blockSize out')[i]? = some p' ∧
          (blocks a.blockSize iv ++ blocks a.blockSize c)[i]? = some x ∧
          (blocks a.blockSize iv' ++ blocks a.blockSize c')[i]? = some x' ∧
          Spec.xor p p' = Spec.xor x x' := by
  obtain ⟨s, s', out, h1, h2, h3, h4, -⟩ := C16_cbc_decrypt a kv ivv key iv pad hk hkl hiv hiv0 hivl
    hpad v c hv
  obtain ⟨t, t', out', k1, k2, k3, k4, -⟩ := C16_cbc_decrypt a kv ivw key iv' pad hk hkl hiv'
    (by omega) (by rw [hivs]; exact hivl) hpad w c' hw
  refine ⟨s, t, s', t', out, out', h1, k1, h2, k2, h3, by rw [k3, h3, hcs], ?_⟩
  intro i hi hcc
  have hpos := Alg.blockSize_pos a
  obtain ⟨cb, hcb, hcbl⟩ := getElem?_blocks a.blockSize c i hi
  obtain ⟨p, hp, hpl⟩ := getElem?_blocks a.blockSize out i (by
    rw [h3, Nat.mul_div_cancel_left _ hpos]; exact hi)
  obtain ⟨p', hp', hpl'⟩ := getElem?_blocks a.blockSize out' i (by
    rw [k3, Nat.mul_div_cancel_left _ hpos, hcs]; exact hi)
  have hreg : ∀ (iv c : Bytes), i < c.length / a.blockSize →
      ∃ x, (blocks a.blockSize iv ++ blocks a.blockSize c)[i]? = some x ∧ x.length = a.blockSize := by
    intro iv c hi
    have h' : i < (blocks a.blockSize iv ++ blocks a.blockSize c).length := by
      rw [List.length_append, blocks_length, blocks_length]
      exact Nat.lt_of_lt_of_le hi (Nat.le_add_left _ _)
    refine ⟨_, List.getElem?_eq_getElem h', ?_⟩
    rcases List.mem_append.1 (List.getElem_mem h') with h | h <;> exact mem_blocks_length h
  obtain ⟨x, hx, hxl⟩ := hreg iv c hi
  obtain ⟨x', hx', hxl'⟩ := hreg iv' c' (by rw [hcs]; exact hi)
  refine ⟨p, p', x, x', hp, hp', hx, hx', ?_⟩
  have e1 := getElem?_zipWith_some (fun x p => a.encrypt key (Spec.xor x p)) _ _ i x p hx hp
  have e2 := getElem?_zipWith_some (fun x p => a.encrypt key (Spec.xor x p)) _ _ i x' p' hx' hp'
  rw [← h4] at e1
  rw [← k4, ← hcc] at e2
  have he : a.encrypt key (Spec.xor x p) = a.encrypt key (Spec.xor x' p') :=
    Option.some.inj (e1.symm.trans e2)
  obtain ⟨o, D, -, -, h3', hI⟩ := new_cbc a kv ivv key iv hk hkl hiv hivl pad hpad none
  have hl : ∀ x p : Bytes, x.length = a.blockSize → p.length = a.blockSize →
      (Spec.xor x p).length = o.blockSize := by
    intro x p hx hp
    show (addXor x p).length = _
    rw [addXor_length, hx, hp, Nat.min_self, h3']
  have hxx : addXor x p = addXor x' p' := hI.E_inj _ _ (hl _ _ hxl hpl) (hl _ _ hxl' hpl') he
  show addXor p p' = addXor x x'
  have e3 : p = addXor x (addXor x' p') := by
    rw [← hxx, addXor_cancel x p (by omega)]
  rw [e3, addXor_assoc x, addXor_comm _ p', addXor_comm x' p', addXor_cancel p' x' (by omega)]

/-- C52, CFB. If the register blocks are the same, the plaintext blocks differ exactly in the bits
in which the ciphertext blocks differ; likewise for the short last block. -/
theorem C52_cfb_local (a : Alg) (kv ivv ivw : PyVal) (key iv iv' : Bytes)
    (hk : kv.data? = some key) (hkl : key.length = 32) (hiv : ivv.data? = some iv)
    (hiv' : ivw.data? = some iv') (hivs : iv'.length = iv.length)
    (hiv0 : 0 < iv.length) (hivl : iv.length % a.blockSize = 0)
    (v w : PyVal) (c c' : Bytes) (hv : v.data? = some c)
    (hw : w.data? = some c') (hcs : c'.length = c.length) :
    ∃ s t s' t' out out',
      newCipher a.name kv modeCfb (initVect := some ivv) = .ok (.cfb s) ∧
      newCipher a.name kv modeCfb (initVect := some ivw) = .ok (.cfb t) ∧
      Cfb.decrypt s v = (s', .ok out) ∧ Cfb.decrypt t w = (t', .ok out') ∧
      out.length = c.length ∧ out'.length = c.length ∧
      (∀ i < c.length / a.blockSize,
        (blocks a.blockSize iv ++ blocks a.blockSize c)[i]? =
          (blocks a.blockSize iv' ++ blocks a.blockSize c')[i]? →
        ∃ p p' b b', (blocks a.blockSize out)[i]? = some p ∧
          (blocks a.blockSize out')[i]? = some p' ∧
          (blocks a.blockSize c)[i]? = some b ∧ (blocks a.blockSize c')[i]? = some b' ∧
          Spec.xor p p' = Spec.xor b b') ∧
      ((blocks a.blockSize iv ++ blocks a.blockSize c)[c.length / a.blockSize]? =
          (blocks a.blockSize iv' ++ blocks a.blockSize c')[c.length / a.blockSize]? →
        Spec.xor (rest a.blockSize out) (rest a.blockSize out') =
          Spec.xor (rest a.blockSize c) (rest a.blockSize c')) := by
  obtain ⟨s, s', out, h1, h2, h3, h4, h5, -⟩ := C16_cfb_decrypt a kv ivv key iv hk hkl hiv hiv0 hivl
    v c hv
  obtain ⟨t, t', out', k1, k2, k3, k4, k5, -⟩ := C16_cfb_decrypt a kv ivw key iv' hk hkl hiv'
    (by omega) (by rw [hivs]; exact hivl) w c' hw
  have hpos := Alg.blockSize_pos a
  obtain ⟨o, D, -, -, h3', hI⟩ := new_cfb a kv ivv key iv hk hkl hiv hivl none none
  have hreg : ∀ (i : Nat) (iv c : Bytes), 0 < iv.length → iv.length % a.blockSize = 0 →
      i ≤ c.length / a.blockSize →
      ∃ x, (blocks a.blockSize iv ++ blocks a.blockSize c)[i]? = some x ∧ x.length = a.blockSize := by
    intro i iv c h0 hm hi
    have h' : i < (blocks a.blockSize iv ++ blocks a.blockSize c).length := by
      rw [List.length_append, blocks_length, blocks_length]
      have : 0 < iv.length / a.blockSize := Nat.div_pos
        (Nat.le_of_dvd h0 (Nat.dvd_of_mod_eq_zero hm)) hpos
      omega
    refine ⟨_, List.getElem?_eq_getElem h', ?_⟩
    rcases List.mem_append.1 (List.getElem_mem h') with h | h <;> exact mem_blocks_length h
  have hEl : ∀ x : Bytes, x.length = a.blockSize → (a.encrypt key x).length = a.blockSize := by
    intro x hx; rw [← h3'] at hx ⊢; exact hI.enc_len x hx
  have hxor : ∀ e b b' : Bytes, b.length ≤ e.length → b'.length ≤ e.length →
      Spec.xor (Spec.xor e b) (Spec.xor e b') = Spec.xor b b' := by
    intro e b b' hb hb'
    show addXor (addXor e b) (addXor e b') = addXor b b'
    rw [addXor_comm e b, addXor_assoc, addXor_cancel e b' hb']
  refine ⟨s, t, s', t', out, out', h1, k1, h2, k2, h3, by rw [k3, hcs], ?_, ?_⟩
  · intro i hi hcc
    obtain ⟨b, hb, hbl⟩ := getElem?_blocks a.blockSize c i hi
    obtain ⟨b', hb', hbl'⟩ := getElem?_blocks a.blockSize c' i (by rw [hcs]; exact hi)
    obtain ⟨x, hx, hxl⟩ := hreg i iv c hiv0 hivl (by omega)
    have e1 := getElem?_zipWith_some (fun x p => Spec.xor (a.encrypt key x) p) _ _ i x b hx hb
    have e2 := getElem?_zipWith_some (fun x p => Spec.xor (a.encrypt key x) p) _ _ i x b'
      (hcc.symm.trans hx) hb'
    rw [← h4] at e1
    rw [← k4] at e2
    exact ⟨_, _, b, b', e1, e2, hb, hb', hxor _ _ _ (by rw [hEl x hxl]; omega)
      (by rw [hEl x hxl]; omega)⟩
  · intro hcc
    obtain ⟨x, hx, hxl⟩ := hreg _ iv c hiv0 hivl (Nat.le_refl _)
    have hlt := Nat.mod_lt c.length hpos
    rw [h5, k5, hcs, List.getD_eq_getElem?_getD, List.getD_eq_getElem?_getD, ← hcc, hx]
    exact hxor _ _ _ (by rw [rest_length, Option.getD_some, hEl x hxl]; omega)
      (by rw [rest_length, hcs, Option.getD_some, hEl x hxl]; omega)

theorem drop_of_blocks (n : Nat) (hn : 0 < n) (L : Nat) (hL : L % n = 0) (o o' : Bytes)
    (hl : o'.length = o.length)
    (hb : ∀ i, L / n ≤ i → i < o.length / n → (blocks n o)[i]? = (blocks n o')[i]?)
    (hr : L / n ≤ o.length / n → rest n o = rest n o') : o.drop L = o'.drop L := by
  have hLm : n * (L / n) = L := by
    have := Nat.div_add_mod L n
    omega
  by_cases h : L / n ≤ o.length / n
  · have key : ∀ o : Bytes, L / n ≤ o.length / n →
        o.drop L = ((blocks n o).drop (L / n)).flatten ++ rest n o := by
      intro o h
      conv => lhs; rw [← flatten_blocks_rest n hn o, ← List.take_append_drop (L / n) (blocks n o)]
      rw [List.flatten_append, List.append_assoc, List.drop_left']
      rw [flatten_length_const n _ (fun b hb => mem_blocks_length (List.mem_of_mem_take hb)),
        List.length_take, blocks_length, Nat.min_eq_left h, hLm]
    rw [key o h, key o' (by rw [hl]; exact h), hr h]
    congr 2
    apply List.ext_getElem?
    intro i
    rw [List.getElem?_drop, List.getElem?_drop]
    by_cases hi : L / n + i < o.length / n
    · exact hb _ (Nat.le_add_right _ _) hi
    · rw [List.getElem?_eq_none (by rw [blocks_length]; omega),
        List.getElem?_eq_none (by rw [blocks_length, hl]; omega)]
  · have hlt : o.length ≤ L := by
      have h1 := Nat.div_add_mod o.length n
      have h2 := Nat.mod_lt o.length hn
      have h3 : n * (o.length / n + 1) ≤ n * (L / n) := Nat.mul_le_mul_left n (by omega)
      rw [Nat.mul_succ] at h3
      omega
    rw [List.drop_eq_nil_of_le hlt, List.drop_eq_nil_of_le (by rw [hl]; exact hlt)]

theorem reg_same (n : Nat) (iv iv' c : Bytes) (hivs : iv'.length = iv.length) (i : Nat)
    (hi : iv.length / n ≤ i) :
    (blocks n iv ++ blocks n c)[i]? = (blocks n iv' ++ blocks n c)[i]? := by
  rw [List.getElem?_append_right (by rw [blocks_length]; exact hi),
    List.getElem?_append_right (by rw [blocks_length, hivs]; exact hi), blocks_length, blocks_length,
    hivs]

/-- C52, recovery from a wrong initialisation vector: in CBC and CFB two decryptions of the same
ciphertext with vectors of the same length give the same bytes after as many bytes as the vector
has. -/
theorem C52_wrong_iv (a : Alg) (kv ivv ivw : PyVal) (key iv iv' : Bytes) (pad : Int)
    (hk : kv.data? = some key) (hkl : key.length = 32) (hiv : ivv.data? = some iv)
    (hiv' : ivw.data? = some iv') (hivs : iv'.length = iv.length)
    (hiv0 : 0 < iv.length) (hivl : iv.length % a.blockSize = 0)
    (hpad : pad = padMode1 ∨ pad = padMode2) (v : PyVal) (c : Bytes) (hv : v.data? = some c) :
    (∃ s t s' t' out out',
      newCipher a.name kv modeCbc (padMode := some pad) (initVect := some ivv) = .ok (.cbc s) ∧
      newCipher a.name kv modeCbc (padMode := some pad) (initVect := some ivw) = .ok (.cbc t) ∧
      s.decrypt v = (s', .ok out) ∧ t.decrypt v = (t', .ok out') ∧
      out.length = a.blockSize * (c.length / a.blockSize) ∧ out'.length = out.length ∧
      out.drop iv.length = out'.drop iv.length) ∧
    (∃ s t s' t' out out',
      newCipher a.name kv modeCfb (initVect := some ivv) = .ok (.cfb s) ∧
      newCipher a.name kv modeCfb (initVect := some ivw) = .ok (.cfb t) ∧
      Cfb.decrypt s v = (s', .ok out) ∧ Cfb.decrypt t v = (t', .ok out') ∧
      out.length = c.length ∧ out'.length = c.length ∧
      out.drop iv.length = out'.drop iv.length) := by
  have hpos := Alg.blockSize_pos a
  have hself : ∀ p p' b : Bytes, p.length = p'.length → Spec.xor p p' = Spec.xor b b → p = p' := by
    intro p p' b hl h
    have h0 : ∀ q : Bytes, addXor q q = List.replicate q.length 0 := by
      intro q
      induction q with
      | nil => rfl
      | cons x q ih => rw [addXor_cons, ih, UInt8.xor_self]; rfl
    have h : addXor p p' = addXor b b := h
    have hb : p'.length ≤ b.length := by
      have := congrArg List.length h
      rw [addXor_length, addXor_length, hl] at this
      omega
    rw [← addXor_cancel p' p (by omega), addXor_comm p' p, h, h0, addXor_zeros _ _ hb]
  constructor
  · obtain ⟨s, t, s', t', out, out', h1, h2, h3, h4, h5, h6, h7⟩ := C52_cbc_local a kv ivv ivw key iv
      iv' pad hk hkl hiv hiv' hivs hiv0 hivl hpad v v c c hv hv rfl
    refine ⟨s, t, s', t', out, out', h1, h2, h3, h4, h5, h6, ?_⟩
    apply drop_of_blocks a.blockSize hpos _ hivl out out' h6
    · intro i hi hi2
      rw [h5, Nat.mul_div_cancel_left _ hpos] at hi2
      obtain ⟨p, p', x, x', e1, e2, e3, e4, e5⟩ := h7 i hi2 rfl
      rw [← reg_same a.blockSize iv iv' c hivs i hi, e3] at e4
      cases e4
      have hl : ∀ (o q : Bytes), (blocks a.blockSize o)[i]? = some q → q.length = a.blockSize :=
        fun o q h => mem_blocks_length (List.mem_of_getElem? h)
      rw [e1, e2, hself p p' x (by rw [hl _ _ e1, hl _ _ e2]) e5]
    · intro _
      rw [rest_aligned _ _ ⟨_, h5⟩, rest_aligned _ _ ⟨_, h6.trans h5⟩]
  · obtain ⟨s, t, s', t', out, out', h1, h2, h3, h4, h5, h6, h7, h8⟩ := C52_cfb_local a kv ivv ivw key
      iv iv' hk hkl hiv hiv' hivs hiv0 hivl v v c c hv hv rfl
    refine ⟨s, t, s', t', out, out', h1, h2, h3, h4, h5, h6, ?_⟩
    apply drop_of_blocks a.blockSize hpos _ hivl out out' (by rw [h5, h6])
    · intro i hi hi2
      rw [h5] at hi2
      obtain ⟨p, p', x, x', e1, e2, e3, e4, e5⟩ := h7 i hi2 (reg_same a.blockSize iv iv' c hivs i hi)
      rw [e3] at e4
      cases e4
      have hl : ∀ (o q : Bytes), (blocks a.blockSize o)[i]? = some q → q.length = a.blockSize :=
        fun o q h => mem_blocks_length (List.mem_of_getElem? h)
      rw [e1, e2, hself p p' x (by rw [hl _ _ e1, hl _ _ e2]) e5]
    · intro hi
      rw [h5] at hi
      exact hself _ _ _ (by rw [rest_length, rest_length, h5, h6])
        (h8 (reg_same a.blockSize iv iv' c hivs _ hi))

/-- A case for C52: Magma in CFB, an initialisation vector of two blocks with every byte wrong. -/
example : ∃ s t s' t' out out',
    newCipher Alg.magma.name (.bytes Ex.key) modeCfb (initVect := some (.bytes (Ex.count 9 16))) =
      .ok (.cfb s) ∧
    newCipher Alg.magma.name (.bytes Ex.key) modeCfb (initVect := some (.bytes (Ex.count 99 16))) =
      .ok (.cfb t) ∧
    Cfb.decrypt s (.bytes (Ex.count 1 21)) = (s', .ok out) ∧
    Cfb.decrypt t (.bytes (Ex.count 1 21)) = (t', .ok out') ∧
    (out.drop 16).length = 5 ∧ out.drop 16 = out'.drop 16 := by
  obtain ⟨-, s, t, s', t', out, out', h1, h2, h3, h4, h5, h6, h7⟩ := C52_wrong_iv .magma
    (.bytes Ex.key) (.bytes (Ex.count 9 16)) (.bytes (Ex.count 99 16)) _ _ _ padMode1 rfl (by decide)
    rfl rfl (by decide) (by decide) (by decide) (Or.inl rfl) (.bytes (Ex.count 1 21)) _ rfl
  exact ⟨s, t, s', t', out, out', h1, h2, h3, h4, by rw [List.length_drop, h5]; decide, h7⟩

/-! ### C53 -/

/-- C53, CFB, OFB and CTR: encrypting what decryption gave produces the ciphertext again, for data
of any length; every byte string is the ciphertext of exactly one plaintext. -/
theorem C53_stream_reverse (a : Alg) (kv ivv ctrv cv : PyVal) (key iv ctriv ct : Bytes)
    (hk : kv.data? = some key) (hkl : key.length = 32) (hiv : ivv.data? = some iv)
    (hiv0 : 0 < iv.length) (hivl : iv.length % a.blockSize = 0)
    (hctr : ctrv.data? = some ctriv) (hctrl : ctriv.length = a.blockSize / 2)
    (hc : cv.data? = some ct) :
    (∃ s s' msg, newCipher a.name kv modeCfb (initVect := some ivv) = .ok (.cfb s) ∧
      Cfb.decrypt s cv = (s', .ok msg) ∧ msg.length = ct.length ∧
      ∀ mv : PyVal, mv.data? = some msg → Cfb.encrypt s mv = (s', .ok ct)) ∧
    (∃ s s' msg, newCipher a.name kv modeOfb (initVect := some ivv) = .ok (.ofb s) ∧
      Ofb.decrypt s cv = (s', .ok msg) ∧ msg.length = ct.length ∧
      ∀ mv : PyVal, mv.data? = some msg → Ofb.encrypt s mv = (s', .ok ct)) ∧
    (∃ s s' msg, newCipher a.name kv modeCtr (initVect := some ctrv) = .ok (.ctr s) ∧
      s.decrypt cv = (s', .ok msg) ∧ msg.length = ct.length ∧
      ∀ mv : PyVal, mv.data? = some msg → s.encrypt mv = (s', .ok ct)) := by
  have hR := goodReg_blocks (Alg.blockSize_pos a) hiv0 hivl
  refine ⟨?_, ?_, ?_⟩
  · obtain ⟨o, D, h1, _, h3, hI⟩ := new_cfb a kv ivv key iv hk hkl hiv hivl none none
    rw [← h3] at hR
    obtain ⟨s', msg, e1, e2, e3⟩ := Cfb.round_trip_rev ⟨o, iv⟩ hI _ hR.1 hR.2.symm cv ct hc
    exact ⟨_, s', msg, h1, e1, e2, e3⟩
  · obtain ⟨o, D, h1, _, h3, hI⟩ := new_ofb a kv ivv key iv hk hkl hiv hivl none none
    rw [← h3] at hR
    obtain ⟨s', msg, e1, e2, e3⟩ := Ofb.round_trip ⟨o, iv⟩ hI _ hR.1 hR.2.symm cv ct hc
    refine ⟨_, s', msg, h1, by rw [Ofb.decrypt_eq _ cv ct hc]; exact e1, e2, fun mv hmv => ?_⟩
    have := e3 mv hmv
    rwa [Ofb.decrypt_eq _ mv msg hmv] at this
  · obtain ⟨o, D, h1, _, h3, hI⟩ := new_ctr a kv ctrv key ctriv hk hkl hctr hctrl none none
    obtain ⟨s', msg, e1, e2, e3⟩ := Ctr.round_trip ⟨o, ctriv, ctr0 a.blockSize ctriv⟩ hI
      (by simp only [h3]; exact ctr0_length a ctriv hctrl) cv ct hc
    refine ⟨_, s', msg, h1, by rw [Ctr.decrypt_eq _ cv ct hc]; exact e1, e2, fun mv hmv => ?_⟩
    have := e3 mv hmv
    rwa [Ctr.decrypt_eq _ mv msg hmv] at this

/-- C53, CBC: for a nonempty ciphertext of whole blocks encryption after decryption gives the
ciphertext again with `PAD_MODE_1`, and the ciphertext followed by one more block with
`PAD_MODE_2`. -/
theorem C53_cbc_reverse (a : Alg) (kv ivv cv : PyVal) (key iv ct : Bytes) (pad : Int)
    (hk : kv.data? = some key) (hkl : key.length = 32) (hiv : ivv.data? = some iv)
    (hiv0 : 0 < iv.length) (hivl : iv.length % a.blockSize = 0)
    (hpad : pad = padMode1 ∨ pad = padMode2)
    (hc : cv.data? = some ct) (hct0 : ct ≠ []) (hct : ct.length % a.blockSize = 0) :
    ∃ s s' msg, newCipher a.name kv modeCbc (padMode := some pad) (initVect := some ivv) =
        .ok (.cbc s) ∧
      s.decrypt cv = (s', .ok msg) ∧ msg.length = ct.length ∧
      ∀ mv : PyVal, mv.data? = some msg →
        (pad = padMode1 → s.encrypt mv = (s', .ok ct)) ∧
        (pad = padMode2 → ∃ s'' last, s.encrypt mv = (s'', .ok (ct ++ last)) ∧
          last.length = a.blockSize) := by
  obtain ⟨o, D, h1, _, h3, hI⟩ := new_cbc a kv ivv key iv hk hkl hiv hivl pad hpad none
  have hR := goodReg_blocks (Alg.blockSize_pos a) hiv0 hivl
  rw [← h3] at hR
  obtain ⟨s', msg, e1, e2, e3, e4⟩ := Cbc.round_trip_rev ⟨o, iv, pad⟩ hI _ hR.1 hR.2.symm cv ct hc
    (by simp only [h3]; exact hct)
  refine ⟨_, s', msg, h1, e1, e2, fun mv hmv => ⟨fun hp => e3 hct0 hp mv hmv, fun hp => ?_⟩⟩
  rw [← h3]
  exact e4 hct0 hp mv hmv

/-! ### C54 -/

/-- C54. ECB: the object does not change, ciphertext block `i` is the encryption of block `i` of the
padded data, and decryption inverts every whole block by itself. -/
theorem C54_ecb_blockwise (a : Alg) (kv : PyVal) (key : Bytes) (pad : Int)
    (hk : kv.data? = some key) (hkl : key.length = 32) (hp : pad = padMode1 ∨ pad = padMode2) :
    ∃ s, newCipher a.name kv modeEcb (padMode := some pad) = .ok (.ecb s) ∧
      (∀ (v : PyVal) (d : Bytes), v.data? = some d → ∃ M out,
        s.encrypt v = (s, .ok out) ∧
        (pad = padMode1 → Spec.ZeroPadded a.blockSize d M) ∧
        (pad = padMode2 → Spec.MarkPadded a.blockSize d M) ∧
        out.length = M.length ∧
        blocks a.blockSize out = (blocks a.blockSize M).map (a.encrypt key)) ∧
      (∀ (v : PyVal) (c : Bytes), v.data? = some c → ∃ out,
        s.decrypt v = (s, .ok out) ∧ out.length = a.blockSize * (c.length / a.blockSize) ∧
        blocks a.blockSize c = (blocks a.blockSize out).map (a.encrypt key)) := by
  obtain ⟨o, D, h1, _, h3, hI⟩ := new_ecb a kv key hk hkl pad hp none none
  have hpos := Alg.blockSize_pos a
  refine ⟨_, h1, ?_, ?_⟩
  · intro v d hv
    have he := Ecb.encrypt_ok ⟨o, pad⟩ hI v d hv
    simp only [h3] at he
    have hl : ∀ b ∈ (blocks a.blockSize (setPadding a.blockSize d pad)).map (a.encrypt key),
        b.length = a.blockSize := by
      intro b hb
      obtain ⟨x, hx, rfl⟩ := List.mem_map.1 hb
      rw [← h3]
      exact hI.enc_len x (by rw [h3]; exact mem_blocks_length hx)
    refine ⟨setPadding a.blockSize d pad, _, he, ?_, ?_, ?_, ?_⟩
    · rintro rfl; exact zeroPadded_setPadding _ hpos d
    · rintro rfl; exact markPadded_setPadding _ hpos d
    · rw [flatten_length_const _ _ hl, List.length_map, blocks_length,
        Nat.mul_div_cancel' (setPadding_dvd _ hpos d pad hp)]
    · exact blocks_flatten _ hpos _ hl
  · intro v c hv
    have he := Ecb.decrypt_ok ⟨o, pad⟩ hI v c hv
    simp only [h3] at he
    have hl : ∀ b ∈ (blocks a.blockSize c).map D, b.length = a.blockSize := by
      intro b hb
      obtain ⟨x, hx, rfl⟩ := List.mem_map.1 hb
      rw [← h3]
      exact hI.dec_len x (by rw [h3]; exact mem_blocks_length hx)
    refine ⟨_, he, ?_, ?_⟩
    · rw [flatten_length_const _ _ hl, List.length_map, blocks_length]
    · rw [blocks_flatten _ hpos _ hl, List.map_map]
      symm
      rw [List.map_congr_left (g := id), List.map_id]
      intro b hb
      exact hI.E_D b (by rw [h3]; exact mem_blocks_length hb)

/-- C54, consequence: the encryptions of two single-block messages under one key are equal exactly when the messages
are. -/
theorem C54_ecb_equal_blocks (a : Alg) (kv : PyVal) (key : Bytes)
    (hk : kv.data? = some key) (hkl : key.length = 32) (b b' : Bytes)
    (hb : b.length = a.blockSize) (hb' : b'.length = a.blockSize) :
    ∃ s c c', newCipher a.name kv modeEcb (padMode := some padMode1) = .ok (.ecb s) ∧
      s.encrypt (.bytes b) = (s, .ok c) ∧ s.encrypt (.bytes b') = (s, .ok c') ∧
      (c = c' ↔ b = b') := by
  obtain ⟨o, D, h1, _, h3, hI⟩ := new_ecb a kv key hk hkl padMode1 (Or.inl rfl) none none
  have hpos := Alg.blockSize_pos a
  have key1 : ∀ b : Bytes, b.length = a.blockSize →
      Ecb.encrypt ⟨o, padMode1⟩ (.bytes b) = (⟨o, padMode1⟩, .ok (a.encrypt key b)) := by
    intro b hb
    have he := Ecb.encrypt_ok ⟨o, padMode1⟩ hI (.bytes b) b rfl
    simp only [h3] at he
    rw [he, setPadding_aligned _ _ ⟨1, by rw [hb, Nat.mul_one]⟩
      (by intro h; rw [h] at hb; simp at hb; omega)]
    have := blocks_cons a.blockSize b [] hpos hb
    rw [List.append_nil, blocks_nil] at this
    simp [this]
  refine ⟨_, _, _, h1, key1 b hb, key1 b' hb', ?_, ?_⟩
  · intro h
    exact hI.E_inj b b' (by rw [h3]; exact hb) (by rw [h3]; exact hb') h
  · rintro rfl; rfl

/-- A case for C53 and C54. -/
example : ∃ s s' msg, newCipher Alg.kuznechik.name (.bytes Ex.key) modeCbc
      (padMode := some padMode2) (initVect := some (.bytes (Ex.count 9 32))) = .ok (.cbc s) ∧
    s.decrypt (.bytes (Ex.count 1 48)) = (s', .ok msg) ∧
    ∃ s'' last, s.encrypt (.bytes msg) = (s'', .ok (Ex.count 1 48 ++ last)) ∧ last.length = 16 := by
  obtain ⟨s, s', msg, h1, h2, -, h4⟩ := C53_cbc_reverse .kuznechik (.bytes Ex.key)
    (.bytes (Ex.count 9 32)) (.bytes (Ex.count 1 48)) _ _ _ padMode2 rfl (by decide) rfl (by decide)
    (by decide) (Or.inr rfl) rfl (by decide) (by decide)
  exact ⟨s, s', msg, h1, h2, (h4 _ rfl).2 rfl⟩

end Gost
