import Verif.Proofs.New

/-! Decryption after encryption for every mode, on the level of objects. -/

namespace Gost
open Spec (Alg blocks rest)

theorem map_map_inverse (F G : Bytes → Bytes) (n : Nat) (h : ∀ b : Bytes, b.length = n → G (F b) = b)
    (l : List Bytes) (hl : ∀ b ∈ l, b.length = n) : (l.map F).map G = l := by
  induction l with
  | nil => rfl
  | cons b l ih =>
    simp only [List.map_cons]
    rw [h b (hl b (by simp)), ih (fun x hx => hl x (by simp [hx]))]

theorem Ecb.round_trip (s : Ecb) {E D : Bytes → Bytes} (hI : Implements s.obj E D)
    (hp : PadOk s.padMode) (mv : PyVal) (msg : Bytes) (hm : mv.data? = some msg) :
    ∃ ct, s.encrypt mv = (s, .ok ct) ∧
      ct.length = (setPadding s.obj.blockSize msg s.padMode).length ∧
      ∀ cv : PyVal, cv.data? = some ct →
        s.decrypt cv = (s, .ok (setPadding s.obj.blockSize msg s.padMode)) := by
  have hpos : 0 < s.obj.blockSize := Implements.pos
  have hd := setPadding_dvd s.obj.blockSize hpos msg s.padMode hp
  have hl : ∀ b ∈ blocks s.obj.blockSize (setPadding s.obj.blockSize msg s.padMode),
      b.length = s.obj.blockSize := fun b hb => mem_blocks_length hb
  have hl' : ∀ b ∈ (blocks s.obj.blockSize (setPadding s.obj.blockSize msg s.padMode)).map E,
      b.length = s.obj.blockSize := by
    intro b hb
    obtain ⟨c, hc, rfl⟩ := List.mem_map.1 hb
    exact hI.enc_len c (hl c hc)
  refine ⟨_, Ecb.encrypt_ok s hI mv msg hm, ?_, fun cv hcv => ?_⟩
  · rw [flatten_length_const _ _ hl', List.length_map, ← flatten_length_const _ _ hl,
      flatten_blocks _ hpos _ hd]
  · rw [Ecb.decrypt_ok s hI cv _ hcv, blocks_flatten _ hpos _ hl',
      map_map_inverse E D s.obj.blockSize (fun b hb => hI.D_E b hb) _ hl, flatten_blocks _ hpos _ hd]

theorem cbc_inverse {o : CipherObj} {E D : Bytes → Bytes} (hI : Implements o E D) (r b : Bytes)
    (hr : r.length = o.blockSize) (hb : b.length = o.blockSize) : cbcG' D r (cbcG E r b) = b := by
  unfold cbcG' cbcG
  rw [hI.D_E _ (by simp [hr, hb]), addXor_cancel _ _ (by omega)]

theorem mask_inverse {o : CipherObj} {E D : Bytes → Bytes} (hI : Implements o E D) (r b : Bytes)
    (hr : r.length = o.blockSize) (hb : b.length ≤ o.blockSize) : maskG E r (maskG E r b) = b := by
  unfold maskG
  rw [addXor_cancel _ _ (by rw [hI.enc_len r hr]; exact hb)]

theorem Cbc.round_trip (s : Cbc) {E D : Bytes → Bytes} (hI : Implements s.obj E D) (R : List Bytes)
    (hR : GoodReg s.obj.blockSize R) (hiv : s.iv = R.flatten)
    (hp : PadOk s.padMode) (mv : PyVal) (msg : Bytes) (hm : mv.data? = some msg) :
    ∃ s' ct, s.encrypt mv = (s', .ok ct) ∧
      ct.length = (setPadding s.obj.blockSize msg s.padMode).length ∧
      ∀ cv : PyVal, cv.data? = some ct →
        s.decrypt cv = (s', .ok (setPadding s.obj.blockSize msg s.padMode)) := by
  have hpos : 0 < s.obj.blockSize := Implements.pos
  have hd := setPadding_dvd s.obj.blockSize hpos msg s.padMode hp
  have hl : ∀ b ∈ blocks s.obj.blockSize (setPadding s.obj.blockSize msg s.padMode),
      b.length = s.obj.blockSize := fun b hb => mem_blocks_length hb
  have hl' := (regRun_good s.obj.blockSize s.obj.blockSize (cbcG E) (cbcG E)
    (fun r b hr hb => cbcG_length hI r b hr hb) (fun r b hr hb => cbcG_length hI r b hr hb) R _ hR hl).2
  refine ⟨_, _, Cbc.encrypt_ok s hI R hR hiv mv msg hm, ?_, fun cv hcv => ?_⟩
  · rw [flatten_length_const _ _ hl', mapAccum_length, ← flatten_length_const _ _ hl,
      flatten_blocks _ hpos _ hd]
  · rw [Cbc.decrypt_ok s hI R hR hiv cv _ hcv, blocks_flatten _ hpos _ hl',
      regRun_inverse s.obj.blockSize (cbcG E) (cbcG E) (cbcG' D) sndB
        (fun r b hr hb => cbcG_length hI r b hr hb) (fun r b hr hb => cbc_inverse hI r b hr hb)
        (fun _ _ _ _ => rfl) R _ hR hl, flatten_blocks _ hpos _ hd]

/-- CFB and OFB together: `h` is what encryption feeds, `h'` what decryption feeds. -/
theorem mask_round_trip {o : CipherObj} {E D : Bytes → Bytes} (hI : Implements o E D)
    (h h' : Bytes → Bytes → Bytes)
    (hlen : ∀ r b : Bytes, r.length = o.blockSize → b.length = o.blockSize → (h r b).length = o.blockSize)
    (hh : ∀ r b : Bytes, r.length = o.blockSize → b.length = o.blockSize → h' r (maskG E r b) = h r b)
    (R : List Bytes) (hR : GoodReg o.blockSize R) (d ct : Bytes)
    (hct : ct = (mapAccum (regStep (maskG E) h) R (blocks o.blockSize d)).2.flatten ++
      maskG E ((mapAccum (regStep (maskG E) h) R (blocks o.blockSize d)).1.headD [])
        (rest o.blockSize d)) :
    ct.length = d.length ∧
    (mapAccum (regStep (maskG E) h') R (blocks o.blockSize ct)).1 =
      (mapAccum (regStep (maskG E) h) R (blocks o.blockSize d)).1 ∧
    (mapAccum (regStep (maskG E) h') R (blocks o.blockSize ct)).2.flatten ++
      maskG E ((mapAccum (regStep (maskG E) h') R (blocks o.blockSize ct)).1.headD [])
        (rest o.blockSize ct) = d := by
  have hpos : 0 < o.blockSize := Implements.pos
  have hl : ∀ b ∈ blocks o.blockSize d, b.length = o.blockSize := fun b hb => mem_blocks_length hb
  have hg := regRun_good o.blockSize o.blockSize (maskG E) h hlen
    (fun r b hr hb => by rw [maskG_length hI r b hr (by omega), hb]) R _ hR hl
  have hrl : (rest o.blockSize d).length < o.blockSize := by
    rw [rest_length]; exact Nat.mod_lt _ hpos
  have htl := maskG_length hI _ (rest o.blockSize d) hg.1.head (by omega)
  have hinv := regRun_inverse o.blockSize (maskG E) h (maskG E) h' hlen
    (fun r b hr hb => mask_inverse hI r b hr (by omega)) hh R _ hR hl
  have hb : blocks o.blockSize ct = (mapAccum (regStep (maskG E) h) R (blocks o.blockSize d)).2 := by
    rw [hct, blocks_flatten_append _ hpos _ hg.2, blocks_of_lt _ (maskG E _ _) (by omega),
      List.append_nil]
  have hr : rest o.blockSize ct =
      maskG E ((mapAccum (regStep (maskG E) h) R (blocks o.blockSize d)).1.headD [])
        (rest o.blockSize d) := by
    rw [hct, rest_flatten_append _ hpos _ hg.2, rest_of_lt _ (maskG E _ _) (by omega)]
  refine ⟨?_, ?_, ?_⟩
  · rw [hct, List.length_append, htl, flatten_length_const _ _ hg.2, mapAccum_length,
      ← flatten_length_const _ _ hl, ← List.length_append, flatten_blocks_rest _ hpos]
  · rw [hb, hinv]
  · rw [hr, hb, hinv, mask_inverse hI _ _ hg.1.head (by omega), flatten_blocks_rest _ hpos]

theorem Cfb.round_trip (s : Fb) {E D : Bytes → Bytes} (hI : Implements s.obj E D) (R : List Bytes)
    (hR : GoodReg s.obj.blockSize R) (hiv : s.iv = R.flatten) (mv : PyVal) (msg : Bytes)
    (hm : mv.data? = some msg) :
    ∃ s' ct, Cfb.encrypt s mv = (s', .ok ct) ∧ ct.length = msg.length ∧
      ∀ cv : PyVal, cv.data? = some ct → Cfb.decrypt s cv = (s', .ok msg) := by
  have h := mask_round_trip hI (maskG E) sndB
    (fun r b hr hb => by rw [maskG_length hI r b hr (by omega), hb]) (fun _ _ _ _ => rfl)
    R hR msg _ rfl
  refine ⟨_, _, Cfb.encrypt_ok s hI R hR hiv mv msg hm, h.1, fun cv hcv => ?_⟩
  rw [Cfb.decrypt_ok s hI R hR hiv cv _ hcv, h.2.2, h.2.1]

theorem Ofb.round_trip (s : Fb) {E D : Bytes → Bytes} (hI : Implements s.obj E D) (R : List Bytes)
    (hR : GoodReg s.obj.blockSize R) (hiv : s.iv = R.flatten) (mv : PyVal) (msg : Bytes)
    (hm : mv.data? = some msg) :
    ∃ s' ct, Ofb.encrypt s mv = (s', .ok ct) ∧ ct.length = msg.length ∧
      ∀ cv : PyVal, cv.data? = some ct → Ofb.decrypt s cv = (s', .ok msg) := by
  have h := mask_round_trip hI (ofbH E) (ofbH E)
    (fun r b hr _ => hI.enc_len r hr) (fun _ _ _ _ => rfl) R hR msg _ rfl
  refine ⟨_, _, Ofb.encrypt_ok s hI R hR hiv mv msg hm, h.1, fun cv hcv => ?_⟩
  rw [Ofb.decrypt_eq s cv _ hcv, Ofb.encrypt_ok s hI R hR hiv cv _ hcv, h.2.2, h.2.1]

/-! ### CTR -/

theorem allBlocks_flatten (bs : Nat) (hbs : 0 < bs) (d : Bytes) : (allBlocks bs d).flatten = d := by
  unfold allBlocks
  split
  · next h => rw [List.append_nil, flatten_blocks bs hbs d (Nat.dvd_of_mod_eq_zero h)]
  · rw [List.flatten_append, List.flatten_singleton, flatten_blocks_rest bs hbs]

theorem allBlocks_length (bs : Nat) (hbs : 0 < bs) (d : Bytes) :
    (allBlocks bs d).length = (d.length + bs - 1) / bs := by
  unfold allBlocks
  have h1 := Nat.div_add_mod d.length bs
  have h2 := Nat.mod_lt d.length hbs
  have h3 : ∀ q r, r < bs → d.length + bs - 1 = bs * q + r → (d.length + bs - 1) / bs = q := by
    intro q r hr he
    rw [he, Nat.mul_add_div hbs, Nat.div_eq_of_lt hr, Nat.add_zero]
  split
  · next h =>
    rw [List.append_nil, blocks_length, h3 (d.length / bs) (bs - 1) (by omega) (by omega)]
  · next h =>
    rw [List.length_append, blocks_length, List.length_singleton,
      h3 (d.length / bs + 1) (d.length % bs - 1) (by omega) (by rw [Nat.mul_add]; omega)]

/-- Counter after `i` increments. -/
def ctrAt (c : Bytes) : Nat → Bytes
  | 0 => c
  | i + 1 => ctrAt (ctrNext c) i

theorem ctrAt_length (c : Bytes) (i : Nat) : (ctrAt c i).length = c.length := by
  induction i generalizing c with
  | zero => rfl
  | succ i ih => rw [ctrAt, ih, ctrNext_length]

theorem ctrAt_add (c : Bytes) (i j : Nat) : ctrAt (ctrAt c i) j = ctrAt c (i + j) := by
  induction i generalizing c with
  | zero => rw [Nat.zero_add]; rfl
  | succ i ih => rw [ctrAt, ih, Nat.succ_add]; rfl

theorem ctrRun_eq (E : Bytes → Bytes) (c : Bytes) (l : List Bytes) :
    (mapAccum (ctrF E) c l).1 = ctrAt c l.length ∧
    (mapAccum (ctrF E) c l).2 = List.zipWith (fun b i => addXor b (E (ctrAt c i))) l (List.range l.length) := by
  induction l generalizing c with
  | nil => simp [mapAccum, ctrAt]
  | cons b l ih =>
    have h := ih (ctrNext c)
    simp only [mapAccum, ctrF]
    refine ⟨h.1, ?_⟩
    rw [List.length_cons, List.range_succ_eq_map, List.zipWith_cons_cons, h.2]
    congr 1
    rw [List.zipWith_map_right]
    rfl

/-- The keystream of `n` blocks from a counter on. -/
def ctrStream (E : Bytes → Bytes) (c : Bytes) (n : Nat) : Bytes :=
  ((List.range n).map fun i => E (ctrAt c i)).flatten

theorem addXor_flatten_zip (l K : List Bytes) (bs : Nat) (hK : ∀ k ∈ K, k.length = bs)
    (h : l.length = K.length) (hl : ∀ b ∈ l.dropLast, b.length = bs) (hlast : ∀ b ∈ l, b.length ≤ bs) :
    (List.zipWith addXor l K).flatten = addXor l.flatten K.flatten := by
  induction l generalizing K with
  | nil => simp
  | cons b l ih =>
    cases K with
    | nil => simp at h
    | cons k K =>
      simp only [List.zipWith_cons_cons, List.flatten_cons]
      have hk := hK k (by simp)
      by_cases hn : l = []
      · subst hn
        simp only [List.zipWith_nil_left, List.flatten_nil, List.append_nil]
        have : K = [] := List.eq_nil_of_length_eq_zero (by simpa using h.symm)
        subst this
        simp
      · have hb : b.length = bs := hl b (by rw [List.dropLast_cons_of_ne_nil hn]; simp)
        rw [addXor_append _ _ _ _ (by rw [hb, hk])]
        rw [ih K (fun x hx => hK x (by simp [hx])) (by simpa using h)
          (fun x hx => hl x (by rw [List.dropLast_cons_of_ne_nil hn]; simp [hx]))
          (fun x hx => hlast x (by simp [hx]))]

theorem allBlocks_dropLast (bs : Nat) (d : Bytes) : ∀ b ∈ (allBlocks bs d).dropLast, b.length = bs := by
  intro b hb
  unfold allBlocks at hb
  split at hb
  · rw [List.append_nil] at hb
    exact mem_blocks_length ((List.dropLast_sublist _).mem hb)
  · rw [List.dropLast_concat] at hb
    exact mem_blocks_length hb

theorem allBlocks_le (bs : Nat) (hbs : 0 < bs) (d : Bytes) : ∀ b ∈ allBlocks bs d, b.length ≤ bs := by
  intro b hb
  unfold allBlocks at hb
  rcases List.mem_append.1 hb with hb | hb
  · rw [mem_blocks_length hb]; exact Nat.le_refl _
  · split at hb
    · simp at hb
    · rw [List.mem_singleton.1 hb, rest_length]
      exact Nat.le_of_lt (Nat.mod_lt _ hbs)

/-- A CTR call masks the data with the keystream from the current counter on and advances the
counter by the number of blocks begun. -/
theorem Ctr.encrypt_stream (s : Ctr) {E D : Bytes → Bytes} (hI : Implements s.obj E D)
    (hc : s.counter.length = s.obj.blockSize) (v : PyVal) (d : Bytes) (hv : v.data? = some d) :
    s.encrypt v =
      (s.withCtr (ctrAt s.counter ((d.length + s.obj.blockSize - 1) / s.obj.blockSize)),
       .ok (addXor d (ctrStream E s.counter ((d.length + s.obj.blockSize - 1) / s.obj.blockSize)))) := by
  have hpos : 0 < s.obj.blockSize := Implements.pos
  rw [Ctr.encrypt_ok s hI hc v d hv]
  have h := ctrRun_eq E s.counter (allBlocks s.obj.blockSize d)
  rw [h.1, h.2, allBlocks_length _ hpos]
  congr 2
  have hz : List.zipWith (fun b i => addXor b (E (ctrAt s.counter i))) (allBlocks s.obj.blockSize d)
      (List.range ((d.length + s.obj.blockSize - 1) / s.obj.blockSize)) =
      List.zipWith addXor (allBlocks s.obj.blockSize d)
        ((List.range ((d.length + s.obj.blockSize - 1) / s.obj.blockSize)).map
          fun i => E (ctrAt s.counter i)) := by
    rw [List.zipWith_map_right]
  rw [hz, addXor_flatten_zip _ _ s.obj.blockSize _ _ (allBlocks_dropLast _ d) (allBlocks_le _ hpos d),
    allBlocks_flatten _ hpos]
  · rfl
  · intro k hk
    obtain ⟨i, _, rfl⟩ := List.mem_map.1 hk
    exact hI.enc_len _ (by rw [ctrAt_length, hc])
  · rw [allBlocks_length _ hpos]; simp

theorem ctrStream_length {o : CipherObj} {E D : Bytes → Bytes} (hI : Implements o E D) (c : Bytes)
    (hc : c.length = o.blockSize) (n : Nat) : (ctrStream E c n).length = o.blockSize * n := by
  unfold ctrStream
  rw [flatten_length_const o.blockSize]
  · simp
  · intro k hk
    obtain ⟨i, _, rfl⟩ := List.mem_map.1 hk
    exact hI.enc_len _ (by rw [ctrAt_length, hc])

theorem le_ceil (n bs : Nat) (hbs : 0 < bs) : n ≤ bs * ((n + bs - 1) / bs) := by
  have h1 := Nat.div_add_mod (n + bs - 1) bs
  have h2 := Nat.mod_lt (n + bs - 1) hbs
  omega

theorem Ctr.round_trip (s : Ctr) {E D : Bytes → Bytes} (hI : Implements s.obj E D)
    (hc : s.counter.length = s.obj.blockSize) (mv : PyVal) (msg : Bytes)
    (hm : mv.data? = some msg) :
    ∃ s' ct, s.encrypt mv = (s', .ok ct) ∧ ct.length = msg.length ∧
      ∀ cv : PyVal, cv.data? = some ct → s.decrypt cv = (s', .ok msg) := by
  have hpos : 0 < s.obj.blockSize := Implements.pos
  have hl := ctrStream_length hI s.counter hc ((msg.length + s.obj.blockSize - 1) / s.obj.blockSize)
  have hle := le_ceil msg.length s.obj.blockSize hpos
  have hlen : (addXor msg (ctrStream E s.counter ((msg.length + s.obj.blockSize - 1) / s.obj.blockSize))).length
      = msg.length := by
    rw [addXor_length, hl]; omega
  refine ⟨_, _, Ctr.encrypt_stream s hI hc mv msg hm, hlen, fun cv hcv => ?_⟩
  rw [Ctr.decrypt_eq s cv _ hcv, Ctr.encrypt_stream s hI hc cv _ hcv, hlen]
  congr 2
  rw [addXor_comm, addXor_comm msg, addXor_cancel _ _ (by rw [hl]; exact hle)]

end Gost
