import Verif.Proofs.Register

/-! Each mode as a run over the list of blocks. -/

namespace Gost
open Spec (blocks rest)

/-! ### Padding -/

theorem getPadSize_dvd (bs : Nat) (hbs : 0 < bs) (d : Bytes) : bs ∣ d.length + getPadSize bs d := by
  unfold getPadSize
  split
  · rw [show d.length + (bs - d.length) = bs by omega]; exact Nat.dvd_refl _
  · split
    · next h => exact Nat.dvd_of_mod_eq_zero (by simpa using h)
    · have h1 := Nat.div_add_mod d.length bs
      have h2 := Nat.mod_lt d.length hbs
      have : d.length + (bs - d.length % bs) = bs * (d.length / bs + 1) := by
        rw [Nat.mul_add, Nat.mul_one]; omega
      rw [this]; exact Nat.dvd_mul_right _ _

theorem getPadSize_lt (bs : Nat) (d : Bytes) (hd : d ≠ []) : getPadSize bs d < bs ∨ bs = 0 := by
  have : 0 < d.length := List.length_pos_iff.2 hd
  unfold getPadSize
  split
  · omega
  · split
    · omega
    · next h =>
      have : d.length % bs ≠ 0 := by simpa using h
      omega

theorem getPadSize_nil (bs : Nat) (hbs : 0 < bs) : getPadSize bs [] = bs := by
  simp [getPadSize, hbs]

theorem setPadMode1_eq (bs : Nat) (d : Bytes) :
    setPadMode1 bs d = d ++ List.replicate (getPadSize bs d) 0 := by
  rw [setPadMode1, zeros_nat]

theorem setPadMode2_eq (bs : Nat) (hbs : 0 < bs) (d : Bytes) :
    setPadMode2 bs d = d ++ 0x80 :: List.replicate (bs + getPadSize bs d - 1) 0 := by
  rw [setPadMode2, show (bs : Int) + getPadSize bs d - 1 = ((bs + getPadSize bs d - 1 : Nat) : Int) by
    omega, zeros_nat]
  simp

theorem setPadding_1 (bs : Nat) (d : Bytes) :
    setPadding bs d padMode1 = d ++ List.replicate (getPadSize bs d) 0 := by
  rw [setPadding, if_pos rfl, setPadMode1_eq]

theorem setPadding_2 (bs : Nat) (hbs : 0 < bs) (d : Bytes) :
    setPadding bs d padMode2 = d ++ 0x80 :: List.replicate (bs + getPadSize bs d - 1) 0 := by
  rw [setPadding, if_neg (by decide), if_pos rfl, setPadMode2_eq bs hbs]

/-- One of the two padding modes. -/
def PadOk (m : Int) : Prop := m = padMode1 ∨ m = padMode2

theorem setPadding_dvd (bs : Nat) (hbs : 0 < bs) (d : Bytes) (m : Int) (hm : PadOk m) :
    bs ∣ (setPadding bs d m).length := by
  have h := getPadSize_dvd bs hbs d
  rcases hm with rfl | rfl
  · rw [setPadding_1, List.length_append, List.length_replicate]; exact h
  · rw [setPadding_2 bs hbs, List.length_append, List.length_cons, List.length_replicate,
      show d.length + (bs + getPadSize bs d - 1 + 1) = d.length + getPadSize bs d + bs by omega]
    exact (Nat.dvd_add_right h).2 (Nat.dvd_refl _)

/-! ### ECB -/

theorem mapAccum_unit (F : Bytes → Bytes) (l : List Bytes) :
    mapAccum (fun (_ : Unit) b => ((), F b)) () l = ((), l.map F) := by
  induction l with
  | nil => rfl
  | cons b l ih => simp [mapAccum, ih]

theorem Ecb.encrypt_ok (s : Ecb) {E D : Bytes → Bytes} (hI : Implements s.obj E D) (v : PyVal)
    (d : Bytes) (hv : v.data? = some d) :
    s.encrypt v = (s, .ok ((blocks s.obj.blockSize (setPadding s.obj.blockSize d s.padMode)).map E).flatten) := by
  unfold Ecb.encrypt
  rw [hv]
  simp only []
  have := blockLoop_ok (fun (s : Ecb) b => do let c ← s.obj.encrypt b; pure (s, c))
    (fun (_ : Unit) => s) (fun _ => True) (fun _ b => ((), E b)) s.obj.blockSize
    (fun _ b _ hb => ⟨by rw [hI.enc b hb, Res.bind_ok, Res.pure_eq], trivial⟩)
    (setPadding s.obj.blockSize d s.padMode) () trivial
  rw [this, mapAccum_unit]

theorem Ecb.decrypt_ok (s : Ecb) {E D : Bytes → Bytes} (hI : Implements s.obj E D) (v : PyVal)
    (d : Bytes) (hv : v.data? = some d) :
    s.decrypt v = (s, .ok ((blocks s.obj.blockSize d).map D).flatten) := by
  unfold Ecb.decrypt
  rw [hv]
  simp only []
  have := blockLoop_ok (fun (s : Ecb) b => do let c ← s.obj.decrypt b; pure (s, c))
    (fun (_ : Unit) => s) (fun _ => True) (fun _ b => ((), D b)) s.obj.blockSize
    (fun _ b _ hb => ⟨by rw [hI.dec b hb, Res.bind_ok, Res.pure_eq], trivial⟩) d () trivial
  rw [this, mapAccum_unit]

/-! ### CBC -/

/-- Output of CBC encryption. -/
def cbcG (E : Bytes → Bytes) (r b : Bytes) : Bytes := E (addXor r b)

/-- Output of CBC decryption. -/
def cbcG' (D : Bytes → Bytes) (r b : Bytes) : Bytes := addXor r (D b)

/-- The second argument: what decryption feeds to the register. -/
def sndB (_ b : Bytes) : Bytes := b

theorem take_self {α : Type} (l : List α) (n : Nat) (h : l.length = n) : pySlice l 0 (n : Int) = l := by
  rw [pySlice_zero, List.take_of_length_le (by omega)]

theorem cbcG_length {o : CipherObj} {E D : Bytes → Bytes} (hI : Implements o E D) (r b : Bytes)
    (hr : r.length = o.blockSize) (hb : b.length = o.blockSize) :
    (cbcG E r b).length = o.blockSize := hI.enc_len _ (by simp [hr, hb])

/-- A state with the given register. -/
def Cbc.withReg (s : Cbc) (R : List Bytes) : Cbc := { s with iv := R.flatten }

theorem Cbc.withReg_self (s : Cbc) (R : List Bytes) (h : s.iv = R.flatten) : s.withReg R = s := by
  unfold Cbc.withReg; rw [← h]

theorem Cbc.encStep_ok (s : Cbc) {E D : Bytes → Bytes} (hI : Implements s.obj E D) (R : List Bytes)
    (b : Bytes) (hR : GoodReg s.obj.blockSize R) (hb : b.length = s.obj.blockSize) :
    Cbc.encStep (s.withReg R) b =
      .ok (s.withReg (regStep (cbcG E) (cbcG E) R b).1, (regStep (cbcG E) (cbcG E) R b).2) ∧
    GoodReg s.obj.blockSize (regStep (cbcG E) (cbcG E) R b).1 := by
  have hl := cbcG_length hI _ b hR.head hb
  refine ⟨?_, hR.step _ hl⟩
  have he : s.obj.encrypt (addXor (R.headD []) b) = .ok (cbcG E (R.headD []) b) :=
    hI.enc _ (by rw [addXor_length, hR.head, hb, Nat.min_self])
  unfold Cbc.encStep
  simp only [Cbc.withReg, hR.take, he, Res.bind_ok, Res.pure_eq]
  rw [take_self _ _ hl, hR.setInitVect _ hl]
  rfl

/-- CBC encryption of any data: whole blocks of the padded data through the register. -/
theorem Cbc.encrypt_ok (s : Cbc) {E D : Bytes → Bytes} (hI : Implements s.obj E D) (R : List Bytes)
    (hR : GoodReg s.obj.blockSize R) (hiv : s.iv = R.flatten) (v : PyVal) (d : Bytes)
    (hv : v.data? = some d) :
    s.encrypt v =
      (s.withReg (mapAccum (regStep (cbcG E) (cbcG E)) R
          (blocks s.obj.blockSize (setPadding s.obj.blockSize d s.padMode))).1,
       .ok (mapAccum (regStep (cbcG E) (cbcG E)) R
          (blocks s.obj.blockSize (setPadding s.obj.blockSize d s.padMode))).2.flatten) := by
  unfold Cbc.encrypt
  rw [hv]
  simp only []
  have := blockLoop_ok Cbc.encStep s.withReg
    (GoodReg s.obj.blockSize) (regStep (cbcG E) (cbcG E)) s.obj.blockSize
    (fun R b hR hb => Cbc.encStep_ok s hI R b hR hb)
    (setPadding s.obj.blockSize d s.padMode) R hR
  rw [Cbc.withReg_self s R hiv] at this
  rw [this]

theorem Cbc.decStep_ok (s : Cbc) {E D : Bytes → Bytes} (hI : Implements s.obj E D) (R : List Bytes)
    (b : Bytes) (hR : GoodReg s.obj.blockSize R) (hb : b.length = s.obj.blockSize) :
    Cbc.decStep (s.withReg R) b =
      .ok (s.withReg (regStep (cbcG' D) sndB R b).1, (regStep (cbcG' D) sndB R b).2) ∧
    GoodReg s.obj.blockSize (regStep (cbcG' D) sndB R b).1 := by
  refine ⟨?_, hR.step _ hb⟩
  unfold Cbc.decStep
  simp only [Cbc.withReg, hR.take, hI.dec b hb, Res.bind_ok, Res.pure_eq]
  rw [hR.setInitVect _ hb]
  rfl

/-- CBC decryption of any data: whole blocks through the register. -/
theorem Cbc.decrypt_ok (s : Cbc) {E D : Bytes → Bytes} (hI : Implements s.obj E D) (R : List Bytes)
    (hR : GoodReg s.obj.blockSize R) (hiv : s.iv = R.flatten) (v : PyVal) (d : Bytes)
    (hv : v.data? = some d) :
    s.decrypt v =
      (s.withReg (mapAccum (regStep (cbcG' D) sndB) R (blocks s.obj.blockSize d)).1,
       .ok (mapAccum (regStep (cbcG' D) sndB) R (blocks s.obj.blockSize d)).2.flatten) := by
  unfold Cbc.decrypt
  rw [hv]
  simp only []
  have := blockLoop_ok Cbc.decStep s.withReg
    (GoodReg s.obj.blockSize) (regStep (cbcG' D) sndB) s.obj.blockSize
    (fun R b hR hb => Cbc.decStep_ok s hI R b hR hb) d R hR
  rw [Cbc.withReg_self s R hiv] at this
  rw [this]

/-! ### CFB and OFB -/

/-- Output of CFB and OFB: the data block masked with the encrypted register block. -/
def maskG (E : Bytes → Bytes) (r b : Bytes) : Bytes := addXor (E r) b

/-- What OFB feeds to the register: the keystream block. -/
def ofbH (E : Bytes → Bytes) (r _ : Bytes) : Bytes := E r

theorem maskG_length {o : CipherObj} {E D : Bytes → Bytes} (hI : Implements o E D) (r b : Bytes)
    (hr : r.length = o.blockSize) (hb : b.length ≤ o.blockSize) :
    (maskG E r b).length = b.length := by
  simp [maskG, hI.enc_len r hr]; omega

theorem getGamma_ok {o : CipherObj} {E D : Bytes → Bytes} (hI : Implements o E D) (R : List Bytes)
    (hR : GoodReg o.blockSize R) : getGamma o R.flatten = .ok (E (R.headD [])) := by
  unfold getGamma
  rw [hR.take, hI.enc _ hR.head]

/-- A state with the given register. -/
def Fb.withReg (s : Fb) (R : List Bytes) : Fb := { s with iv := R.flatten }

theorem Cfb.encStep_ok (s : Fb) {E D : Bytes → Bytes} (hI : Implements s.obj E D) (R : List Bytes)
    (b : Bytes) (hR : GoodReg s.obj.blockSize R) (hb : b.length = s.obj.blockSize) :
    Cfb.encStep (s.withReg R) b =
      .ok (s.withReg (regStep (maskG E) (maskG E) R b).1, (regStep (maskG E) (maskG E) R b).2) ∧
    GoodReg s.obj.blockSize (regStep (maskG E) (maskG E) R b).1 := by
  have hl : (maskG E (R.headD []) b).length = s.obj.blockSize := by
    rw [maskG_length hI _ b hR.head (by omega), hb]
  refine ⟨?_, hR.step _ hl⟩
  have hl' : (addXor (E (R.headD [])) b).length = s.obj.blockSize := hl
  unfold Cfb.encStep
  simp only [Fb.withReg, getGamma_ok hI R hR, Res.bind_ok, Res.pure_eq]
  rw [take_self _ _ hl', hR.setInitVect _ hl']
  rfl

theorem Cfb.decStep_ok (s : Fb) {E D : Bytes → Bytes} (hI : Implements s.obj E D) (R : List Bytes)
    (b : Bytes) (hR : GoodReg s.obj.blockSize R) (hb : b.length = s.obj.blockSize) :
    Cfb.decStep (s.withReg R) b =
      .ok (s.withReg (regStep (maskG E) sndB R b).1, (regStep (maskG E) sndB R b).2) ∧
    GoodReg s.obj.blockSize (regStep (maskG E) sndB R b).1 := by
  refine ⟨?_, hR.step _ hb⟩
  unfold Cfb.decStep
  simp only [Fb.withReg, getGamma_ok hI R hR, Res.bind_ok, Res.pure_eq]
  rw [hR.setInitVect _ hb]
  rfl

theorem Ofb.step_ok (s : Fb) {E D : Bytes → Bytes} (hI : Implements s.obj E D) (R : List Bytes)
    (b : Bytes) (hR : GoodReg s.obj.blockSize R) (_hb : b.length = s.obj.blockSize) :
    Ofb.step (s.withReg R) b =
      .ok (s.withReg (regStep (maskG E) (ofbH E) R b).1, (regStep (maskG E) (ofbH E) R b).2) ∧
    GoodReg s.obj.blockSize (regStep (maskG E) (ofbH E) R b).1 := by
  have hl : (E (R.headD [])).length = s.obj.blockSize := hI.enc_len _ hR.head
  refine ⟨?_, hR.step _ hl⟩
  unfold Ofb.step
  simp only [Fb.withReg, getGamma_ok hI R hR, Res.bind_ok, Res.pure_eq]
  rw [take_self _ _ hl, hR.setInitVect _ hl]
  rfl

/-- The last short block. -/
theorem Fb.tail_ok (s : Fb) {E D : Bytes → Bytes} (hI : Implements s.obj E D) (R : List Bytes)
    (hR : GoodReg s.obj.blockSize R) (d out : Bytes) :
    Fb.tail d (s.withReg R, .ok out) =
      (s.withReg R, .ok (out ++ maskG E (R.headD []) (rest s.obj.blockSize d))) := by
  have hobj : (s.withReg R).obj = s.obj := rfl
  have hf : getFinalBlock s.obj.blockSize d = rest s.obj.blockSize d := by
    unfold getFinalBlock
    rw [pyFrom_nat]; rfl
  unfold Fb.tail finalCipher
  simp only [hobj]
  by_cases h : d.length % s.obj.blockSize = 0
  · have hr : rest s.obj.blockSize d = [] := rest_aligned _ _ (Nat.dvd_of_mod_eq_zero h)
    simp [h, hr, maskG]
  · rw [if_pos h, show (s.withReg R).iv = R.flatten from rfl, getGamma_ok hI R hR]
    simp only [Res.bind_ok, Res.pure_eq, hf]
    rfl

/-- The general form of a call in CFB and OFB. -/
theorem Fb.run_ok (s : Fb) {E D : Bytes → Bytes} (hI : Implements s.obj E D)
    (step : Fb → Bytes → Res (Fb × Bytes)) (h : Bytes → Bytes → Bytes)
    (hs : ∀ R b, GoodReg s.obj.blockSize R → b.length = s.obj.blockSize →
      step (s.withReg R) b = .ok (s.withReg (regStep (maskG E) h R b).1, (regStep (maskG E) h R b).2) ∧
      GoodReg s.obj.blockSize (regStep (maskG E) h R b).1)
    (R : List Bytes) (hR : GoodReg s.obj.blockSize R) (hiv : s.iv = R.flatten) (d : Bytes) :
    Fb.tail d (blockLoop step s.obj.blockSize d (List.range (getNumBlock s.obj.blockSize d)) s []) =
      (s.withReg (mapAccum (regStep (maskG E) h) R (blocks s.obj.blockSize d)).1,
       .ok ((mapAccum (regStep (maskG E) h) R (blocks s.obj.blockSize d)).2.flatten ++
         maskG E ((mapAccum (regStep (maskG E) h) R (blocks s.obj.blockSize d)).1.headD [])
           (rest s.obj.blockSize d))) := by
  have h1 := blockLoop_ok step s.withReg (GoodReg s.obj.blockSize) (regStep (maskG E) h)
    s.obj.blockSize hs d R hR
  have h2 : s.withReg R = s := by unfold Fb.withReg; rw [← hiv]
  rw [h2] at h1
  rw [h1]
  apply Fb.tail_ok s hI
  exact (mapAccum_mem (regStep (maskG E) h) (GoodReg s.obj.blockSize) s.obj.blockSize s.obj.blockSize
    (fun R b hR hb => ⟨(hs R b hR hb).2, by
      show (maskG E (R.headD []) b).length = _
      rw [maskG_length hI _ b hR.head (by omega), hb]⟩) R _ hR
    (fun b hb => mem_blocks_length hb)).1

theorem Cfb.encrypt_ok (s : Fb) {E D : Bytes → Bytes} (hI : Implements s.obj E D) (R : List Bytes)
    (hR : GoodReg s.obj.blockSize R) (hiv : s.iv = R.flatten) (v : PyVal) (d : Bytes)
    (hv : v.data? = some d) :
    Cfb.encrypt s v =
      (s.withReg (mapAccum (regStep (maskG E) (maskG E)) R (blocks s.obj.blockSize d)).1,
       .ok ((mapAccum (regStep (maskG E) (maskG E)) R (blocks s.obj.blockSize d)).2.flatten ++
         maskG E ((mapAccum (regStep (maskG E) (maskG E)) R (blocks s.obj.blockSize d)).1.headD [])
           (rest s.obj.blockSize d))) := by
  unfold Cfb.encrypt
  rw [hv]
  exact Fb.run_ok s hI _ _ (fun R b hR hb => Cfb.encStep_ok s hI R b hR hb) R hR hiv d

theorem Cfb.decrypt_ok (s : Fb) {E D : Bytes → Bytes} (hI : Implements s.obj E D) (R : List Bytes)
    (hR : GoodReg s.obj.blockSize R) (hiv : s.iv = R.flatten) (v : PyVal) (d : Bytes)
    (hv : v.data? = some d) :
    Cfb.decrypt s v =
      (s.withReg (mapAccum (regStep (maskG E) sndB) R (blocks s.obj.blockSize d)).1,
       .ok ((mapAccum (regStep (maskG E) sndB) R (blocks s.obj.blockSize d)).2.flatten ++
         maskG E ((mapAccum (regStep (maskG E) sndB) R (blocks s.obj.blockSize d)).1.headD [])
           (rest s.obj.blockSize d))) := by
  unfold Cfb.decrypt
  rw [hv]
  exact Fb.run_ok s hI _ _ (fun R b hR hb => Cfb.decStep_ok s hI R b hR hb) R hR hiv d

theorem Ofb.encrypt_ok (s : Fb) {E D : Bytes → Bytes} (hI : Implements s.obj E D) (R : List Bytes)
    (hR : GoodReg s.obj.blockSize R) (hiv : s.iv = R.flatten) (v : PyVal) (d : Bytes)
    (hv : v.data? = some d) :
    Ofb.encrypt s v =
      (s.withReg (mapAccum (regStep (maskG E) (ofbH E)) R (blocks s.obj.blockSize d)).1,
       .ok ((mapAccum (regStep (maskG E) (ofbH E)) R (blocks s.obj.blockSize d)).2.flatten ++
         maskG E ((mapAccum (regStep (maskG E) (ofbH E)) R (blocks s.obj.blockSize d)).1.headD [])
           (rest s.obj.blockSize d))) := by
  unfold Ofb.encrypt
  rw [hv]
  exact Fb.run_ok s hI _ _ (fun R b hR hb => Ofb.step_ok s hI R b hR hb) R hR hiv d

theorem Ofb.decrypt_eq (s : Fb) (v : PyVal) (d : Bytes) (hv : v.data? = some d) :
    Ofb.decrypt s v = Ofb.encrypt s v := by
  unfold Ofb.decrypt
  rw [hv]

/-! ### CTR -/

/-- The counter after one increment as the code does it: only the last byte changes. -/
def ctrNext (c : Bytes) : Bytes := c.set (c.length - 1) (c.getD (c.length - 1) 0 + 1)

theorem ctrNext_length (c : Bytes) : (ctrNext c).length = c.length := by simp [ctrNext]

theorem Ctr.incCtr_ok (bs : Nat) (hbs : 0 < bs) (c : Bytes) (hc : c.length = bs) :
    Ctr.incCtr bs c = .ok (ctrNext c) := by
  obtain ⟨n, rfl⟩ : ∃ n, bs = n + 1 := ⟨bs - 1, by omega⟩
  have bit_len : ((List.replicate (n + 1) (0 : UInt8)).set n 1).length = n + 1 := by simp
  have h1 : ∀ k ≤ n, ∃ x, (List.range k).foldlM (fun (st : Nat × Bytes) (i : Nat) => (do
      let c ← pyGet st.2 (i : Int)
      let b ← pyGet ((List.replicate (n + 1) (0 : UInt8)).set n 1) (i : Int)
      let internal := c.toNat + b.toNat + (st.1 <<< 8)
      pure (internal, st.2.set i (UInt8.ofNat (internal &&& 0xff))) : Res (Nat × Bytes))) (0, c)
        = .ok (x, c) := by
    intro k hk
    induction k with
    | zero => exact ⟨0, rfl⟩
    | succ k ih =>
      obtain ⟨x, hx⟩ := ih (by omega)
      rw [List.range_succ, List.foldlM_append, hx, Res.bind_ok, List.foldlM_cons]
      rw [pyGet_nat _ k (by simp only []; omega), Res.bind_ok,
        pyGet_nat _ k (by rw [bit_len]; omega), Res.bind_ok]
      have hb : ((List.replicate (n + 1) (0 : UInt8)).set n 1)[k]'(by rw [bit_len]; omega) = 0 := by
        rw [List.getElem_set_ne (by omega), List.getElem_replicate]
      simp only [hb, Res.pure_eq, Res.bind_ok, List.foldlM_nil]
      refine ⟨_, congrArg _ (Prod.ext rfl ?_)⟩
      simp only []
      have : UInt8.ofNat ((c[k]'(by omega)).toNat + (0 : UInt8).toNat + x <<< 8 &&& 255) = c[k]'(by omega) := by
        have hlt := (c[k]'(by omega)).toNat_lt
        rw [show (255 : Nat) = 2 ^ 8 - 1 from rfl, Nat.and_two_pow_sub_one_eq_mod, Nat.shiftLeft_eq]
        have : ((c[k]'(by omega)).toNat + (0 : UInt8).toNat + x * 2 ^ 8) % 2 ^ 8 = (c[k]'(by omega)).toNat := by
          have : (0 : UInt8).toNat = 0 := rfl
          omega
        rw [this, UInt8.ofNat_toNat]
      rw [this, List.set_getElem_self]
  obtain ⟨x, hx⟩ := h1 n (Nat.le_refl n)
  unfold Ctr.incCtr
  simp only [Nat.add_sub_cancel]
  rw [List.range_succ, List.foldlM_append, hx, Res.bind_ok, List.foldlM_cons,
    pyGet_nat _ n (by simp only []; omega), Res.bind_ok, pyGet_nat _ n (by rw [bit_len]; omega), Res.bind_ok]
  have hb : ((List.replicate (n + 1) (0 : UInt8)).set n 1)[n]'(by rw [bit_len]; omega) = 1 := by
    rw [List.getElem_set_self]
  simp only [hb, Res.pure_eq, Res.bind_ok, List.foldlM_nil]
  unfold ctrNext
  have hn : c.length - 1 = n := by omega
  rw [hn]
  have : UInt8.ofNat ((c[n]'(by omega)).toNat + (1 : UInt8).toNat + x <<< 8 &&& 255) = c.getD n 0 + 1 := by
    rw [show (255 : Nat) = 2 ^ 8 - 1 from rfl, Nat.and_two_pow_sub_one_eq_mod, Nat.shiftLeft_eq]
    have h2 : ((c[n]'(by omega)).toNat + (1 : UInt8).toNat + x * 2 ^ 8) % 2 ^ 8
        = ((c[n]'(by omega)).toNat + 1) % 2 ^ 8 := by
      have : (1 : UInt8).toNat = 1 := rfl
      omega
    rw [h2]
    have h3 : c.getD n 0 = c[n]'(by omega) := by simp [List.getD, List.getElem?_eq_getElem (show n < c.length by omega)]
    rw [h3]
    apply UInt8.toNat_inj.1
    simp
  rw [this]

/-- One step of the counter mode. -/
def ctrF (E : Bytes → Bytes) (c b : Bytes) : Bytes × Bytes := (ctrNext c, addXor b (E c))

/-- A state with the given counter. -/
def Ctr.withCtr (s : Ctr) (c : Bytes) : Ctr := { s with counter := c }

theorem Ctr.step_ok (s : Ctr) {E D : Bytes → Bytes} (hI : Implements s.obj E D) (c b : Bytes)
    (hc : c.length = s.obj.blockSize) :
    Ctr.step (s.withCtr c) b = .ok (s.withCtr (ctrF E c b).1, (ctrF E c b).2) ∧
      (ctrF E c b).1.length = s.obj.blockSize := by
  refine ⟨?_, by simp [ctrF, ctrNext_length, hc]⟩
  unfold Ctr.step Ctr.withCtr
  simp only [hI.enc c hc, Res.bind_ok, Ctr.incCtr_ok _ Implements.pos c hc, Res.pure_eq]
  rfl

/-- The blocks to be masked: the whole blocks and, if there is one, the short block. -/
def allBlocks (bs : Nat) (d : Bytes) : List Bytes :=
  blocks bs d ++ (if d.length % bs = 0 then [] else [rest bs d])

theorem Ctr.encrypt_ok (s : Ctr) {E D : Bytes → Bytes} (hI : Implements s.obj E D)
    (hc : s.counter.length = s.obj.blockSize) (v : PyVal) (d : Bytes) (hv : v.data? = some d) :
    s.encrypt v =
      (s.withCtr (mapAccum (ctrF E) s.counter (allBlocks s.obj.blockSize d)).1,
       .ok (mapAccum (ctrF E) s.counter (allBlocks s.obj.blockSize d)).2.flatten) := by
  unfold Ctr.encrypt
  rw [hv]
  simp only []
  have h1 := blockLoop_ok Ctr.step s.withCtr (fun c => c.length = s.obj.blockSize) (ctrF E)
    s.obj.blockSize (fun c b hc _ => Ctr.step_ok s hI c b hc) d s.counter hc
  have h2 : s.withCtr s.counter = s := rfl
  rw [h2] at h1
  rw [h1]
  simp only []
  have hcl : (mapAccum (ctrF E) s.counter (blocks s.obj.blockSize d)).1.length = s.obj.blockSize :=
    (mapAccum_mem (ctrF E) (fun c => c.length = s.obj.blockSize) s.obj.blockSize s.obj.blockSize
      (fun c b hc hb => ⟨by simp [ctrF, ctrNext_length, hc], by simp [ctrF, hb, hI.enc_len c hc]⟩)
      s.counter _ hc (fun b hb => mem_blocks_length hb)).1
  unfold allBlocks
  by_cases h : d.length % s.obj.blockSize = 0
  · simp [h]
  · simp only [h, not_false_eq_true, if_true, if_false, ne_eq]
    have hf : pyFrom d ((s.obj.blockSize * getNumBlock s.obj.blockSize d : Nat) : Int)
        = rest s.obj.blockSize d := by rw [pyFrom_nat]; rfl
    rw [hf, (Ctr.step_ok s hI _ _ hcl).1, mapAccum_append]
    simp [mapAccum]

theorem Ctr.decrypt_eq (s : Ctr) (v : PyVal) (d : Bytes) (hv : v.data? = some d) :
    s.decrypt v = s.encrypt v := by
  unfold Ctr.decrypt
  rw [hv]

end Gost
