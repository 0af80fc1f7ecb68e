import Verif.Proofs.Reach
import Verif.Spec.Omac

/-! The MAC mode: the state of an object as a function of the data accepted so far. -/

namespace Gost
open Spec (Alg blocks rest macChain)

/-! ### Auxiliary keys -/

theorem msb_eq_zero_iff : ∀ b : UInt8, b &&& 0x80 = 0 ↔ b.toNat < 128 := by
  intro b
  have h : ∀ n : Fin 256, (UInt8.ofNat n.val) &&& 0x80 = 0 ↔ n.val < 128 := by decide +kernel
  have := h ⟨b.toNat, b.toNat_lt⟩
  simpa using this

theorem msb_cons (b : UInt8) (l : Bytes) : msb (b :: l) = .ok (b &&& 0x80) := by
  simp [msb, pyGet, Res.bind_ok, Res.pure_eq]

theorem head_lt_iff (b : UInt8) (l : Bytes) (n : Nat) (h : (b :: l).length = n) :
    b.toNat < 128 ↔ Spec.beNat (b :: l) < 2 ^ (8 * n - 1) := by
  subst h
  have hl := beNat_lt l
  have e : 2 ^ (8 * (b :: l).length - 1) = 128 * 256 ^ l.length := by
    rw [show 8 * (b :: l).length - 1 = 7 + 8 * l.length by simp; omega, Nat.pow_add, Nat.pow_mul]
  rw [e]
  simp only [Spec.beNat]
  constructor
  · intro h
    calc b.toNat * 256 ^ l.length + Spec.beNat l < (b.toNat + 1) * 256 ^ l.length := by
          rw [Nat.add_mul]; omega
      _ ≤ 128 * 256 ^ l.length := Nat.mul_le_mul_right _ h
  · intro h
    refine Nat.lt_of_not_le fun hc => ?_
    have : 128 * 256 ^ l.length ≤ b.toNat * 256 ^ l.length := Nat.mul_le_mul_right _ (by omega)
    omega

theorem double_ok (n : Nat) (hn : 0 < n) (b v : Bytes) (hv : v.length = n)
    (hb : b = Spec.beBytes n (Spec.macB n)) :
    Mac.double n b v = .ok (Spec.macDouble n v) := by
  cases v with
  | nil => simp at hv; omega
  | cons x l =>
    have hlt := beNat_lt (x :: l)
    rw [hv] at hlt
    have h1 := head_lt_iff x l n hv
    have hpow : (2 : Nat) ^ (8 * n) = 256 ^ n := by rw [Nat.pow_mul]
    have hpow1 : (2 : Nat) ^ (8 * n) = 2 * 2 ^ (8 * n - 1) := by
      rw [← Nat.pow_succ']; congr 1; omega
    unfold Mac.double Spec.macDouble
    rw [msb_cons, Res.bind_ok, bytesToInt_eq]
    have hi : intToBytes (((Spec.beNat (x :: l) <<< 1 : Nat) : Int)) n =
        Spec.beBytes n (2 * Spec.beNat (x :: l)) := by
      rw [intToBytes_nat, Nat.shiftLeft_eq, Nat.mul_comm]
    simp only [msb_eq_zero_iff, h1]
    split
    · rw [hi]; rfl
    · rename_i h
      rw [hi, hb]
      have : Spec.beBytes n (2 * Spec.beNat (x :: l)) =
          Spec.beBytes n (2 * Spec.beNat (x :: l) - 2 ^ (8 * n)) := by
        rw [← beBytes_mod n n _ (Nat.le_refl _), ← hpow]
        congr 1
        rw [Nat.mod_eq_sub_mod (by omega), Nat.mod_eq_of_lt (by omega)]
      rw [this]
      rfl

theorem macDouble_length (n : Nat) (v : Bytes) : (Spec.macDouble n v).length = n := by
  unfold Spec.macDouble Spec.xor
  split <;> simp

theorem macB_bytes (a : Alg) :
    (if a.blockSize = 16 then b128 else if a.blockSize = 8 then b64 else []) =
      Spec.beBytes a.blockSize (Spec.macB a.blockSize) := by
  cases a <;> decide

theorem getMacKey_ok (a : Alg) (v : Bytes) (hv : v.length = a.blockSize) :
    Mac.getMacKey a.blockSize v =
      .ok (Spec.macDouble a.blockSize v, Spec.macDouble a.blockSize (Spec.macDouble a.blockSize v)) := by
  have hpos := Alg.blockSize_pos a
  unfold Mac.getMacKey
  simp only []
  rw [double_ok _ hpos _ v hv (macB_bytes a), Res.bind_ok,
    double_ok _ hpos _ _ (macDouble_length _ _) (macB_bytes a), Res.bind_ok]
  rfl

/-! ### The chain -/

theorem macChain_append (E : Bytes → Bytes) (c : Bytes) (P Q : List Bytes) :
    macChain E c (P ++ Q) = macChain E (macChain E c P) Q := by
  simp [macChain, List.foldl_append]

theorem macChain_length {o : CipherObj} {E D : Bytes → Bytes} (hI : Implements o E D) (c : Bytes)
    (P : List Bytes) (hc : c.length = o.blockSize) (hP : ∀ b ∈ P, b.length = o.blockSize) :
    (macChain E c P).length = o.blockSize := by
  induction P generalizing c with
  | nil => exact hc
  | cons p P ih =>
    refine ih _ (hI.enc_len _ ?_) (fun b hb => hP b (by simp [hb]))
    have := hP p (by simp)
    show (addXor p c).length = _
    rw [addXor_length, this, hc, Nat.min_self]

theorem chain_ok {o : CipherObj} {E D : Bytes → Bytes} (hI : Implements o E D) (data : Bytes)
    (is : List Nat) (c : Bytes) (hc : c.length = o.blockSize)
    (his : ∀ i ∈ is, (getBlock o.blockSize data i).length = o.blockSize) :
    Mac.chain o data is c = .ok (macChain E c (is.map (getBlock o.blockSize data))) := by
  induction is generalizing c with
  | nil => rfl
  | cons i is ih =>
    have hb := his i (by simp)
    have hx : (addXor c (getBlock o.blockSize data i)).length = o.blockSize := by
      rw [addXor_length, hb, hc, Nat.min_self]
    unfold Mac.chain
    rw [hI.enc _ hx, Res.bind_ok, ih _ (hI.enc_len _ hx) (fun j hj => his j (by simp [hj]))]
    simp only [List.map_cons, macChain, List.foldl_cons]
    rw [show Spec.xor (getBlock o.blockSize data i) c = addXor c (getBlock o.blockSize data i) from
      addXor_comm _ _]

theorem blocks_eq_map (bs : Nat) (data : Bytes) :
    blocks bs data = (List.range (data.length / bs)).map (getBlock bs data) := by
  simp [blocks, getBlock_eq]

/-- The blocks of data of at least one block: the last one apart. -/
theorem blocks_last (bs : Nat) (data : Bytes) (hbs : 0 < bs) (h : bs ≤ data.length) :
    blocks bs data = (List.range (data.length / bs - 1)).map (getBlock bs data) ++
      [(data.drop (bs * (data.length / bs - 1))).take bs] := by
  have hq : 0 < data.length / bs := Nat.div_pos h hbs
  rw [blocks_eq_map]
  conv => lhs; rw [show data.length / bs = (data.length / bs - 1) + 1 by omega]
  rw [List.range_succ, List.map_append, List.map_singleton, getBlock_eq]

/-! ### States -/

/-- The state of a MAC object which has accepted the data `M`. -/
def macState (o : CipherObj) (E : Bytes → Bytes) (k1 k2 M : Bytes) : Mac where
  obj := o
  key1 := k1
  key2 := k2
  finBuff := M.drop (o.blockSize * (M.length / o.blockSize - 1))
  iterBuf := rest o.blockSize M
  prevMac := if M ≠ [] ∧ M.length % o.blockSize = 0
    then macChain E (List.replicate o.blockSize 0) (blocks o.blockSize M).dropLast
    else macChain E (List.replicate o.blockSize 0) (blocks o.blockSize M)
  curMac := macChain E (List.replicate o.blockSize 0) (blocks o.blockSize M)

/-- What `update` does, in every state whose chaining value is a block: with less than one block
of buffered and new data it raises `IndexError`, otherwise all whole blocks are processed. -/
theorem Mac.update_val (s : Mac) {E D : Bytes → Bytes} (hI : Implements s.obj E D)
    (hc : s.curMac.length = s.obj.blockSize) (v : PyVal) (d : Bytes) (hv : v.data? = some d) :
    s.update v =
      if (s.iterBuf ++ d).length < s.obj.blockSize then (s, .error .indexError)
      else
        ({ s with
            curMac := macChain E s.curMac (blocks s.obj.blockSize (s.iterBuf ++ d))
            prevMac := if (s.iterBuf ++ d).length % s.obj.blockSize = 0
              then macChain E s.curMac (blocks s.obj.blockSize (s.iterBuf ++ d)).dropLast
              else macChain E s.curMac (blocks s.obj.blockSize (s.iterBuf ++ d))
            iterBuf := rest s.obj.blockSize (s.iterBuf ++ d)
            finBuff := (s.iterBuf ++ d).drop
              (s.obj.blockSize * ((s.iterBuf ++ d).length / s.obj.blockSize - 1)) }, .ok ()) := by
  have hpos : 0 < s.obj.blockSize := Implements.pos
  unfold Mac.update
  rw [hv]
  simp only []
  generalize s.iterBuf ++ d = data
  generalize hbs : s.obj.blockSize = bs at *
  by_cases hlt : data.length < bs
  · rw [if_pos hlt]
    have hq : getNumBlock bs data = 0 := Nat.div_eq_of_lt hlt
    rw [hq]
    simp only [Nat.zero_sub, List.range_zero, Mac.chain]
    have hp : getPadSize bs data = bs - data.length := by unfold getPadSize; rw [if_pos hlt]
    rw [hp, if_neg (by omega)]
    have hs : pySlice data ((data.length : Int) - 2 * bs + ((bs - data.length : Nat) : Int))
        ((data.length : Int) - bs + ((bs - data.length : Nat) : Int)) = [] := by
      rw [show (data.length : Int) - bs + ((bs - data.length : Nat) : Int) = ((0 : Nat) : Int) by omega]
      unfold pySlice
      simp only [sliceBound_nat]
      simp
    rw [hs]
    have : addXor s.curMac [] = [] := by simp [addXor]
    rw [this, hI.enc_short [] (by simp; omega)]
  · rw [if_neg hlt]
    have hge : bs ≤ data.length := by omega
    have hq : 0 < data.length / bs := Nat.div_pos hge hpos
    have hdm := Nat.div_add_mod data.length bs
    have hml := Nat.mod_lt data.length hpos
    have hbl := blocks_last bs data hpos hge
    have hmem : ∀ i ∈ List.range (data.length / bs - 1), (getBlock bs data i).length = bs := by
      intro i hi
      exact mem_blocks_length (n := bs) (d := data) (by
        rw [blocks_eq_map]
        exact List.mem_map_of_mem (List.mem_range.2 (by have := List.mem_range.1 hi; omega)))
    have hch := chain_ok hI data (List.range (data.length / bs - 1)) s.curMac (by rw [hbs]; exact hc)
      (by rw [hbs]; exact hmem)
    rw [hbs] at hch
    rw [getNumBlock_eq, hch]
    simp only []
    have hdl : (blocks bs data).dropLast = (List.range (data.length / bs - 1)).map (getBlock bs data) := by
      rw [hbl, List.dropLast_concat]
    have hlast : ((data.drop (bs * (data.length / bs - 1))).take bs).length = bs :=
      mem_blocks_length (n := bs) (d := data) (by rw [hbl]; simp)
    have hcl := macChain_length hI s.curMac ((List.range (data.length / bs - 1)).map (getBlock bs data))
      (by rw [hbs]; exact hc) (by
        rw [hbs]
        intro b hb
        obtain ⟨i, hi, rfl⟩ := List.mem_map.1 hb
        exact hmem i hi)
    rw [hbs] at hcl
    have hx : (addXor (macChain E s.curMac ((List.range (data.length / bs - 1)).map (getBlock bs data)))
        ((data.drop (bs * (data.length / bs - 1))).take bs)).length = bs := by
      rw [addXor_length, hlast, hcl, Nat.min_self]
    have hfull : macChain E s.curMac (blocks bs data) =
        E (addXor (macChain E s.curMac ((List.range (data.length / bs - 1)).map (getBlock bs data)))
          ((data.drop (bs * (data.length / bs - 1))).take bs)) := by
      rw [hbl, macChain_append, addXor_comm]
      rfl
    have hmul : bs * (data.length / bs - 1) = bs * (data.length / bs) - bs := by
      rw [Nat.mul_sub, Nat.mul_one]
    have hmul2 : bs ≤ bs * (data.length / bs) := Nat.le_mul_of_pos_right bs hq
    have hfin : pyFrom data ((bs : Int) * (((data.length / bs : Nat) : Int) - 1)) =
        data.drop (bs * (data.length / bs - 1)) := by
      rw [show (bs : Int) * (((data.length / bs : Nat) : Int) - 1) =
        ((bs * (data.length / bs - 1) : Nat) : Int) by
          rw [Int.natCast_mul]; congr 1; omega, pyFrom_nat]
    rw [hfin]
    by_cases h0 : data.length % bs = 0
    · have hp : getPadSize bs data = 0 := by unfold getPadSize; simp [hlt, h0]
      rw [hp, if_pos rfl]
      have hs : pySlice data ((data.length : Int) - bs) (data.length : Int) =
          (data.drop (bs * (data.length / bs - 1))).take bs := by
        rw [show (data.length : Int) - bs = ((bs * (data.length / bs - 1) : Nat) : Int) by omega,
          pySlice_nat, show data.length - bs * (data.length / bs - 1) = bs by omega]
      rw [hs, hI.enc _ (by rw [hbs]; exact hx)]
      simp only [hfull, h0, if_true, hdl]
      have hr : rest bs data = [] := rest_aligned bs data (Nat.dvd_of_mod_eq_zero h0)
      rw [hr]
    · have hp : getPadSize bs data = bs - data.length % bs := by unfold getPadSize; simp [hlt, h0]
      rw [hp, if_neg (by omega)]
      have e1 : (data.length : Int) - 2 * bs + ((bs - data.length % bs : Nat) : Int) =
          ((bs * (data.length / bs - 1) : Nat) : Int) := by omega
      have e2 : (data.length : Int) - bs + ((bs - data.length % bs : Nat) : Int) =
          ((bs * (data.length / bs) : Nat) : Int) := by omega
      rw [e1, e2, pySlice_nat, pyFrom_nat,
        show bs * (data.length / bs) - bs * (data.length / bs - 1) = bs by omega,
        hI.enc _ (by rw [hbs]; exact hx)]
      simp only [hfull, h0, if_false]
      rfl

/-- `update` on accepted data: the data is appended, unless less than a block is pending. -/
theorem update_macState (o : CipherObj) {E D : Bytes → Bytes} (hI : Implements o E D)
    (k1 k2 M : Bytes) (v : PyVal) (d : Bytes) (hv : v.data? = some d) :
    (macState o E k1 k2 M).update v =
      if M.length % o.blockSize + d.length < o.blockSize then
        (macState o E k1 k2 M, .error .indexError)
      else (macState o E k1 k2 (M ++ d), .ok ()) := by
  have hpos : 0 < o.blockSize := Implements.pos
  have hc : (macState o E k1 k2 M).curMac.length = o.blockSize :=
    macChain_length hI _ _ (by simp) (fun b hb => mem_blocks_length hb)
  rw [Mac.update_val (macState o E k1 k2 M) hI hc v d hv]
  have hl : ((macState o E k1 k2 M).iterBuf ++ d).length = M.length % o.blockSize + d.length := by
    simp [macState, rest_length]
  have hob : (macState o E k1 k2 M).obj = o := rfl
  rw [hl, hob]
  by_cases hlt : M.length % o.blockSize + d.length < o.blockSize
  · rw [if_pos hlt, if_pos hlt]
  · rw [if_neg hlt, if_neg hlt]
    have hM := flatten_blocks_rest o.blockSize hpos M
    have hMd : M ++ d = (blocks o.blockSize M).flatten ++ (rest o.blockSize M ++ d) := by
      rw [← List.append_assoc, hM]
    have hbl := blocks_flatten_append o.blockSize hpos (blocks o.blockSize M)
      (fun b hb => mem_blocks_length hb) (rest o.blockSize M ++ d)
    have hre := rest_flatten_append o.blockSize hpos (blocks o.blockSize M)
      (fun b hb => mem_blocks_length hb) (rest o.blockSize M ++ d)
    rw [← hMd] at hbl hre
    have hfl := flatten_length_const o.blockSize (blocks o.blockSize M) (fun b hb => mem_blocks_length hb)
    rw [blocks_length] at hfl
    have hdm := Nat.div_add_mod M.length o.blockSize
    have hlen : (M ++ d).length = o.blockSize * (M.length / o.blockSize) +
        (M.length % o.blockSize + d.length) := by
      rw [List.length_append]; omega
    have hdiv : (M ++ d).length / o.blockSize =
        M.length / o.blockSize + (M.length % o.blockSize + d.length) / o.blockSize := by
      rw [hlen, Nat.mul_add_div hpos]
    have hmod : (M ++ d).length % o.blockSize = (M.length % o.blockSize + d.length) % o.blockSize := by
      rw [hlen, Nat.mul_add_mod]
    have hq : 0 < (M.length % o.blockSize + d.length) / o.blockSize := Nat.div_pos (by omega) hpos
    have hne : M ++ d ≠ [] := by
      intro h
      have := congrArg List.length h
      rw [List.length_append, List.length_nil] at this
      have h0 : M.length = 0 := by omega
      rw [h0, Nat.zero_mod] at hlt
      omega
    have hbne : blocks o.blockSize (rest o.blockSize M ++ d) ≠ [] := by
      intro h
      have := blocks_length o.blockSize (rest o.blockSize M ++ d)
      rw [h, List.length_append, rest_length] at this
      simp at this
      omega
    have hfin : (M ++ d).drop (o.blockSize * ((M ++ d).length / o.blockSize - 1)) =
        (rest o.blockSize M ++ d).drop
          (o.blockSize * ((M.length % o.blockSize + d.length) / o.blockSize - 1)) := by
      rw [hdiv, show M.length / o.blockSize + (M.length % o.blockSize + d.length) / o.blockSize - 1 =
        M.length / o.blockSize + ((M.length % o.blockSize + d.length) / o.blockSize - 1) from Nat.add_sub_assoc hq _,
        Nat.mul_add, ← hfl, ← List.drop_drop, hMd, List.drop_left' rfl]
    unfold macState
    simp only [hbl, hre, hfin, hmod, macChain_append, hne, ne_eq, not_false_eq_true, true_and,
      List.dropLast_append_of_ne_nil hbne]

/-! ### The final step -/

/-- The lengths in every state of a MAC object. -/
structure Mac.Inv (s : Mac) : Prop where
  good : s.obj.Good
  k1 : s.key1.length = s.obj.blockSize
  k2 : s.key2.length = s.obj.blockSize
  prev : s.prevMac.length = s.obj.blockSize
  cur : s.curMac.length = s.obj.blockSize
  iter : s.iterBuf.length < s.obj.blockSize
  fin : s.finBuff = [] ∨ s.obj.blockSize ≤ s.finBuff.length
  fin2 : s.finBuff.length < 2 * s.obj.blockSize

theorem setPadMode3_eq (bs : Nat) (t : Bytes) (ht : t.length < bs) :
    Mac.setPadMode3 bs t = t ++ 0x80 :: List.replicate (bs - 1 - t.length) 0 := by
  have hp : getPadSize bs t = bs - t.length := by unfold getPadSize; rw [if_pos ht]
  unfold Mac.setPadMode3
  rw [hp, if_neg (by omega)]
  have : ((bs - t.length : Nat) : Int) - 1 = ((bs - 1 - t.length : Nat) : Int) := by omega
  rw [this, zeros, Int.toNat_natCast]
  simp

theorem Mac.macFinal_ok (s : Mac) {E D : Bytes → Bytes} (hI : Implements s.obj E D) (h : s.Inv) :
    s.macFinal =
      if s.finBuff.length = s.obj.blockSize then
        (s, .ok (E (addXor (addXor s.finBuff s.prevMac) s.key1)))
      else
        ({ s with finBuff := s.finBuff.drop s.obj.blockSize ++ 0x80 ::
            List.replicate (s.obj.blockSize - 1 - (s.finBuff.length - s.obj.blockSize)) 0 },
         .ok (E (addXor (addXor (s.finBuff.drop s.obj.blockSize ++ 0x80 ::
            List.replicate (s.obj.blockSize - 1 - (s.finBuff.length - s.obj.blockSize)) 0)
            s.prevMac) s.key2))) := by
  have hpos : 0 < s.obj.blockSize := Implements.pos
  have hf2 := h.fin2
  have hf : s.finBuff.length = 0 ∨ s.obj.blockSize ≤ s.finBuff.length := by
    rcases h.fin with h | h
    · exact Or.inl (by rw [h]; rfl)
    · exact Or.inr h
  by_cases heq : s.finBuff.length = s.obj.blockSize
  · rw [if_pos heq]
    have hp : getPadSize s.obj.blockSize s.finBuff = 0 := by
      unfold getPadSize; simp [heq]
    unfold Mac.macFinal
    simp only [hp, if_true]
    rw [hI.enc _ (by rw [addXor_length, addXor_length, heq, h.prev, h.k1]; simp)]
  · rw [if_neg heq]
    have hp : getPadSize s.obj.blockSize s.finBuff ≠ 0 := by
      unfold getPadSize
      by_cases hlt : s.finBuff.length < s.obj.blockSize
      · rw [if_pos hlt]; omega
      · rw [if_neg hlt]
        have hm := Nat.mod_lt s.finBuff.length hpos
        have : s.finBuff.length % s.obj.blockSize = s.finBuff.length - s.obj.blockSize := by
          rw [Nat.mod_eq_sub_mod (by omega), Nat.mod_eq_of_lt (by omega)]
        rw [if_neg (by rw [this]; simp; omega)]
        omega
    unfold Mac.macFinal
    simp only [hp, if_false]
    rw [pyFrom_nat, setPadMode3_eq _ _ (by rw [List.length_drop]; omega), List.length_drop]
    rw [hI.enc _ (by
      rw [addXor_length, addXor_length, h.prev, h.k2, List.length_append, List.length_drop,
        List.length_cons, List.length_replicate]
      omega)]

theorem Mac.Inv.macFinal {s : Mac} (h : s.Inv) : s.macFinal.1.Inv := by
  have hpos : 0 < s.obj.blockSize := Implements.pos
  rw [Mac.macFinal_ok s h.good.implements h]
  have hf2 := h.fin2
  split
  · exact h
  · have hl : (s.finBuff.drop s.obj.blockSize ++ (0x80 : UInt8) ::
        List.replicate (s.obj.blockSize - 1 - (s.finBuff.length - s.obj.blockSize)) 0).length =
        s.obj.blockSize := by
      rw [List.length_append, List.length_drop, List.length_cons, List.length_replicate]
      omega
    exact ⟨h.good, h.k1, h.k2, h.prev, h.cur, h.iter, Or.inr (Nat.le_of_eq hl.symm),
      by show List.length _ < _; rw [hl]; simp only []; omega⟩

/-- The digest of every size up to the block size succeeds. -/
theorem Mac.digest_ok (s : Mac) (h : s.Inv) : ∃ r, s.macFinal.2 = .ok r ∧ r.length = s.obj.blockSize := by
  have hI := h.good.implements
  have hf2 := h.fin2
  have hpos : 0 < s.obj.blockSize := Implements.pos
  rw [Mac.macFinal_ok s hI h]
  split
  · next heq =>
    exact ⟨_, rfl, hI.enc_len _ (by rw [addXor_length, addXor_length, heq, h.prev, h.k1]; simp)⟩
  · refine ⟨_, rfl, hI.enc_len _ ?_⟩
    rw [addXor_length, addXor_length, h.prev, h.k2, List.length_append, List.length_drop,
      List.length_cons, List.length_replicate]
    omega

theorem macState_inv (o : CipherObj) (hg : o.Good) {E D : Bytes → Bytes} (hI : Implements o E D)
    (k1 k2 M : Bytes) (h1 : k1.length = o.blockSize) (h2 : k2.length = o.blockSize)
    (hM : M = [] ∨ o.blockSize ≤ M.length) : (macState o E k1 k2 M).Inv := by
  have hpos : 0 < o.blockSize := Implements.pos
  have hdm := Nat.div_add_mod M.length o.blockSize
  have hml := Nat.mod_lt M.length hpos
  have hmul : o.blockSize * (M.length / o.blockSize - 1) =
      o.blockSize * (M.length / o.blockSize) - o.blockSize := by rw [Nat.mul_sub, Nat.mul_one]
  have hz : (List.replicate o.blockSize (0 : UInt8)).length = o.blockSize := by simp
  have hb : ∀ b ∈ blocks o.blockSize M, b.length = o.blockSize := fun b hb => mem_blocks_length hb
  refine ⟨hg, h1, h2, ?_, macChain_length hI _ _ hz hb, ?_, ?_, ?_⟩
  · simp only [macState]
    split
    · exact macChain_length hI _ _ hz (fun b h => hb b (List.dropLast_subset _ h))
    · exact macChain_length hI _ _ hz hb
  · simp only [macState, rest_length]; exact hml
  · rcases hM with rfl | hM
    · left; simp [macState]
    · right
      have hq : o.blockSize ≤ o.blockSize * (M.length / o.blockSize) :=
        Nat.le_mul_of_pos_right _ (Nat.div_pos hM hpos)
      simp only [macState, List.length_drop]
      omega
  · simp only [macState, List.length_drop]
    omega

/-- The final step on accepted data is the MAC of the standard. -/
theorem macFinal_macState (o : CipherObj) (hg : o.Good) {E D : Bytes → Bytes} (hI : Implements o E D)
    (M : Bytes) (hM : M = [] ∨ o.blockSize ≤ M.length) :
    (macState o E (Spec.macKey1 E o.blockSize) (Spec.macKey2 E o.blockSize) M).macFinal.2 =
      .ok (Spec.omac E o.blockSize M) := by
  have hpos : 0 < o.blockSize := Implements.pos
  have hinv := macState_inv o hg hI (Spec.macKey1 E o.blockSize) (Spec.macKey2 E o.blockSize) M
    (macDouble_length _ _) (macDouble_length _ _) hM
  rw [Mac.macFinal_ok _ hI hinv]
  have hdm := Nat.div_add_mod M.length o.blockSize
  have hml := Nat.mod_lt M.length hpos
  have hmul : o.blockSize * (M.length / o.blockSize - 1) =
      o.blockSize * (M.length / o.blockSize) - o.blockSize := by rw [Nat.mul_sub, Nat.mul_one]
  have hfl : (macState o E (Spec.macKey1 E o.blockSize) (Spec.macKey2 E o.blockSize) M).finBuff.length =
      M.length - o.blockSize * (M.length / o.blockSize - 1) := by simp [macState]
  have hob : (macState o E (Spec.macKey1 E o.blockSize) (Spec.macKey2 E o.blockSize) M).obj = o := rfl
  rw [hfl, hob]
  unfold Spec.omac
  rcases hM with rfl | hM
  · rw [if_neg (by simp; omega), if_neg (by simp)]
    simp only [macState, List.length_nil, Nat.zero_mod, ne_eq, not_true_eq_false, false_and, if_false,
      List.drop_nil, List.nil_append, Nat.zero_div, Nat.zero_sub, Nat.sub_zero]
    have : rest o.blockSize [] = [] := by simp [rest]
    rw [this]
    rfl
  · have hq : o.blockSize ≤ o.blockSize * (M.length / o.blockSize) :=
      Nat.le_mul_of_pos_right _ (Nat.div_pos hM hpos)
    have hne : M ≠ [] := by rintro rfl; simp at hM; omega
    have hbl := blocks_last o.blockSize M hpos hM
    by_cases h0 : M.length % o.blockSize = 0
    · rw [if_pos (by omega), if_pos ⟨hne, h0⟩]
      simp only [macState, if_pos (show M ≠ [] ∧ M.length % o.blockSize = 0 from ⟨hne, h0⟩)]
      have : M.drop (o.blockSize * (M.length / o.blockSize - 1)) = (blocks o.blockSize M).getLastD [] := by
        rw [hbl]
        simp only [List.getLastD_concat]
        rw [List.take_of_length_le (by rw [List.length_drop]; omega)]
      rw [this]
      rfl
    · rw [if_neg (by omega), if_neg (by simp [h0])]
      simp only [macState, h0, and_false, if_false]
      rw [List.drop_drop, show o.blockSize * (M.length / o.blockSize - 1) + o.blockSize =
        o.blockSize * (M.length / o.blockSize) by omega,
        show M.length - o.blockSize * (M.length / o.blockSize - 1) - o.blockSize =
          M.length % o.blockSize by omega]
      rfl

/-! ### Construction -/

theorem PyVal.isEmpty_iff {v : PyVal} {d : Bytes} (hv : v.data? = some d) :
    v.isEmpty = true ↔ d = [] := by
  cases v <;> simp_all [PyVal.data?, PyVal.isEmpty]

theorem macState_nil (o : CipherObj) (E : Bytes → Bytes) (k1 k2 : Bytes) :
    macState o E k1 k2 [] = ⟨o, k1, k2, [], [], zeros o.blockSize, zeros o.blockSize⟩ := by
  simp [macState, blocks_nil, macChain, rest, zeros]

theorem new_mac (a : Alg) (kv : PyVal) (key : Bytes) (hk : kv.data? = some key)
    (hl : key.length = 32) (pad : Option Int) (iv : Option PyVal) :
    ∃ o D, o.Good ∧ o.blockSize = a.blockSize ∧ Implements o (a.encrypt key) D ∧
      (∀ dat : Option PyVal, (dat.getD (.bytearray [])).data? = some [] →
        newCipher a.name kv modeMac pad iv dat = .ok (.mac (macState o (a.encrypt key)
          (Spec.macKey1 (a.encrypt key) o.blockSize) (Spec.macKey2 (a.encrypt key) o.blockSize) []))) ∧
      (∀ (dv : PyVal) (d : Bytes), dv.data? = some d → d ≠ [] →
        newCipher a.name kv modeMac pad iv (some dv) =
          if d.length < o.blockSize then .error .indexError
          else .ok (.mac (macState o (a.encrypt key)
            (Spec.macKey1 (a.encrypt key) o.blockSize) (Spec.macKey2 (a.encrypt key) o.blockSize) d))) := by
  obtain ⟨o, D, h1, h2, h3, hI⟩ := baseInit_implements a kv key hk hl
  have hz : (zeros (o.blockSize : Nat)).length = o.blockSize := by simp [zeros]
  have hR := hI.enc_len _ hz
  have hmk := getMacKey_ok a (a.encrypt key (zeros (o.blockSize : Nat))) (by rw [hR, h3])
  have hzr : zeros (o.blockSize : Nat) = List.replicate o.blockSize 0 := by simp [zeros]
  rw [← h3] at hmk
  refine ⟨o, D, h2, h3, hI, ?_, ?_⟩
  · intro dat hd
    unfold newCipher
    rw [if_neg (by decide), if_neg (by decide), if_neg (by decide), if_neg (by decide),
      if_neg (by decide), if_pos rfl]
    unfold Mac.init
    rw [h1]
    simp only [Res.bind_ok, hI.enc _ hz, hmk, (PyVal.isEmpty_iff hd).2 rfl, if_true, Res.pure_eq]
    rw [macState_nil]
    simp only [Spec.macKey1, Spec.macKey2, hzr]
  · intro dv d hd hne
    have hem : dv.isEmpty = false := by
      cases h : dv.isEmpty with
      | false => rfl
      | true => exact absurd ((PyVal.isEmpty_iff hd).1 h) hne
    unfold newCipher
    rw [if_neg (by decide), if_neg (by decide), if_neg (by decide), if_neg (by decide),
      if_neg (by decide), if_pos rfl]
    unfold Mac.init
    rw [h1]
    simp only [Res.bind_ok, hI.enc _ hz, hmk, Option.getD_some, hem, Bool.false_eq_true, if_false]
    have hst : (⟨o, Spec.macDouble o.blockSize (a.encrypt key (zeros (o.blockSize : Nat))),
        Spec.macDouble o.blockSize (Spec.macDouble o.blockSize (a.encrypt key (zeros (o.blockSize : Nat)))),
        [], [], zeros (o.blockSize : Nat), zeros (o.blockSize : Nat)⟩ : Mac) =
        macState o (a.encrypt key) (Spec.macKey1 (a.encrypt key) o.blockSize)
          (Spec.macKey2 (a.encrypt key) o.blockSize) [] := by
      rw [macState_nil]
      simp only [Spec.macKey1, Spec.macKey2, hzr]
    rw [hst, update_macState o hI _ _ [] dv d hd]
    simp only [List.length_nil, Nat.zero_mod, Nat.zero_add, List.nil_append]
    by_cases hlt : d.length < o.blockSize
    · simp only [if_pos hlt]; rfl
    · simp only [if_neg hlt]; rfl

/-! ### Reachable objects -/

theorem Mac.Inv.update {s : Mac} (h : s.Inv) (v : PyVal) : (s.update v).1.Inv := by
  have hI := h.good.implements
  have hpos : 0 < s.obj.blockSize := Implements.pos
  cases hv : v.data? with
  | none =>
    have : s.update v = (s.clear, .error (.cipherError "GOSTCipherError: invalid text data")) := by
      unfold Mac.update; rw [hv]
    rw [this]
    have hb : s.clear.obj.blockSize = s.obj.blockSize := CipherObj.clear_blockSize _
    exact ⟨h.good.clear, by rw [hb]; exact h.k1, by rw [hb]; exact h.k2, by rw [hb]; exact h.prev,
      by rw [hb]; exact h.cur, by rw [hb]; exact h.iter, by rw [hb]; exact h.fin,
      by rw [hb]; exact h.fin2⟩
  | some d =>
    rw [Mac.update_val s hI h.cur v d hv]
    split
    · exact h
    · rename_i hlt
      generalize s.iterBuf ++ d = data at hlt
      have hdm := Nat.div_add_mod data.length s.obj.blockSize
      have hml := Nat.mod_lt data.length hpos
      have hmul : s.obj.blockSize * (data.length / s.obj.blockSize - 1) =
        s.obj.blockSize * (data.length / s.obj.blockSize) - s.obj.blockSize := by
          rw [Nat.mul_sub, Nat.mul_one]
      have hq : s.obj.blockSize ≤ s.obj.blockSize * (data.length / s.obj.blockSize) :=
        Nat.le_mul_of_pos_right _ (Nat.div_pos (by omega) hpos)
      have hb : ∀ b ∈ blocks s.obj.blockSize data, b.length = s.obj.blockSize :=
        fun b hb => mem_blocks_length hb
      refine ⟨h.good, h.k1, h.k2, ?_, macChain_length hI _ _ h.cur hb, ?_, ?_, ?_⟩
      · simp only []
        split
        · exact macChain_length hI _ _ h.cur (fun b h => hb b (List.dropLast_subset _ h))
        · exact macChain_length hI _ _ h.cur hb
      · simp only [rest_length]; exact hml
      · right; simp only [List.length_drop]; omega
      · simp only [List.length_drop]; omega

theorem Mac.Inv.clear {s : Mac} (h : s.Inv) : s.clear.Inv := by
  have hb : s.clear.obj.blockSize = s.obj.blockSize := CipherObj.clear_blockSize _
  exact ⟨h.good.clear, by rw [hb]; exact h.k1, by rw [hb]; exact h.k2, by rw [hb]; exact h.prev,
    by rw [hb]; exact h.cur, by rw [hb]; exact h.iter, by rw [hb]; exact h.fin,
    by rw [hb]; exact h.fin2⟩

theorem Mac.digest_state (s : Mac) (n : Int) : (s.digest n).1 = s := by
  unfold Mac.digest
  simp only []
  split <;> rfl

theorem Mac.hexdigest_eq (s : Mac) (n : Int) :
    s.hexdigest n = ((s.digest n).1, (s.digest n).2 >>= fun r => pure (pyHex r)) := rfl

theorem update_other (s : Mac) (v : PyVal) (hv : v.data? = none) :
    s.update v = (s.clear, .error (.cipherError "GOSTCipherError: invalid text data")) := by
  unfold Mac.update; rw [hv]

/-- What a successful `new` in MAC mode was given. -/
theorem new_mac_inv {alg : String} {kv : PyVal} {mode : Int} {pad : Option Int}
    {iv dat : Option PyVal} {s : Mac} (h : newCipher alg kv mode pad iv dat = .ok (.mac s)) :
    mode = modeMac ∧ ∃ (a : Alg) (key d : Bytes), alg = a.name ∧ kv.data? = some key ∧
      key.length = 32 ∧ (dat.getD (.bytearray [])).data? = some d := by
  rcases newCipher_inv h with ⟨t, _, h, _⟩ | ⟨t, _, h, _⟩ | ⟨t, _, h, _⟩ | ⟨t, _, h, _⟩ | ⟨t, _, h, _⟩ |
    ⟨t, hm, h, hi⟩
  · cases h
  · cases h
  · cases h
  · cases h
  · cases h
  cases h
  refine ⟨hm, ?_⟩
  unfold Mac.init at hi
  obtain ⟨o, hb, hi1⟩ := Res.bind_eq_ok hi
  clear hi
  obtain ⟨a, key, ha, hk, hl⟩ := baseInit_inv hb
  subst ha
  obtain ⟨r, hr, hi2⟩ := Res.bind_eq_ok hi1
  clear hi1
  obtain ⟨k12, hk12, hi⟩ := Res.bind_eq_ok hi2
  clear hi2
  obtain ⟨k1, k2⟩ := k12
  generalize dat.getD (.bytearray []) = dv at hi ⊢
  cases hd : dv.data? with
  | some d => exact ⟨a, key, d, rfl, hk, hl, rfl⟩
  | none =>
    exfalso
    have hem : dv.isEmpty = false := by
      cases dv with
      | bytes b => cases hd
      | bytearray b => cases hd
      | other => rfl
    simp only [hem, Bool.false_eq_true, if_false, update_other _ dv hd] at hi
    cases hi

theorem Mac.Reachable.inv {s : Mac} (h : Mac.Reachable s) : s.Inv := by
  induction h with
  | @new alg key mode pad iv dat s h =>
    obtain ⟨rfl, a, k, d, rfl, hk, hl, hd⟩ := new_mac_inv h
    obtain ⟨o, D, hg, hbs, hI, h1, h2⟩ := new_mac a key k hk hl pad iv
    by_cases h0 : d = []
    · subst h0
      rw [h1 dat hd] at h
      cases h
      exact macState_inv o hg hI _ _ [] (macDouble_length _ _) (macDouble_length _ _) (Or.inl rfl)
    · cases dat with
      | none => simp [PyVal.data?] at hd; exact absurd hd h0
      | some dv =>
        rw [h2 dv d hd h0] at h
        split at h
        · cases h
        · next hlt =>
          cases h
          exact macState_inv o hg hI _ _ d (macDouble_length _ _) (macDouble_length _ _)
            (Or.inr (by omega))
  | update v _ ih => exact ih.update v
  | digest n _ ih => rw [Mac.digest_state]; exact ih
  | hexdigest n _ ih => rw [Mac.hexdigest_eq]; simp only [Mac.digest_state]; exact ih
  | macFinal _ ih => exact ih.macFinal
  | clear _ ih => exact ih.clear

theorem Mac.digest_eq (s : Mac) (n : Int) (r : Bytes) (h : s.macFinal.2 = .ok r)
    (hn : n ≤ s.obj.blockSize) : s.digest n = (s, .ok (pyUpto r n)) := by
  unfold Mac.digest
  simp only []
  rw [if_neg (by omega), h, Res.bind_ok, Res.pure_eq]

end Gost
