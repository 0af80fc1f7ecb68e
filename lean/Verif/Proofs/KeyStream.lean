import Verif.Proofs.RoundTrip
import Verif.Proofs.Reach
import Verif.Proofs.Stream

/-! The keystream of OFB and CTR as a sequence of bytes, and the inverse round trips. -/

namespace Gost
open Spec (blocks rest)

/-- Byte `i` of a sequence of blocks of `bs` bytes. -/
def gammaByte (bs : Nat) (K : Nat → Bytes) (i : Nat) : UInt8 := (K (i / bs)).getD (i % bs) 0

theorem flatten_gamma (bs : Nat) (hbs : 0 < bs) (K : Nat → Bytes) (hK : ∀ j, (K j).length = bs)
    (k : Nat) :
    ((List.range k).map K).flatten = (List.range (bs * k)).map (gammaByte bs K) := by
  induction k with
  | zero => simp
  | succ k ih =>
    rw [List.range_succ, List.map_append, List.flatten_append, ih, Nat.mul_succ, List.range_add,
      List.map_append, List.map_cons, List.map_nil, List.flatten_singleton, List.map_map]
    congr 1
    apply List.ext_getElem
    · simp [hK]
    · intro i h1 h2
      rw [hK] at h1
      simp only [List.getElem_map, List.getElem_range, Function.comp, gammaByte]
      rw [Nat.mul_add_div hbs, Nat.div_eq_of_lt h1, Nat.add_zero, Nat.mul_add_mod,
        Nat.mod_eq_of_lt h1]
      simp [List.getD, List.getElem?_eq_getElem (show i < (K k).length by rw [hK]; exact h1)]

theorem addXor_gamma (bs : Nat) (hbs : 0 < bs) (K : Nat → Bytes) (hK : ∀ j, (K j).length = bs)
    (k : Nat) (d : Bytes) (hd : d.length ≤ bs * k) :
    addXor d ((List.range k).map K).flatten =
      addXor d ((List.range d.length).map (gammaByte bs K)) := by
  rw [flatten_gamma bs hbs K hK, addXor_comm d, addXor_comm d,
    ← addXor_take _ d d.length (Nat.le_refl _), ← List.map_take, List.take_range,
    Nat.min_eq_left hd]

theorem GoodReg.flatten_ne {bs : Nat} {R : List Bytes} (h : GoodReg bs R) (hbs : 0 < bs) :
    R.flatten ≠ [] := by
  intro h0
  have := h.flatten_length
  rw [h0] at this
  rcases Nat.mul_eq_zero.1 this.symm with h' | h'
  · omega
  · exact h.1 (List.eq_nil_of_length_eq_zero h')

/-- The register of OFB after `i` steps. -/
def ofbReg (E : Bytes → Bytes) (R : List Bytes) : Nat → List Bytes
  | 0 => R
  | i + 1 => ofbReg E (R.tail ++ [E (R.headD [])]) i

theorem ofbReg_good {o : CipherObj} {E D : Bytes → Bytes} (hI : Implements o E D) (R : List Bytes)
    (hR : GoodReg o.blockSize R) (i : Nat) : GoodReg o.blockSize (ofbReg E R i) := by
  induction i generalizing R with
  | zero => exact hR
  | succ i ih => exact ih _ (hR.step _ (hI.enc_len _ hR.head))

theorem ofbReg_run (E : Bytes → Bytes) (R l : List Bytes) :
    (mapAccum (regStep (maskG E) (ofbH E)) R l).1 = ofbReg E R l.length ∧
    (mapAccum (regStep (maskG E) (ofbH E)) R l).2 =
      List.zipWith addXor l ((List.range l.length).map fun i => E ((ofbReg E R i).headD [])) := by
  induction l generalizing R with
  | nil => simp [mapAccum, ofbReg]
  | cons b l ih =>
    have h := ih (R.tail ++ [E (R.headD [])])
    simp only [mapAccum]
    refine ⟨h.1, ?_⟩
    rw [List.length_cons, List.range_succ_eq_map, List.map_cons, List.zipWith_cons_cons]
    congr 1
    · exact addXor_comm _ _
    · rw [List.map_map]
      exact h.2

theorem Ofb.encrypt_stream (s : Fb) {E D : Bytes → Bytes} (hI : Implements s.obj E D)
    (R : List Bytes) (hR : GoodReg s.obj.blockSize R) (hiv : s.iv = R.flatten) (v : PyVal)
    (d : Bytes) (hv : v.data? = some d) :
    Ofb.encrypt s v =
      (s.withReg (ofbReg E R (d.length / s.obj.blockSize)),
       .ok (addXor d ((List.range d.length).map
         (gammaByte s.obj.blockSize fun i => E ((ofbReg E R i).headD []))))) := by
  have hpos : 0 < s.obj.blockSize := Implements.pos
  have hK : ∀ j, (E ((ofbReg E R j).headD [])).length = s.obj.blockSize :=
    fun j => hI.enc_len _ (ofbReg_good hI R hR j).head
  rw [Ofb.encrypt_ok s hI R hR hiv v d hv]
  obtain ⟨h1, h2⟩ := ofbReg_run E R (blocks s.obj.blockSize d)
  rw [h1, h2, blocks_length]
  congr 2
  rw [← addXor_gamma s.obj.blockSize hpos _ hK (d.length / s.obj.blockSize + 1) d
    (by rw [Nat.mul_succ]; have := Nat.div_add_mod d.length s.obj.blockSize
        have := Nat.mod_lt d.length hpos; omega)]
  have hbl : (blocks s.obj.blockSize d).length = d.length / s.obj.blockSize := blocks_length _ _
  generalize d.length / s.obj.blockSize = q at hbl ⊢
  conv => rhs; rw [← flatten_blocks_rest s.obj.blockSize hpos d]
  rw [List.range_succ, List.map_append, List.flatten_append, addXor_append,
    addXor_flatten_zip _ _ s.obj.blockSize]
  · simp only [List.map_cons, List.map_nil, List.flatten_singleton, maskG]
    rw [addXor_comm (rest _ _)]
  · intro k hk
    obtain ⟨i, _, rfl⟩ := List.mem_map.1 hk
    exact hK i
  · simp [hbl]
  · intro b hb
    exact mem_blocks_length ((List.dropLast_sublist _).mem hb)
  · intro b hb
    exact Nat.le_of_eq (mem_blocks_length hb)
  · rw [flatten_length_const s.obj.blockSize _ (fun b hb => mem_blocks_length hb), hbl,
      flatten_length_const s.obj.blockSize]
    · simp
    · intro k hk
      obtain ⟨i, _, rfl⟩ := List.mem_map.1 hk
      exact hK i

theorem Ctr.encrypt_gamma (s : Ctr) {E D : Bytes → Bytes} (hI : Implements s.obj E D)
    (hc : s.counter.length = s.obj.blockSize) (v : PyVal) (d : Bytes) (hv : v.data? = some d) :
    s.encrypt v =
      (s.withCtr (ctrAt s.counter ((d.length + s.obj.blockSize - 1) / s.obj.blockSize)),
       .ok (addXor d ((List.range d.length).map
         (gammaByte s.obj.blockSize fun i => E (ctrAt s.counter i))))) := by
  have hpos : 0 < s.obj.blockSize := Implements.pos
  rw [Ctr.encrypt_stream s hI hc v d hv]
  unfold ctrStream
  rw [addXor_gamma s.obj.blockSize hpos _
    (fun j => hI.enc_len _ (by rw [ctrAt_length, hc])) _ d (le_ceil d.length _ hpos)]

/-! ### Encryption after decryption -/

theorem Cfb.round_trip_rev (s : Fb) {E D : Bytes → Bytes} (hI : Implements s.obj E D)
    (R : List Bytes) (hR : GoodReg s.obj.blockSize R) (hiv : s.iv = R.flatten) (cv : PyVal)
    (ct : Bytes) (hc : cv.data? = some ct) :
    ∃ s' msg, Cfb.decrypt s cv = (s', .ok msg) ∧ msg.length = ct.length ∧
      ∀ mv : PyVal, mv.data? = some msg → Cfb.encrypt s mv = (s', .ok ct) := by
  have h := mask_round_trip hI sndB (maskG E) (fun r b _ hb => hb)
    (fun r b hr hb => mask_inverse hI r b hr (by omega)) R hR ct _ rfl
  refine ⟨_, _, Cfb.decrypt_ok s hI R hR hiv cv ct hc, h.1, fun mv hmv => ?_⟩
  rw [Cfb.encrypt_ok s hI R hR hiv mv _ hmv, h.2.2, h.2.1]

theorem Cbc.round_trip_rev (s : Cbc) {E D : Bytes → Bytes} (hI : Implements s.obj E D)
    (R : List Bytes) (hR : GoodReg s.obj.blockSize R) (hiv : s.iv = R.flatten) (cv : PyVal)
    (ct : Bytes) (hc : cv.data? = some ct) (hct : ct.length % s.obj.blockSize = 0) :
    ∃ s' msg, s.decrypt cv = (s', .ok msg) ∧ msg.length = ct.length ∧
      (ct ≠ [] → s.padMode = padMode1 →
        ∀ mv : PyVal, mv.data? = some msg → s.encrypt mv = (s', .ok ct)) ∧
      (ct ≠ [] → s.padMode = padMode2 →
        ∀ mv : PyVal, mv.data? = some msg →
          ∃ s'' last, s.encrypt mv = (s'', .ok (ct ++ last)) ∧ last.length = s.obj.blockSize) := by
  have hpos : 0 < s.obj.blockSize := Implements.pos
  have hl : ∀ b ∈ blocks s.obj.blockSize ct, b.length = s.obj.blockSize :=
    fun b hb => mem_blocks_length hb
  have hcl : ∀ r b : Bytes, r.length = s.obj.blockSize → b.length = s.obj.blockSize →
      (cbcG' D r b).length = s.obj.blockSize := by
    intro r b hr hb
    unfold cbcG'
    rw [addXor_length, hr, hI.dec_len b hb, Nat.min_self]
  have hinv : ∀ r b : Bytes, r.length = s.obj.blockSize → b.length = s.obj.blockSize →
      cbcG E r (cbcG' D r b) = b := by
    intro r b hr hb
    unfold cbcG cbcG'
    rw [addXor_cancel r _ (by rw [hI.dec_len b hb, hr]; exact Nat.le_refl _), hI.E_D b hb]
  obtain ⟨g1, g2⟩ := regRun_good s.obj.blockSize s.obj.blockSize (cbcG' D) sndB
    (fun _ b _ hb => hb) hcl R _ hR hl
  have hrun := regRun_inverse s.obj.blockSize (cbcG' D) sndB (cbcG E) (cbcG E)
    (fun r b _ hb => hb) hinv hinv R _ hR hl
  have hlen : (mapAccum (regStep (cbcG' D) sndB) R (blocks s.obj.blockSize ct)).2.flatten.length =
      ct.length := by
    rw [flatten_length_const _ _ g2, mapAccum_length, ← flatten_length_const _ _ hl,
      flatten_blocks _ hpos _ (Nat.dvd_of_mod_eq_zero hct)]
  have hdv : s.obj.blockSize ∣
      (mapAccum (regStep (cbcG' D) sndB) R (blocks s.obj.blockSize ct)).2.flatten.length := by
    rw [hlen]; exact Nat.dvd_of_mod_eq_zero hct
  refine ⟨_, _, Cbc.decrypt_ok s hI R hR hiv cv ct hc, hlen, ?_, ?_⟩
  · intro h0 hp mv hmv
    have h0' : (mapAccum (regStep (cbcG' D) sndB) R (blocks s.obj.blockSize ct)).2.flatten ≠ [] := by
      intro h
      rw [h] at hlen
      exact h0 (List.eq_nil_of_length_eq_zero hlen.symm)
    rw [Cbc.encrypt_ok s hI R hR hiv mv _ hmv, hp, setPadding_aligned _ _ hdv h0',
      blocks_flatten _ hpos _ g2, hrun, flatten_blocks _ hpos _ (Nat.dvd_of_mod_eq_zero hct)]
  · intro h0 hp mv hmv
    have h0' : (mapAccum (regStep (cbcG' D) sndB) R (blocks s.obj.blockSize ct)).2.flatten ≠ [] := by
      intro h
      rw [h] at hlen
      exact h0 (List.eq_nil_of_length_eq_zero hlen.symm)
    have hps := setPadding_aligned _ _ hdv h0'
    rw [setPadding_1, List.append_right_eq_self, List.replicate_eq_nil_iff] at hps
    rw [Cbc.encrypt_ok s hI R hR hiv mv _ hmv, hp, setPadding_2 _ hpos, hps,
      blocks_append _ hpos _ _ hdv, mapAccum_append, blocks_flatten _ hpos _ g2, hrun]
    have hP : ((0x80 : UInt8) :: List.replicate (s.obj.blockSize + 0 - 1) 0).length =
        s.obj.blockSize := by
      rw [List.length_cons, List.length_replicate]; omega
    generalize hPe : (0x80 : UInt8) :: List.replicate (s.obj.blockSize + 0 - 1) 0 = P at hP
    have hb : blocks s.obj.blockSize P = [P] := by
      have := blocks_cons s.obj.blockSize P [] hpos hP
      rwa [List.append_nil, blocks_nil] at this
    simp only [List.flatten_append, flatten_blocks _ hpos _ (Nat.dvd_of_mod_eq_zero hct)]
    refine ⟨_, _, rfl, ?_⟩
    · rw [hb]
      simp only [mapAccum, regStep, List.flatten_cons, List.flatten_nil, List.append_nil]
      exact cbcG_length hI _ _ g1.head hP

end Gost
