import Verif.Proofs.CtrStream
import Verif.Props.Examples

/-! Properties C10 and C13 to C16: the chaining modes over sequences of calls. -/

namespace Gost
open Spec (Alg blocks rest)

/-! ### C10

`pieces` are the arguments of the earlier calls and `ds` their contents. The objects are all
reachable ones with a non-empty register; `s.obj.blockSize` is the attribute `block_size`. -/

/-- C10, CBC encryption with PAD_MODE_1: any number of calls on non-empty whole-block pieces and
one on a last non-empty piece are one call on the concatenation, in result and final object. -/
theorem C10_cbc_encrypt (s : Cbc) (hs : Cbc.Reachable s) (hiv : s.iv ≠ []) (hpad : s.padMode = padMode1)
    (pieces : List PyVal) (ds : List Bytes) (hds : pieces.map PyVal.data? = ds.map some)
    (hal : ∀ d ∈ ds, d ≠ [] ∧ s.obj.blockSize ∣ d.length) (last : PyVal) (d : Bytes)
    (hd : last.data? = some d) (hd0 : d ≠ []) :
    runCalls Cbc.encrypt s (pieces ++ [last]) = s.encrypt (.bytes (ds.flatten ++ d)) := by
  obtain ⟨hg, _, hR⟩ := hs.inv
  exact runCalls_merge Cbc.encrypt (Cbc.Ready s.obj padMode1)
    (fun d => d ≠ [] ∧ s.obj.blockSize ∣ d.length) (fun d => d ≠ []) (fun d e _ he => by simp [he])
    Cbc.encrypt_val (fun t d ht hd => Cbc.encrypt_merge s.obj hg t ht d hd) pieces ds hds hal last d
    hd hd0 s ⟨rfl, hpad, hR.reg hiv⟩

/-- C10, CBC decryption. -/
theorem C10_cbc_decrypt (s : Cbc) (hs : Cbc.Reachable s) (hiv : s.iv ≠ [])
    (pieces : List PyVal) (ds : List Bytes) (hds : pieces.map PyVal.data? = ds.map some)
    (hal : ∀ d ∈ ds, s.obj.blockSize ∣ d.length) (last : PyVal) (d : Bytes)
    (hd : last.data? = some d) :
    runCalls Cbc.decrypt s (pieces ++ [last]) = s.decrypt (.bytes (ds.flatten ++ d)) := by
  obtain ⟨hg, _, hR⟩ := hs.inv
  exact runCalls_merge Cbc.decrypt (Cbc.Ready s.obj s.padMode)
    (fun d => s.obj.blockSize ∣ d.length) (fun _ => True) (fun _ _ _ _ => trivial)
    Cbc.decrypt_val (fun t d ht hd => Cbc.decrypt_merge s.obj hg _ t ht d hd) pieces ds hds hal last d
    hd trivial s ⟨rfl, rfl, hR.reg hiv⟩

/-- C10, CFB encryption and decryption. -/
theorem C10_cfb (s : Fb) (hs : Cfb.Reachable s) (hiv : s.iv ≠ [])
    (pieces : List PyVal) (ds : List Bytes) (hds : pieces.map PyVal.data? = ds.map some)
    (hal : ∀ d ∈ ds, s.obj.blockSize ∣ d.length) (last : PyVal) (d : Bytes)
    (hd : last.data? = some d) :
    runCalls Cfb.encrypt s (pieces ++ [last]) = Cfb.encrypt s (.bytes (ds.flatten ++ d)) ∧
    runCalls Cfb.decrypt s (pieces ++ [last]) = Cfb.decrypt s (.bytes (ds.flatten ++ d)) := by
  obtain ⟨hg, hR⟩ := hs.inv
  exact ⟨runCalls_merge Cfb.encrypt (Fb.Ready s.obj)
    (fun d => s.obj.blockSize ∣ d.length) (fun _ => True) (fun _ _ _ _ => trivial)
    Cfb.encrypt_val (fun t d ht hd => Cfb.encrypt_merge s.obj hg t ht d hd) pieces ds hds hal last d
    hd trivial s ⟨rfl, hR.reg hiv⟩,
   runCalls_merge Cfb.decrypt (Fb.Ready s.obj)
    (fun d => s.obj.blockSize ∣ d.length) (fun _ => True) (fun _ _ _ _ => trivial)
    Cfb.decrypt_val (fun t d ht hd => Cfb.decrypt_merge s.obj hg t ht d hd) pieces ds hds hal last d
    hd trivial s ⟨rfl, hR.reg hiv⟩⟩

/-- C10, OFB encryption and decryption. -/
theorem C10_ofb (s : Fb) (hs : Ofb.Reachable s) (hiv : s.iv ≠ [])
    (pieces : List PyVal) (ds : List Bytes) (hds : pieces.map PyVal.data? = ds.map some)
    (hal : ∀ d ∈ ds, s.obj.blockSize ∣ d.length) (last : PyVal) (d : Bytes)
    (hd : last.data? = some d) :
    runCalls Ofb.encrypt s (pieces ++ [last]) = Ofb.encrypt s (.bytes (ds.flatten ++ d)) ∧
    runCalls Ofb.decrypt s (pieces ++ [last]) = Ofb.decrypt s (.bytes (ds.flatten ++ d)) := by
  obtain ⟨hg, hR⟩ := hs.inv
  exact ⟨runCalls_merge Ofb.encrypt (Fb.Ready s.obj)
    (fun d => s.obj.blockSize ∣ d.length) (fun _ => True) (fun _ _ _ _ => trivial)
    Ofb.encrypt_val (fun t d ht hd => Ofb.encrypt_merge s.obj hg t ht d hd) pieces ds hds hal last d
    hd trivial s ⟨rfl, hR.reg hiv⟩,
   runCalls_merge Ofb.decrypt (Fb.Ready s.obj)
    (fun d => s.obj.blockSize ∣ d.length) (fun _ => True) (fun _ _ _ _ => trivial)
    Ofb.decrypt_val (fun t d ht hd => Ofb.decrypt_merge s.obj hg t ht d hd) pieces ds hds hal last d
    hd trivial s ⟨rfl, hR.reg hiv⟩⟩

/-- C10, CTR encryption and decryption. -/
theorem C10_ctr (s : Ctr) (hs : Ctr.Reachable s)
    (pieces : List PyVal) (ds : List Bytes) (hds : pieces.map PyVal.data? = ds.map some)
    (hal : ∀ d ∈ ds, s.obj.blockSize ∣ d.length) (last : PyVal) (d : Bytes)
    (hd : last.data? = some d) :
    runCalls Ctr.encrypt s (pieces ++ [last]) = s.encrypt (.bytes (ds.flatten ++ d)) ∧
    runCalls Ctr.decrypt s (pieces ++ [last]) = s.decrypt (.bytes (ds.flatten ++ d)) := by
  obtain ⟨hg, hc⟩ := hs.inv
  exact ⟨runCalls_merge Ctr.encrypt (Ctr.Ready s.obj)
    (fun d => s.obj.blockSize ∣ d.length) (fun _ => True) (fun _ _ _ _ => trivial)
    Ctr.encrypt_val (fun t d ht hd => Ctr.encrypt_merge s.obj hg t ht d hd) pieces ds hds hal last d
    hd trivial s ⟨rfl, hc⟩,
   runCalls_merge Ctr.decrypt (Ctr.Ready s.obj)
    (fun d => s.obj.blockSize ∣ d.length) (fun _ => True) (fun _ _ _ _ => trivial)
    Ctr.decrypt_val (fun t d ht hd => Ctr.decrypt_merge s.obj hg t ht d hd) pieces ds hds hal last d
    hd trivial s ⟨rfl, hc⟩⟩

/-- A case for C10: three calls on a CFB object with a two-block IV. -/
example : ∃ s, newCipher Alg.magma.name (.bytes Ex.key) modeCfb
      (initVect := some (.bytes (Ex.count 9 16))) = .ok (.cfb s) ∧
      runCalls Cfb.encrypt s [.bytes (Ex.count 1 8), .bytearray (Ex.count 50 24), .bytes (Ex.count 2 5)] =
        Cfb.encrypt s (.bytes (Ex.count 1 8 ++ Ex.count 50 24 ++ Ex.count 2 5)) := by
  obtain ⟨o, D, h1, h2, h3, hI⟩ := new_cfb .magma (.bytes Ex.key) (.bytes (Ex.count 9 16)) _ _ rfl
    (by decide) rfl (by decide) none none
  refine ⟨_, h1, ?_⟩
  have := (C10_cfb ⟨o, Ex.count 9 16⟩ (.new h1) (by show Ex.count 9 16 ≠ []; decide)
    [.bytes (Ex.count 1 8), .bytearray (Ex.count 50 24)]
    [Ex.count 1 8, Ex.count 50 24] rfl (by simp [h3, Alg.blockSize, Ex.count_length])
    (.bytes (Ex.count 2 5)) (Ex.count 2 5) rfl).1
  simpa using this

/-- PAD_MODE_2 cannot be streamed: with it the two calls of every split of every whole-block
message give a longer result than one call. -/
theorem C10_pad_mode_2_not_streaming (a : Alg) (kv ivv : PyVal) (key iv d e : Bytes)
    (hk : kv.data? = some key) (hkl : key.length = 32) (hiv : ivv.data? = some iv)
    (hiv0 : 0 < iv.length) (hivl : iv.length % a.blockSize = 0)
    (hd : a.blockSize ∣ d.length) (hd0 : d ≠ []) (he : a.blockSize ∣ e.length) (he0 : e ≠ []) :
    ∃ s out₁ out₂, newCipher a.name kv modeCbc (padMode := some padMode2) (initVect := some ivv) =
        .ok (.cbc s) ∧
      (runCalls Cbc.encrypt s [.bytes d, .bytes e]).2 = .ok out₁ ∧
      (s.encrypt (.bytes (d ++ e))).2 = .ok out₂ ∧ out₁.length = out₂.length + a.blockSize := by
  obtain ⟨o, D, h1, hg, h3, hI⟩ := new_cbc a kv ivv key iv hk hkl hiv hivl padMode2 (Or.inr rfl) none
  have hR := goodReg_blocks (Alg.blockSize_pos a) hiv0 hivl
  rw [← h3] at hR
  have hpos := Alg.blockSize_pos a
  have hpadlen : ∀ x : Bytes, a.blockSize ∣ x.length → x ≠ [] →
      (setPadding a.blockSize x padMode2).length = x.length + a.blockSize := by
    intro x hx hx0
    have := setPadding_aligned a.blockSize x hx hx0
    rw [setPadding_1] at this
    have h0 : getPadSize a.blockSize x = 0 := by
      have := congrArg List.length this
      simpa using this
    rw [setPadding_2 _ hpos, h0, List.length_append, List.length_cons, List.length_replicate]
    omega
  obtain ⟨s1, ct1, e1, l1, -⟩ := Cbc.round_trip ⟨o, iv, padMode2⟩ hI _ hR.1 hR.2.symm (Or.inr rfl)
    (.bytes d) d rfl
  obtain ⟨s3, ct3, e3, l3, -⟩ := Cbc.round_trip ⟨o, iv, padMode2⟩ hI _ hR.1 hR.2.symm (Or.inr rfl)
    (.bytes (d ++ e)) (d ++ e) rfl
  have hs1 : ∃ R', s1 = Cbc.withReg ⟨o, iv, padMode2⟩ R' ∧ GoodReg o.blockSize R' := by
    have := Cbc.encrypt_ok ⟨o, iv, padMode2⟩ hI _ hR.1 hR.2.symm (.bytes d) d rfl
    rw [this] at e1
    refine ⟨_, (congrArg Prod.fst e1).symm, ?_⟩
    exact (regRun_good o.blockSize o.blockSize _ _
      (fun r b hr hb => cbcG_length hI r b hr hb)
      (fun r b hr hb => cbcG_length hI r b hr hb) _ _ hR.1 (fun b hb => mem_blocks_length hb)).1
  obtain ⟨R', rfl, hR'⟩ := hs1
  obtain ⟨s2, ct2, e2, l2, -⟩ := Cbc.round_trip (Cbc.withReg ⟨o, iv, padMode2⟩ R') hI R' hR' rfl
    (Or.inr rfl) (.bytes e) e rfl
  refine ⟨_, ct1 ++ ct2, ct3, h1, ?_, by rw [e3], ?_⟩
  · rw [runCalls_cons _ _ _ _ _ _ e1, runCalls_cons _ _ _ _ _ _ e2]
    simp [runCalls, andThen]
  · have hde : a.blockSize ∣ (d ++ e).length := by
      rw [List.length_append]; exact Nat.dvd_add hd he
    simp only [Cbc.withReg, h3] at l1 l2 l3
    rw [hpadlen d hd hd0] at l1
    rw [hpadlen e he he0] at l2
    rw [hpadlen _ hde (by simp [hd0])] at l3
    rw [List.length_append, l1, l2, l3, List.length_append]
    omega

/-! ### C13 -/

/-- C13, exact behaviour over any sequence of earlier calls with data `ds` (which used up
`N = Σ blockCount` blocks): the next call masks its data with the encryptions of
`iv ‖ 0…0 ‖ (N + j) mod 256`. -/
theorem C13_exact (a : Alg) (kv ivv : PyVal) (key iv : Bytes)
    (hk : kv.data? = some key) (hkl : key.length = 32) (hiv : ivv.data? = some iv)
    (hivl : iv.length = a.blockSize / 2) (vs : List PyVal) (ds : List Bytes)
    (hds : vs.map PyVal.data? = ds.map some) (v : PyVal) (d : Bytes) (hv : v.data? = some d) :
    ∃ s s' out, newCipher a.name kv modeCtr (initVect := some ivv) = .ok (.ctr s) ∧
      runCalls Ctr.encrypt s vs = (s', .ok out) ∧
      (s'.encrypt v).2 = .ok (Spec.xor d (((List.range (Spec.blockCount a.blockSize d)).map fun j =>
        a.encrypt key (iv ++ List.replicate (a.blockSize / 2 - 1) 0 ++
          [UInt8.ofNat ((ds.map (Spec.blockCount a.blockSize)).sum + j)])).flatten)) ∧
      s'.decrypt v = s'.encrypt v := by
  obtain ⟨o, D, h1, hg, h3, hI⟩ := new_ctr a kv ivv key iv hk hkl hiv hivl none none
  have hc := ctr0_length a iv hivl
  obtain ⟨out, h4, -⟩ := Ctr.runCalls_ok o hI vs ds hds ⟨o, iv, ctr0 a.blockSize iv⟩
    ⟨rfl, by simp only [h3]; exact hc⟩
  refine ⟨_, _, out, h1, h4, ?_, Ctr.decrypt_eq _ v d hv⟩
  rw [Ctr.encrypt_stream _ hI (by simp only [Ctr.withCtr, ctrAt_length, h3]; exact hc) v d hv]
  simp only [Ctr.withCtr, h3]
  rw [ctrStream_eq]
  rfl

/-- C13 holds as long as the object has processed at most 256 blocks. Missing: later blocks,
where the code's counter wraps around (`C13_negation`). -/
theorem C13_standard_partial (a : Alg) (kv ivv : PyVal) (key iv : Bytes)
    (hk : kv.data? = some key) (hkl : key.length = 32) (hiv : ivv.data? = some iv)
    (hivl : iv.length = a.blockSize / 2) (vs : List PyVal) (ds : List Bytes)
    (hds : vs.map PyVal.data? = ds.map some) (v : PyVal) (d : Bytes) (hv : v.data? = some d)
    (hN : (ds.map (Spec.blockCount a.blockSize)).sum + Spec.blockCount a.blockSize d ≤ 256) :
    ∃ s s' out, newCipher a.name kv modeCtr (initVect := some ivv) = .ok (.ctr s) ∧
      runCalls Ctr.encrypt s vs = (s', .ok out) ∧
      (s'.encrypt v).2 = .ok (Spec.xor d (Spec.ctrKeystream (a.encrypt key) a.blockSize iv
        (ds.map (Spec.blockCount a.blockSize)).sum (Spec.blockCount a.blockSize d))) := by
  obtain ⟨s, s', out, h1, h2, h3, _⟩ := C13_exact a kv ivv key iv hk hkl hiv hivl vs ds hds v d hv
  refine ⟨s, s', out, h1, h2, ?_⟩
  rw [h3]
  unfold Spec.ctrKeystream
  congr 3
  apply List.map_congr_left
  intro j hj
  rw [← codeCtr_eq_spec a iv hivl _ (by have := List.mem_range.1 hj; omega)]
  rfl

/-- A case for the partial theorem: three blocks earlier, then a message of one and a half. -/
example : ([Ex.count 0 8, Ex.count 9 12].map (Spec.blockCount Alg.magma.blockSize)).sum = 3 ∧
    Spec.blockCount Alg.magma.blockSize (Ex.count 0 12) = 2 := by decide

/-- C13 is false of the code for every key and IV: encrypting 257 blocks of zeros does not give
the standard's keystream. -/
theorem C13_negation (a : Alg) (kv ivv : PyVal) (key iv : Bytes)
    (hk : kv.data? = some key) (hkl : key.length = 32) (hiv : ivv.data? = some iv)
    (hivl : iv.length = a.blockSize / 2) :
    ∃ s out, newCipher a.name kv modeCtr (initVect := some ivv) = .ok (.ctr s) ∧
      (s.encrypt (.bytes (List.replicate (257 * a.blockSize) 0))).2 = .ok out ∧
      out ≠ Spec.xor (List.replicate (257 * a.blockSize) 0)
        (Spec.ctrKeystream (a.encrypt key) a.blockSize iv 0 257) := by
  obtain ⟨o, D, h1, hg, h3, hI⟩ := new_ctr a kv ivv key iv hk hkl hiv hivl none none
  have hpos := Alg.blockSize_pos a
  have hc := ctr0_length a iv hivl
  have hE : ∀ b : Bytes, b.length = a.blockSize → (a.encrypt key b).length = a.blockSize :=
    fun b hb => by rw [← h3] at hb ⊢; exact hI.enc_len b hb
  have hs := Ctr.encrypt_stream ⟨o, iv, ctr0 a.blockSize iv⟩ hI (by simp only [h3]; exact hc)
    (.bytes (List.replicate (257 * a.blockSize) 0)) _ rfl
  have hcnt : ((List.replicate (257 * a.blockSize) (0 : UInt8)).length + a.blockSize - 1) / a.blockSize = 257 := by
    rw [List.length_replicate]
    cases a <;> rfl
  simp only [h3, hcnt] at hs
  refine ⟨_, _, h1, by rw [hs], ?_⟩
  intro h
  have e0 : ctrStream (a.encrypt key) (ctr0 a.blockSize iv) 257 =
      ((List.range 257).map fun j => a.encrypt key (codeCtr a.blockSize iv (0 + j))).flatten := by
    have := ctrStream_eq a (a.encrypt key) iv 0 257
    exact this
  have l1 : ∀ b ∈ (List.range 257).map (fun j => a.encrypt key (codeCtr a.blockSize iv (0 + j))),
      b.length = a.blockSize := by
    intro b hb
    obtain ⟨j, _, rfl⟩ := List.mem_map.1 hb
    exact hE _ (codeCtr_length a iv hivl _)
  have l2 : ∀ b ∈ (List.range 257).map (fun j => a.encrypt key (Spec.ctrBlock a.blockSize iv (0 + j))),
      b.length = a.blockSize := by
    intro b hb
    obtain ⟨j, _, rfl⟩ := List.mem_map.1 hb
    exact hE _ (by simp [Spec.ctrBlock])
  have h := addXor_left_cancel _ _ _
    (by rw [e0, flatten_length_const _ _ l1]; simp [Nat.mul_comm])
    (by unfold Spec.ctrKeystream; rw [flatten_length_const _ _ l2]; simp [Nat.mul_comm]) h
  rw [e0] at h
  unfold Spec.ctrKeystream at h
  have h := congrArg (blocks a.blockSize) h
  rw [blocks_flatten _ hpos _ l1, blocks_flatten _ hpos _ l2] at h
  have h := congrArg (fun l => l[256]?) h
  simp only [List.getElem?_map, List.getElem?_range (show 256 < 257 by decide), Option.map_some,
    Option.some.injEq, Nat.zero_add] at h
  refine spec_ctr_256 a iv hivl (hI.E_inj _ _ ?_ ?_ h).symm
  · rw [h3]; exact codeCtr_length a iv hivl _
  · rw [h3]; simp [Spec.ctrBlock]

/-! ### C14 -/

/-- C14, exact behaviour: in the encryption of `n` zero blocks by a fresh object, blocks `i` and
`j` of the result (the keystream) are equal exactly if `i` and `j` agree modulo 256. -/
theorem C14_exact (a : Alg) (kv ivv : PyVal) (key iv : Bytes)
    (hk : kv.data? = some key) (hkl : key.length = 32) (hiv : ivv.data? = some iv)
    (hivl : iv.length = a.blockSize / 2) (n : Nat) :
    ∃ s out, newCipher a.name kv modeCtr (initVect := some ivv) = .ok (.ctr s) ∧
      (s.encrypt (.bytes (List.replicate (n * a.blockSize) 0))).2 = .ok out ∧
      (blocks a.blockSize out).length = n ∧
      ∀ i j (hi : i < (blocks a.blockSize out).length) (hj : j < (blocks a.blockSize out).length),
        (blocks a.blockSize out)[i] = (blocks a.blockSize out)[j] ↔ i % 256 = j % 256 := by
  obtain ⟨o, D, h1, hg, h3, hI⟩ := new_ctr a kv ivv key iv hk hkl hiv hivl none none
  have hpos := Alg.blockSize_pos a
  have hc := ctr0_length a iv hivl
  have hE : ∀ b : Bytes, b.length = a.blockSize → (a.encrypt key b).length = a.blockSize :=
    fun b hb => by rw [← h3] at hb ⊢; exact hI.enc_len b hb
  have hs := Ctr.encrypt_stream ⟨o, iv, ctr0 a.blockSize iv⟩ hI (by simp only [h3]; exact hc)
    (.bytes (List.replicate (n * a.blockSize) 0)) _ rfl
  have hcnt : ((List.replicate (n * a.blockSize) (0 : UInt8)).length + a.blockSize - 1) / a.blockSize = n := by
    rw [List.length_replicate, show n * a.blockSize + a.blockSize - 1 = a.blockSize * n + (a.blockSize - 1) by
      rw [Nat.mul_comm]; omega, Nat.mul_add_div hpos, Nat.div_eq_of_lt (by omega), Nat.add_zero]
  simp only [h3, hcnt] at hs
  have e0 : ctrStream (a.encrypt key) (ctr0 a.blockSize iv) n =
      ((List.range n).map fun j => a.encrypt key (codeCtr a.blockSize iv (0 + j))).flatten :=
    ctrStream_eq a (a.encrypt key) iv 0 n
  have l1 : ∀ b ∈ (List.range n).map (fun j => a.encrypt key (codeCtr a.blockSize iv (0 + j))),
      b.length = a.blockSize := by
    intro b hb
    obtain ⟨j, _, rfl⟩ := List.mem_map.1 hb
    exact hE _ (codeCtr_length a iv hivl _)
  have hlen : (ctrStream (a.encrypt key) (ctr0 a.blockSize iv) n).length = n * a.blockSize := by
    rw [e0, flatten_length_const _ _ l1]; simp; rw [Nat.mul_comm]
  rw [addXor_comm, addXor_zeros _ _ (by omega), e0] at hs
  refine ⟨_, _, h1, by rw [hs], ?_, ?_⟩
  · rw [blocks_flatten _ hpos _ l1]; simp
  · rw [blocks_flatten _ hpos _ l1]
    intro i j hi hj
    simp only [List.getElem_map, List.getElem_range, Nat.zero_add]
    rw [← codeCtr_eq_iff a.blockSize iv i j]
    constructor
    · intro h
      refine hI.E_inj _ _ ?_ ?_ h <;> rw [h3] <;> exact codeCtr_length a iv hivl _
    · intro h; rw [h]

/-- C14 holds among the first 256 blocks. Missing: the blocks up to 2^(4·block size). -/
theorem C14_distinct_partial (a : Alg) (kv ivv : PyVal) (key iv : Bytes)
    (hk : kv.data? = some key) (hkl : key.length = 32) (hiv : ivv.data? = some iv)
    (hivl : iv.length = a.blockSize / 2) (n : Nat) (hn : n ≤ 256) :
    ∃ s out, newCipher a.name kv modeCtr (initVect := some ivv) = .ok (.ctr s) ∧
      (s.encrypt (.bytes (List.replicate (n * a.blockSize) 0))).2 = .ok out ∧
      (blocks a.blockSize out).length = n ∧ (blocks a.blockSize out).Nodup := by
  obtain ⟨s, out, h1, h2, h3, h4⟩ := C14_exact a kv ivv key iv hk hkl hiv hivl n
  refine ⟨s, out, h1, h2, h3, ?_⟩
  unfold List.Nodup
  rw [List.pairwise_iff_getElem]
  intro i j hi hj hij h
  rw [h4 i j hi hj] at h
  omega

/-- C14 is false of the code: for every key and IV, block 256 of the keystream is block 0. -/
theorem C14_negation (a : Alg) (kv ivv : PyVal) (key iv : Bytes)
    (hk : kv.data? = some key) (hkl : key.length = 32) (hiv : ivv.data? = some iv)
    (hivl : iv.length = a.blockSize / 2) :
    ∃ s out b, newCipher a.name kv modeCtr (initVect := some ivv) = .ok (.ctr s) ∧
      (s.encrypt (.bytes (List.replicate (257 * a.blockSize) 0))).2 = .ok out ∧
      (blocks a.blockSize out)[0]? = some b ∧ (blocks a.blockSize out)[256]? = some b := by
  obtain ⟨s, out, h1, h2, h3, h4⟩ := C14_exact a kv ivv key iv hk hkl hiv hivl 257
  refine ⟨s, out, (blocks a.blockSize out)[0], h1, h2, List.getElem?_eq_getElem (by omega), ?_⟩
  rw [List.getElem?_eq_getElem (by omega), Option.some.injEq, h4 256 0 (by omega) (by omega)]

/-- Arguments as in C13 and C14 exist. -/
example : (Ex.count 3 8).length = Alg.kuznechik.blockSize / 2 ∧ Ex.key.length = 32 := by decide

/-! ### C15 -/

/-- C15 is false of CFB and OFB: on every reachable object with a non-empty register, a message
shorter than a block leaves the object unchanged. So two such messages in successive calls are
masked with the same keystream block: the sum of the results is the sum of the messages. -/
theorem C15_negation (s : Fb) (hs : Cfb.Reachable s ∨ Ofb.Reachable s) (hiv : s.iv ≠ [])
    (v₁ v₂ : PyVal) (d₁ d₂ : Bytes) (hv₁ : v₁.data? = some d₁) (hv₂ : v₂.data? = some d₂)
    (hd₁ : d₁.length < s.obj.blockSize) (hd₂ : d₂.length = d₁.length) :
    (∃ c₁ c₂, (Cfb.encrypt s v₁) = (s, .ok c₁) ∧ (Cfb.encrypt s v₂).2 = .ok c₂ ∧
      Spec.xor c₁ c₂ = Spec.xor d₁ d₂) ∧
    (∃ c₁ c₂, (Ofb.encrypt s v₁) = (s, .ok c₁) ∧ (Ofb.encrypt s v₂).2 = .ok c₂ ∧
      Spec.xor c₁ c₂ = Spec.xor d₁ d₂) := by
  have hinv : s.obj.Good ∧ RegOk s.obj.blockSize s.iv := by
    rcases hs with hs | hs
    · exact hs.inv
    · exact hs.inv
  obtain ⟨hg, hR⟩ := hinv
  obtain ⟨R, hR, hRiv⟩ := hR.reg hiv
  have hself : s.withReg R = s := by unfold Fb.withReg; rw [← hRiv]
  have hxor : ∀ k : Bytes, d₁.length ≤ k.length →
      Spec.xor (addXor k d₁) (addXor k d₂) = Spec.xor d₁ d₂ := by
    intro k hk
    show addXor (addXor k d₁) (addXor k d₂) = addXor d₁ d₂
    rw [addXor_comm k d₁, addXor_assoc, addXor_cancel k d₂ (by omega)]
  have hEl : d₁.length ≤ (s.obj.E (R.headD [])).length := by
    rw [hg.implements.enc_len _ hR.head]; omega
  have hb₁ : blocks s.obj.blockSize d₁ = [] := blocks_of_lt _ _ hd₁
  have hb₂ : blocks s.obj.blockSize d₂ = [] := blocks_of_lt _ _ (by omega)
  have hr₁ : rest s.obj.blockSize d₁ = d₁ := rest_of_lt _ _ hd₁
  have hr₂ : rest s.obj.blockSize d₂ = d₂ := rest_of_lt _ _ (by omega)
  refine ⟨⟨maskG s.obj.E (R.headD []) d₁, maskG s.obj.E (R.headD []) d₂, ?_, ?_, hxor _ hEl⟩,
    ⟨maskG s.obj.E (R.headD []) d₁, maskG s.obj.E (R.headD []) d₂, ?_, ?_, hxor _ hEl⟩⟩
  · rw [Cfb.encrypt_ok s hg.implements R hR hRiv v₁ d₁ hv₁]
    simp only [hb₁, hr₁, mapAccum, List.flatten_nil, List.nil_append, hself]
  · rw [Cfb.encrypt_ok s hg.implements R hR hRiv v₂ d₂ hv₂]
    simp only [hb₂, hr₂, mapAccum, List.flatten_nil, List.nil_append]
  · rw [Ofb.encrypt_ok s hg.implements R hR hRiv v₁ d₁ hv₁]
    simp only [hb₁, hr₁, mapAccum, List.flatten_nil, List.nil_append, hself]
  · rw [Ofb.encrypt_ok s hg.implements R hR hRiv v₂ d₂ hv₂]
    simp only [hb₂, hr₂, mapAccum, List.flatten_nil, List.nil_append]

/-- A concrete witness of the negation: on a fresh OFB object two successive calls with the
message "\x00" return the same byte. -/
example : ∃ s c, newCipher Alg.magma.name (.bytes Ex.key) modeOfb = .ok (.ofb s) ∧
    Ofb.encrypt s (.bytes [0]) = (s, .ok c) ∧ c.length = 1 := by
  obtain ⟨o, D, h1, _, h3, hI⟩ := new_ofb .magma (.bytes Ex.key) (.bytearray defaultIvMagma) _ _ rfl
    (by decide) rfl (by decide) none none
  have hiv : (⟨o, defaultIvMagma⟩ : Fb).iv ≠ [] := by show defaultIvMagma ≠ []; decide
  have hb : ([0] : Bytes).length < (⟨o, defaultIvMagma⟩ : Fb).obj.blockSize := by simp [h3, Alg.blockSize]
  obtain ⟨-, c₁, c₂, e1, e2, e3⟩ := C15_negation ⟨o, defaultIvMagma⟩ (Or.inr (.new h1)) hiv
    (.bytes [0]) (.bytes [0]) [0] [0] rfl rfl hb rfl
  refine ⟨_, c₁, h1, e1, ?_⟩
  rw [e1] at e2
  cases e2
  have := congrArg List.length e3
  simpa [Spec.xor] using this

/-- C15 for CTR, as long as 256 blocks are not exceeded: the keystream blocks of two successive
calls (after any earlier calls) are pairwise different. Missing: CFB and OFB, and CTR after 256
blocks, where the claim is false (`C15_negation`, `C14_negation`). -/
theorem C15_ctr_partial (a : Alg) (kv ivv : PyVal) (key iv : Bytes)
    (hk : kv.data? = some key) (hkl : key.length = 32) (hiv : ivv.data? = some iv)
    (hivl : iv.length = a.blockSize / 2) (vs : List PyVal) (ds : List Bytes)
    (hds : vs.map PyVal.data? = ds.map some) (v₁ v₂ : PyVal) (d₁ d₂ : Bytes)
    (hv₁ : v₁.data? = some d₁) (hv₂ : v₂.data? = some d₂)
    (hN : (ds.map (Spec.blockCount a.blockSize)).sum + Spec.blockCount a.blockSize d₁ +
      Spec.blockCount a.blockSize d₂ ≤ 256) :
    ∃ (s s₁ s₂ : Ctr) (out : Bytes) (C₁ C₂ : List Bytes),
      newCipher a.name kv modeCtr (initVect := some ivv) = .ok (.ctr s) ∧
      runCalls Ctr.encrypt s vs = (s₁, .ok out) ∧
      s₁.encrypt v₁ = (s₂, .ok (Spec.xor d₁ (C₁.map (a.encrypt key)).flatten)) ∧
      (s₂.encrypt v₂).2 = .ok (Spec.xor d₂ (C₂.map (a.encrypt key)).flatten) ∧
      C₁.length = Spec.blockCount a.blockSize d₁ ∧ C₂.length = Spec.blockCount a.blockSize d₂ ∧
      (∀ c ∈ C₁ ++ C₂, c.length = a.blockSize) ∧ ((C₁ ++ C₂).map (a.encrypt key)).Nodup := by
  obtain ⟨o, D, h1, hg, h3, hI⟩ := new_ctr a kv ivv key iv hk hkl hiv hivl none none
  have hc := ctr0_length a iv hivl
  obtain ⟨out, h4, -⟩ := Ctr.runCalls_ok o hI vs ds hds ⟨o, iv, ctr0 a.blockSize iv⟩
    ⟨rfl, by simp only [h3]; exact hc⟩
  generalize hNdef : (ds.map (Spec.blockCount o.blockSize)).sum = N at h4
  have hN' : N + Spec.blockCount a.blockSize d₁ + Spec.blockCount a.blockSize d₂ ≤ 256 := by
    rw [← hNdef, h3]; exact hN
  have e1 := Ctr.encrypt_stream (Ctr.withCtr ⟨o, iv, ctr0 a.blockSize iv⟩
    (ctrAt (ctr0 a.blockSize iv) N)) hI
    (by simp only [Ctr.withCtr, ctrAt_length, h3]; exact hc) v₁ d₁ hv₁
  have e2 := Ctr.encrypt_stream (Ctr.withCtr ⟨o, iv, ctr0 a.blockSize iv⟩
    (ctrAt (ctr0 a.blockSize iv) (N + Spec.blockCount a.blockSize d₁))) hI
    (by simp only [Ctr.withCtr, ctrAt_length, h3]; exact hc) v₂ d₂ hv₂
  simp only [Ctr.withCtr, h3, ctrStream_eq, ctrAt_add] at e1 e2 h4
  refine ⟨_, _, Ctr.mk o iv (ctrAt (ctr0 a.blockSize iv) (N + Spec.blockCount a.blockSize d₁)), out,
    (List.range (Spec.blockCount a.blockSize d₁)).map
      (fun j => codeCtr a.blockSize iv (N + j)),
    (List.range (Spec.blockCount a.blockSize d₂)).map
      (fun j => codeCtr a.blockSize iv (N + Spec.blockCount a.blockSize d₁ + j)),
    h1, h4, ?_, ?_, by simp, by simp, ?_, ?_⟩
  · rw [e1, List.map_map]; rfl
  · rw [e2, List.map_map]; rfl
  · intro c hc
    simp only [List.mem_append, List.mem_map] at hc
    rcases hc with ⟨j, _, rfl⟩ | ⟨j, _, rfl⟩ <;> exact codeCtr_length a iv hivl _
  · have : (List.range (Spec.blockCount a.blockSize d₁)).map (fun j => codeCtr a.blockSize iv (N + j)) ++
        (List.range (Spec.blockCount a.blockSize d₂)).map
          (fun j => codeCtr a.blockSize iv (N + Spec.blockCount a.blockSize d₁ + j)) =
        (List.range (Spec.blockCount a.blockSize d₁ + Spec.blockCount a.blockSize d₂)).map
          (fun j => codeCtr a.blockSize iv (N + j)) := by
      rw [List.range_add, List.map_append, List.map_map]
      simp only [Function.comp_def, Nat.add_assoc]
    rw [this, List.map_map]
    unfold List.Nodup
    rw [List.pairwise_iff_getElem]
    intro i j hi hj hij h
    simp only [List.length_map, List.length_range] at hi hj
    simp only [List.getElem_map, List.getElem_range, Function.comp] at h
    have h := hI.E_inj _ _ (by rw [h3]; exact codeCtr_length a iv hivl _)
      (by rw [h3]; exact codeCtr_length a iv hivl _) h
    rw [codeCtr_eq_iff] at h
    omega

end Gost
