import Verif.Proofs.Stream
import Verif.Spec.Modes

/-! The counter of the code and the counter of the standard. -/

namespace Gost
open Spec (Alg blocks rest beNat beBytes)

theorem ctrNext_concat (p : Bytes) (x : UInt8) : ctrNext (p ++ [x]) = p ++ [x + 1] := by
  unfold ctrNext
  simp

theorem ctrAt_concat (p : Bytes) (x : UInt8) (i : Nat) :
    ctrAt (p ++ [x]) i = p ++ [x + UInt8.ofNat i] := by
  induction i generalizing x with
  | zero => simp [ctrAt]
  | succ i ih =>
    rw [ctrAt, ctrNext_concat, ih]
    congr 2
    apply UInt8.toNat_inj.1
    simp [UInt8.toNat_add, UInt8.toNat_ofNat']
    omega

/-- The counter block which the code uses for block number `i`: only the last byte counts. -/
def codeCtr (n : Nat) (iv : Bytes) (i : Nat) : Bytes :=
  iv ++ List.replicate (n / 2 - 1) 0 ++ [UInt8.ofNat i]

theorem ctr0_concat (a : Alg) (iv : Bytes) :
    ctr0 a.blockSize iv = (iv ++ List.replicate (a.blockSize / 2 - 1) 0) ++ [0] := by
  unfold ctr0
  have : a.blockSize / 2 = (a.blockSize / 2 - 1) + 1 := by cases a <;> decide
  conv => lhs; rw [this]
  rw [List.replicate_succ', List.append_assoc]

theorem ctrAt_ctr0 (a : Alg) (iv : Bytes) (i : Nat) :
    ctrAt (ctr0 a.blockSize iv) i = codeCtr a.blockSize iv i := by
  rw [ctr0_concat, ctrAt_concat]
  simp [codeCtr]

theorem codeCtr_length (a : Alg) (iv : Bytes) (hiv : iv.length = a.blockSize / 2) (i : Nat) :
    (codeCtr a.blockSize iv i).length = a.blockSize := by
  rw [← ctrAt_ctr0, ctrAt_length, ctr0_length a iv hiv]

theorem codeCtr_eq_iff (n : Nat) (iv : Bytes) (i j : Nat) :
    codeCtr n iv i = codeCtr n iv j ↔ i % 256 = j % 256 := by
  unfold codeCtr
  rw [List.append_cancel_left_eq, List.cons.injEq]
  simp only [and_true]
  rw [← UInt8.toNat_inj]
  simp [UInt8.toNat_ofNat']

/-- Up to 256 blocks the code's counter is the standard's. -/
theorem codeCtr_eq_spec (a : Alg) (iv : Bytes) (hiv : iv.length = a.blockSize / 2) (i : Nat)
    (hi : i < 256) : codeCtr a.blockSize iv i = Spec.ctrBlock a.blockSize iv i := by
  unfold Spec.ctrBlock
  have h1 : iv ++ List.replicate (a.blockSize - iv.length) 0 = codeCtr a.blockSize iv 0 := by
    rw [hiv, ← ctrAt_ctr0]
    simp only [ctrAt, ctr0]
    congr 2
    cases a <;> decide
  have h2 : beNat (codeCtr a.blockSize iv 0) + i = beNat (codeCtr a.blockSize iv i) := by
    unfold codeCtr
    generalize iv ++ List.replicate (a.blockSize / 2 - 1) 0 = p
    rw [beNat_append p, beNat_append p]
    simp [beNat, UInt8.toNat_ofNat', Nat.mod_eq_of_lt hi]
  rw [h1, h2, beBytes_mod _ _ _ (Nat.le_refl _), beBytes_beNat' _ _ (codeCtr_length a iv hiv i)]

/-- Block 256: the standard carries into the next byte, the code does not. -/
theorem spec_ctr_256 (a : Alg) (iv : Bytes) (hiv : iv.length = a.blockSize / 2) :
    Spec.ctrBlock a.blockSize iv 256 ≠ codeCtr a.blockSize iv 256 := by
  unfold Spec.ctrBlock
  have h1 : iv ++ List.replicate (a.blockSize - iv.length) 0 = codeCtr a.blockSize iv 0 := by
    rw [hiv, ← ctrAt_ctr0]
    simp only [ctrAt, ctr0]
    congr 2
    cases a <;> decide
  have h0 : codeCtr a.blockSize iv 256 = codeCtr a.blockSize iv 0 :=
    (codeCtr_eq_iff _ _ _ _).2 rfl
  rw [h1, h0]
  intro h
  have h3 := congrArg beNat h
  rw [beNat_beBytes, Nat.mod_mod] at h3
  have hlt := beNat_lt (codeCtr a.blockSize iv 0)
  rw [codeCtr_length a iv hiv] at hlt
  have hM : 256 ^ a.blockSize = 256 * 256 * 256 ^ (a.blockSize - 2) := by cases a <;> decide
  have hM2 : 256 * 256 ≤ 256 ^ a.blockSize := by cases a <;> decide
  generalize beNat (codeCtr a.blockSize iv 0) = x at h3 hlt
  generalize 256 ^ a.blockSize = M at *
  by_cases hx : x + 256 < M
  · rw [Nat.mod_eq_of_lt hx] at h3; omega
  · rw [Nat.mod_eq_sub_mod (by omega), Nat.mod_eq_of_lt (by omega)] at h3; omega

theorem ctrStream_eq (a : Alg) (E : Bytes → Bytes) (iv : Bytes) (N k : Nat) :
    ctrStream E (ctrAt (ctr0 a.blockSize iv) N) k =
      ((List.range k).map fun j => E (codeCtr a.blockSize iv (N + j))).flatten := by
  unfold ctrStream
  congr 2
  funext j
  rw [ctrAt_add, ctrAt_ctr0]

/-- Any sequence of calls on a CTR object. -/
theorem Ctr.runCalls_ok (o : CipherObj) {E D : Bytes → Bytes} (hI : Implements o E D)
    (vs : List PyVal) (ds : List Bytes)
    (hds : vs.map PyVal.data? = ds.map some) (s : Ctr) (hs : Ctr.Ready o s) :
    ∃ out, runCalls Ctr.encrypt s vs =
      (s.withCtr (ctrAt s.counter (ds.map (Spec.blockCount o.blockSize)).sum), .ok out) ∧
      out.length = ds.flatten.length := by
  induction vs generalizing ds s with
  | nil =>
    cases ds with
    | cons => simp at hds
    | nil => exact ⟨[], rfl, rfl⟩
  | cons v vs ih =>
    cases ds with
    | nil => simp at hds
    | cons d ds =>
      simp only [List.map_cons, List.cons.injEq] at hds
      obtain ⟨rfl, hc⟩ := hs
      have h1 := Ctr.encrypt_stream s hI hc v d hds.1
      obtain ⟨out, h2, h3⟩ := ih ds hds.2 (s.withCtr (ctrAt s.counter
        ((d.length + s.obj.blockSize - 1) / s.obj.blockSize))) ⟨rfl, by
          simp only [Ctr.withCtr, ctrAt_length]; exact hc⟩
      refine ⟨addXor d (ctrStream E s.counter ((d.length + s.obj.blockSize - 1) / s.obj.blockSize)) ++ out,
        ?_, ?_⟩
      · rw [runCalls_cons _ _ _ _ _ _ h1, h2]
        simp only [andThen, Ctr.withCtr, ctrAt_add, List.map_cons, List.sum_cons, Spec.blockCount]
      · rw [List.length_append, h3, List.flatten_cons, List.length_append, addXor_length,
          ctrStream_length hI s.counter hc]
        have := le_ceil d.length s.obj.blockSize Implements.pos
        omega

end Gost
