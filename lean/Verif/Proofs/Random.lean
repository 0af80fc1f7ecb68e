import Verif.Model.Random
import Verif.Spec.Random
import Verif.Proofs.Hmac
import Verif.Proofs.Clear

/-! The generator object. -/

namespace Gost
open Spec (beNat beBytes randValue randBlocks randOut randUsed randReg hashOf)

namespace Rand

/-- The hash of the generator. -/
def H : Bytes → Bytes := hashOf "streebog512"

theorem fresh512 (d : Bytes) :
    ((HashObj.hashInit "streebog512").updateBytes d).digest = H d := by
  have h := ((HStands.init "streebog512").update d).digest (Or.inl rfl)
  rw [effective_nil] at h
  exact h

/-- The parts which never change. -/
structure Const (sizeS : Nat) (size : Int) (s : Rand) : Prop where
  szs : s.sizeS = sizeS
  q : s.q = size.fdiv 64
  r : s.r = size.fmod 64
  limit : s.limit = randLimit sizeS
  hash : s.hash = HashObj.hashInit "streebog512"

/-- `k` blocks have been used since the seeding with register `u0`. -/
structure Inv (u0 : Bytes) (sizeS : Nat) (size : Int) (k : Nat) (s : Rand) : Prop
    extends Const sizeS size s where
  reg : s.randU = randReg u0 k

theorem randReg_length (u0 : Bytes) (sizeS k : Nat) (h0 : u0.length = sizeS + (63 - sizeS)) :
    (randReg u0 k).length ≤ sizeS + (63 - sizeS) := by
  unfold randReg
  split
  · omega
  · simp only [randValue, beBytes_length]; omega

theorem randReg_short (u0 : Bytes) (k : Nat) (h0 : u0.length = 63) :
    randReg u0 k = randValue (beNat u0) k := by
  unfold randReg
  split
  · next h => subst h; rw [randValue, Nat.add_zero, beBytes_beNat' 63 u0 h0]
  · rfl

theorem le_limit (sizeS : Nat) (h : sizeS ≤ 198) : 256 ^ (63 - sizeS) ≤ randLimit sizeS := by
  unfold randLimit
  rw [if_pos h, show (2 : Nat) ^ ((64 - sizeS) * 8) = 256 ^ (64 - sizeS) by
    rw [Nat.mul_comm, Nat.pow_mul]]
  exact Nat.pow_le_pow_right (by decide) (by omega)

theorem below_limit (u0 : Bytes) (sizeS k : Nat) (h0 : u0.length = sizeS + (63 - sizeS))
    (h : sizeS ≤ 198) : ¬ bytesToInt (pyFrom (randReg u0 k) (sizeS : Int)) ≥ randLimit sizeS := by
  rw [pyFrom_nat, bytesToInt_eq]
  have h1 := beNat_lt ((randReg u0 k).drop sizeS)
  have h2 := randReg_length u0 sizeS k h0
  have h3 : (256 : Nat) ^ ((randReg u0 k).drop sizeS).length ≤ 256 ^ (63 - sizeS) :=
    Nat.pow_le_pow_right (by decide) (by rw [List.length_drop]; omega)
  have := le_limit sizeS h
  omega

theorem incRandU_eq (u0 : Bytes) (k : Nat) :
    incRandU (randReg u0 k) = randReg u0 (k + 1) := by
  unfold incRandU
  rw [bytesToInt_eq, show (1 % 2 ^ (64 - 1) : Nat) = 1 by decide, intToBytes_nat]
  rw [show randReg u0 (k + 1) = randValue (beNat u0) (k + 1) by rw [randReg, if_neg (by omega)]]
  unfold randReg randValue
  split
  · next h => subst h; rfl
  · rw [beNat_beBytes, ← beBytes_mod 63 63 (_ + 1) (Nat.le_refl _), Nat.mod_add_mod,
      beBytes_mod 63 63 _ (Nat.le_refl _), Nat.add_assoc]

theorem randIter_ok {u0 : Bytes} {sizeS : Nat} {size : Int} {k : Nat} {s : Rand}
    (hi : Inv u0 sizeS size k s) (h0 : u0.length = sizeS + (63 - sizeS)) (h : sizeS ≤ 198) :
    ∃ s', s.randIter = (s', .ok (H (randValue (beNat u0) (k + 1)))) ∧
      Inv u0 sizeS size (k + 1) s' := by
  unfold randIter
  rw [hi.szs, hi.limit, hi.reg, if_neg (below_limit u0 sizeS k h0 h), hi.hash]
  simp only [fresh512]
  have e : incRandU (randReg u0 k) = randValue (beNat u0) (k + 1) := by
    rw [incRandU_eq, randReg, if_neg (by omega)]
  rw [e]
  refine ⟨_, rfl, ⟨rfl, hi.q, hi.r, rfl, ?_⟩, ?_⟩
  · simp only [HashObj.reset]
    rw [HashObj.updateBytes_name]; rfl
  · simp only [randReg, if_neg (Nat.succ_ne_zero k)]

theorem loop_ok {u0 : Bytes} {sizeS : Nat} {size : Int} (h0 : u0.length = sizeS + (63 - sizeS))
    (h : sizeS ≤ 198) (n : Nat) : ∀ (k : Nat) (s : Rand) (acc : Bytes), Inv u0 sizeS size k s →
    ∃ s', loop n s (acc) = (s', .ok (acc ++ randBlocks H (beNat u0) k n)) ∧
      Inv u0 sizeS size (k + n) s' := by
  -- the blocks are appended from the front here
  have front : ∀ n k, randBlocks H (beNat u0) k (n + 1) =
      H (randValue (beNat u0) (k + 1)) ++ randBlocks H (beNat u0) (k + 1) n := by
    intro n
    induction n with
    | zero => intro k; simp [randBlocks]
    | succ n ih =>
      intro k
      rw [randBlocks, ih k, randBlocks, List.append_assoc, show k + 1 + n + 1 = k + (n + 1) + 1 by omega]
  induction n with
  | zero => intro k s acc hi; exact ⟨s, by simp [loop, randBlocks], hi⟩
  | succ n ih =>
    intro k s acc hi
    obtain ⟨s1, h1, h2⟩ := randIter_ok hi h0 h
    obtain ⟨s2, h3, h4⟩ := ih (k + 1) s1 (acc ++ H (randValue (beNat u0) (k + 1))) h2
    refine ⟨s2, ?_, by rw [show k + (n + 1) = k + 1 + n by omega]; exact h4⟩
    rw [loop, h1]
    simp only
    rw [h3, front, List.append_assoc]

theorem random_zero {u0 : Bytes} {sizeS : Nat} {size : Int} {k : Nat} {s : Rand}
    (hi : Inv u0 sizeS size k s) (hz : beNat ((randReg u0 k).take sizeS) = 0) :
    s.random = (s, .error (.randomError "GOSTRandomError: the seed value is zero")) := by
  unfold random
  rw [hi.reg, hi.szs, pyUpto_nat, bytesToInt_eq, if_pos hz]

theorem H_length (d : Bytes) : (H d).length = 64 := by
  unfold H hashOf
  rw [if_pos rfl]
  exact HashObj.hash_length _ _ (by simp)

theorem random_ok {u0 : Bytes} {sizeS size k : Nat} {s : Rand}
    (hi : Inv u0 sizeS size k s) (h0 : u0.length = sizeS + (63 - sizeS)) (h : sizeS ≤ 198)
    (hz : beNat ((randReg u0 k).take sizeS) ≠ 0) :
    ∃ s', s.random = (s', .ok (randOut H (beNat u0) k size)) ∧
      Inv u0 sizeS size (k + randUsed size) s' := by
  unfold random
  rw [hi.reg, hi.szs, pyUpto_nat, bytesToInt_eq, if_neg hz, hi.q]
  have hq : ((size : Int).fdiv 64).toNat = size / 64 := by
    rw [Int.fdiv_eq_ediv_of_nonneg _ (by decide)]; omega
  have hr : (size : Int).fmod 64 = ((size % 64 : Nat) : Int) := by
    rw [Int.fmod_eq_emod_of_nonneg _ (by decide)]; omega
  rw [hq]
  obtain ⟨s1, h1, h2⟩ := loop_ok h0 h (size / 64) k s [] hi
  rw [h1]
  simp only [List.nil_append]
  unfold randOut randUsed
  rw [h2.r, hr]
  by_cases hm : size % 64 = 0
  · rw [if_neg (by omega), if_pos hm]
    refine ⟨s1, by simp, ?_⟩
    rw [show (size + 63) / 64 = size / 64 by omega]
    exact h2
  · obtain ⟨s2, h3, h4⟩ := randIter_ok h2 h0 h
    rw [if_pos (by omega), if_neg hm, h3]
    simp only
    refine ⟨s2, ?_, ?_⟩
    · rw [h4.r, hr, show (64 : Int) - ((size % 64 : Nat) : Int) = ((64 - size % 64 : Nat) : Int) by omega,
        show (64 : Int) = ((64 : Nat) : Int) from rfl, pySlice_nat,
        List.take_of_length_le (by rw [List.length_drop, H_length]; omega)]
    · rw [show k + (size + 63) / 64 = k + size / 64 + 1 by omega]
      exact h4

end Rand
end Gost
