import Verif.Model.Pbkdf
import Verif.Proofs.Hmac

/-! The key derivation object against PBKDF2. -/

namespace Gost
open Spec (hashOf effective hmacKey xorByte hmac pbkdfU pbkdfXor pbkdfT pbkdfBlocks pbkdf2)

/-- HMAC_GOSTR3411_2012_512 with a password as the key. -/
def prf (pw : Bytes) : Bytes → Bytes := hmac (hashOf "streebog512") pw

theorem hashOf512_length (M : Bytes) : (hashOf "streebog512" M).length = 64 :=
  HashObj.hash_length _ _ (by simp)

theorem prf_length (pw M : Bytes) : (prf pw M).length = 64 := hashOf512_length _

namespace Pbkdf

/-- What the methods keep: salt, iterations, and the key inside the HMAC object. -/
structure Inv (pw salt : Bytes) (c : Nat) (s : Pbkdf) : Prop where
  salt : s.salt = salt
  iter : (s.iterations - 1).toNat = c - 1
  key : s.hmac.key = hmacKey pw
  name : s.hmac.hasher.name = "streebog512"

theorem reset_hmac {pw salt : Bytes} {c : Nat} {s : Pbkdf} (h : Inv pw salt c s) :
    s.hmac.reset = ⟨hmacKey pw, HashObj.hashInit "streebog512", 0⟩ := by
  unfold Hmac.reset HashObj.reset
  rw [h.key, h.name]

theorem prf_eq (pw : Bytes) (hpw : pw.length ≤ 64) (d : Bytes) :
    ((⟨hmacKey pw, HashObj.hashInit "streebog512", 0⟩ : Hmac).updateBytes d).digest = prf pw d := by
  rw [((Hmac.new_st "streebog512" (hmacKey pw)).first d).digest (Or.inl rfl),
    List.take_of_length_le (by rw [hmacKey_length pw hpw]; omega)]
  rfl

theorem uIter_ok {pw salt : Bytes} {c : Nat} {s : Pbkdf} (h : Inv pw salt c s)
    (hpw : pw.length ≤ 64) (u : Bytes) :
    (s.uIter u).2 = prf pw u ∧ Inv pw salt c (s.uIter u).1 ∧ (s.uIter u).1.counter = s.counter := by
  unfold uIter
  simp only [reset_hmac h]
  refine ⟨prf_eq pw hpw u, ⟨h.salt, h.iter, ?_, ?_⟩, trivial⟩
  · simp only [Hmac.updateBytes_key]
  · simp only [Hmac.updateBytes_name]; rfl

theorem uFirst_ok {pw salt : Bytes} {c : Nat} {s : Pbkdf} (h : Inv pw salt c s)
    (hpw : pw.length ≤ 64) :
    s.uFirst.2 = pbkdfU (prf pw) salt s.counter 0 ∧ Inv pw salt c s.uFirst.1 ∧
      s.uFirst.1.counter = s.counter := by
  unfold uFirst
  simp only [reset_hmac h]
  refine ⟨?_, ⟨h.salt, h.iter, ?_, ?_⟩, trivial⟩
  · rw [prf_eq pw hpw, h.salt, intToBytes_nat]; rfl
  · simp only [Hmac.updateBytes_key]
  · simp only [Hmac.updateBytes_name]; rfl

/-- The step of the loop of `_f`. -/
def fStep (st : Pbkdf × Bytes × Bytes) (_ : Nat) : Pbkdf × Bytes × Bytes :=
  let (s, u) := st.1.uIter st.2.1
  (s, u, addXor st.2.2 u)

theorem fLoop {pw salt : Bytes} {c : Nat} {s : Pbkdf} (h : Inv pw salt c s) (hpw : pw.length ≤ 64)
    (n : Nat) :
    ∃ s', (List.range n).foldl fStep
        (s, pbkdfU (prf pw) salt s.counter 0, pbkdfU (prf pw) salt s.counter 0) =
        (s', pbkdfU (prf pw) salt s.counter n, pbkdfXor (prf pw) salt s.counter n) ∧
      Inv pw salt c s' ∧ s'.counter = s.counter := by
  induction n with
  | zero => exact ⟨s, rfl, h, rfl⟩
  | succ n ih =>
    obtain ⟨s', e, hi, hc⟩ := ih
    obtain ⟨u1, u2, u3⟩ := uIter_ok hi hpw (pbkdfU (prf pw) salt s.counter n)
    refine ⟨(s'.uIter (pbkdfU (prf pw) salt s.counter n)).1, ?_, u2, u3.trans hc⟩
    rw [List.range_succ, List.foldl_append, e, List.foldl_cons, List.foldl_nil]
    unfold fStep
    simp only [u1]
    rfl

theorem f_ok {pw salt : Bytes} {c : Nat} {s : Pbkdf} (h : Inv pw salt c s) (hpw : pw.length ≤ 64) :
    s.f.2 = pbkdfT (prf pw) salt c s.counter ∧ Inv pw salt c s.f.1 := by
  obtain ⟨a1, a2, a3⟩ := uFirst_ok h hpw
  obtain ⟨b1, b2, b3⟩ := uFirst_ok a2 hpw
  rw [a3] at b1 b3
  obtain ⟨s', e, hi, -⟩ := fLoop b2 hpw (c - 1)
  rw [b3] at e
  have hf : s.f = (((List.range (s.uFirst.1.uFirst.1.iterations - 1).toNat).foldl fStep
      (s.uFirst.1.uFirst.1, s.uFirst.1.uFirst.2, s.uFirst.2)).1,
      ((List.range (s.uFirst.1.uFirst.1.iterations - 1).toNat).foldl fStep
      (s.uFirst.1.uFirst.1, s.uFirst.1.uFirst.2, s.uFirst.2)).2.2) := rfl
  have hn : (s.uFirst.1.uFirst.1.iterations - 1).toNat = c - 1 := b2.iter
  rw [hf, hn, a1, b1, e]
  exact ⟨rfl, hi⟩

theorem calcLoop {pw salt : Bytes} {c : Nat} {s : Pbkdf} (h : Inv pw salt c s)
    (hpw : pw.length ≤ 64) (k : Nat) :
    ∃ s', (List.range k).foldl (fun (st : Pbkdf × Bytes) i =>
        let (s, t) := f { st.1 with counter := i + 1 }
        (s, st.2 ++ t)) (s, []) = (s', pbkdfBlocks (prf pw) salt c k) ∧ Inv pw salt c s' := by
  induction k with
  | zero => exact ⟨s, rfl, h⟩
  | succ k ih =>
    obtain ⟨s', e, hi⟩ := ih
    have hi' : Inv pw salt c { s' with counter := k + 1 } := ⟨hi.salt, hi.iter, hi.key, hi.name⟩
    obtain ⟨f1, f2⟩ := f_ok hi' hpw
    refine ⟨_, ?_, f2⟩
    rw [List.range_succ, List.foldl_append, e, List.foldl_cons, List.foldl_nil]
    simp only [f1]
    rfl

theorem U_length (pw salt : Bytes) (i j : Nat) : (pbkdfU (prf pw) salt i j).length = 64 := by
  cases j <;> exact prf_length _ _

theorem X_length (pw salt : Bytes) (i j : Nat) : (pbkdfXor (prf pw) salt i j).length = 64 := by
  induction j with
  | zero => exact U_length _ _ _ _
  | succ j ih => simp [pbkdfXor, ih, U_length]

theorem blocks_len (pw salt : Bytes) (c k : Nat) :
    (pbkdfBlocks (prf pw) salt c k).length = 64 * k := by
  induction k with
  | zero => rfl
  | succ k ih =>
    simp only [pbkdfBlocks, List.length_append, ih, pbkdfT, X_length]
    omega

theorem blocks_prefix (pw salt : Bytes) (c k m : Nat) (h : k ≤ m) :
    ∃ t, pbkdfBlocks (prf pw) salt c m = pbkdfBlocks (prf pw) salt c k ++ t := by
  induction m with
  | zero =>
    have : k = 0 := by omega
    subst this
    exact ⟨[], rfl⟩
  | succ m ih =>
    by_cases hk : k = m + 1
    · subst hk; exact ⟨[], by simp⟩
    · obtain ⟨t, ht⟩ := ih (by omega)
      exact ⟨t ++ pbkdfT (prf pw) salt c (m + 1), by rw [pbkdfBlocks, ht, List.append_assoc]⟩

theorem take_blocks (pw salt : Bytes) (c k n : Nat) (h : n ≤ 64 * k) :
    (pbkdfBlocks (prf pw) salt c k).take n = pbkdf2 (prf pw) salt c n := by
  unfold pbkdf2
  have hk := blocks_len pw salt c k
  have hn := blocks_len pw salt c n
  by_cases hkn : k ≤ n
  · obtain ⟨t, ht⟩ := blocks_prefix pw salt c k n hkn
    rw [ht, List.take_append_of_le_length (by omega)]
  · obtain ⟨t, ht⟩ := blocks_prefix pw salt c n k (by omega)
    rw [ht, List.take_append_of_le_length (by omega)]

theorem pbkdf2_length (pw salt : Bytes) (c n : Nat) : (pbkdf2 (prf pw) salt c n).length = n := by
  unfold pbkdf2
  rw [List.length_take, blocks_len]
  omega

theorem derive_ok {pw salt : Bytes} {c : Nat} {s : Pbkdf} (h : Inv pw salt c s)
    (hpw : pw.length ≤ 64) (n : Nat) (hn : n ≤ (2 ^ 32 - 1) * 64) :
    (s.derive n).2 = .ok (pbkdf2 (prf pw) salt c n) ∧ Inv pw salt c (s.derive n).1 := by
  unfold derive
  rw [if_neg (by omega)]
  have hk : (if (n : Int).fmod 64 ≠ 0 then (n : Int).fdiv 64 + 1 else (n : Int).fdiv 64).toNat =
      (n + 63) / 64 := by
    rw [Int.fmod_eq_emod_of_nonneg _ (by omega), Int.fdiv_eq_ediv_of_nonneg _ (by omega)]
    split <;> omega
  obtain ⟨s', e, hi⟩ := calcLoop h hpw ((n + 63) / 64)
  have hcalc : s.calculate n = (s', pbkdfBlocks (prf pw) salt c ((n + 63) / 64)) := by
    unfold calculate
    simp only [hk]
    exact e
  simp only [hcalc]
  refine ⟨?_, hi⟩
  rw [pyUpto_nat, take_blocks _ _ _ _ _ (by omega)]

/-- A negative length. -/
theorem derive_neg (s : Pbkdf) (n : Int) (hn : n < 0) : s.derive n = (s, .ok []) := by
  unfold derive
  rw [if_neg (by omega)]
  have hk : (if n.fmod 64 ≠ 0 then n.fdiv 64 + 1 else n.fdiv 64).toNat = 0 := by
    rw [Int.fmod_eq_emod_of_nonneg _ (by omega), Int.fdiv_eq_ediv_of_nonneg _ (by omega)]
    split <;> omega
  have hcalc : s.calculate n = (s, []) := by
    unfold calculate
    simp only [hk]
    rfl
  simp only [hcalc]
  simp [pyUpto]

end Pbkdf
end Gost
