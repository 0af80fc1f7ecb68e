import Verif.Proofs.Bytes
import Verif.Proofs.Basic

/-! Property C48: the byte helpers of `utils/utils.py`. -/

namespace Gost
open Spec (beNat beBytes)

theorem xor_toNat_eq_zero (a b : UInt8) : (a ^^^ b).toNat = 0 ↔ a = b := by
  constructor
  · intro h
    have h0 : a ^^^ b = 0 := UInt8.toNat_inj.mp h
    have : a ^^^ b ^^^ b = 0 ^^^ b := by rw [h0]
    simpa [UInt8.xor_assoc] using this
  · rintro rfl
    simp

theorem foldl_add_zero {α : Type} (f : α → Nat) (l : List α) (acc : Nat) :
    l.foldl (fun acc x => acc + f x) acc = 0 ↔ acc = 0 ∧ ∀ x ∈ l, f x = 0 := by
  induction l generalizing acc with
  | nil => simp
  | cons x l ih =>
    rw [List.foldl_cons, ih]
    constructor
    · rintro ⟨h1, h2⟩
      refine ⟨by omega, fun y hy => ?_⟩
      rcases List.mem_cons.1 hy with h | h
      · rw [h]; omega
      · exact h2 y h
    · rintro ⟨h1, h2⟩
      exact ⟨by rw [h1, h2 x (by simp)], fun y hy => h2 y (by simp [hy])⟩

theorem zip_xor_zero (a b : Bytes) (h : a.length = b.length) :
    (∀ x ∈ List.zip a b, (x.1 ^^^ x.2).toNat = 0) ↔ a = b := by
  induction a generalizing b with
  | nil =>
    cases b with
    | nil => simp
    | cons y b => simp at h
  | cons x a ih =>
    cases b with
    | nil => simp at h
    | cons y b =>
      rw [List.zip_cons_cons]
      simp only [List.length_cons, Nat.add_right_cancel_iff] at h
      constructor
      · intro hx
        rw [(xor_toNat_eq_zero x y).1 (hx (x, y) (by simp)), (ih b h).1 fun z hz => hx z (by simp [hz])]
      · intro hx
        injection hx with h1 h2
        intro z hz
        rcases List.mem_cons.1 hz with h3 | h3
        · rw [h3]; exact (xor_toNat_eq_zero x y).2 h1
        · exact (ih b h).2 h2 z h3

/-- **C48**: `compare` is equality of byte strings. -/
theorem C48_compare (a b : Bytes) : compare a b = true ↔ a = b := by
  unfold compare
  by_cases h : a.length = b.length
  · rw [if_neg (by simp [h])]
    dsimp only
    rw [beq_iff_eq, foldl_add_zero (fun x : UInt8 × UInt8 => (x.1 ^^^ x.2).toNat), zip_xor_zero a b h]
    simp
  · rw [if_pos (by simp [h])]
    constructor
    · intro hf; cases hf
    · intro he; exact absurd (congrArg List.length he) h

/-- **C48**: `compare_to_zero` says whether all bytes are zero. -/
theorem C48_compare_to_zero (a : Bytes) : compareToZero a = true ↔ ∀ x ∈ a, x = 0 := by
  unfold compareToZero
  rw [beq_iff_eq, foldl_add_zero (fun x : UInt8 => (x ^^^ 0).toNat)]
  simp only [true_and]
  exact ⟨fun h x hx => (xor_toNat_eq_zero x 0).1 (h x hx), fun h x hx => (xor_toNat_eq_zero x 0).2 (h x hx)⟩

/-- **C48**: bytes to integer to bytes. -/
theorem C48_bytes_int_bytes (b : Bytes) : intToBytes (bytesToInt b : Int) b.length = b := by
  rw [bytesToInt_eq, intToBytes_nat, beBytes_beNat]

/-- **C48**: integer to bytes to integer reduces modulo 256^n, for negative numbers too. -/
theorem C48_int_bytes_int (v : Int) (n : Nat) : (bytesToInt (intToBytes v n) : Int) = v % 256 ^ n := by
  have h0 : ((256 ^ n : Nat) : Int) ≠ 0 := by
    have : 0 < 256 ^ n := Nat.pow_pos (by decide)
    omega
  have h1 := Int.emod_nonneg v h0
  have h2 := Int.emod_lt_of_pos v (show (0 : Int) < ((256 ^ n : Nat) : Int) by
    have : 0 < 256 ^ n := Nat.pow_pos (by decide)
    omega)
  rw [bytesToInt_eq, intToBytes_eq, beNat_beBytes, Nat.mod_eq_of_lt (by omega), Int.toNat_of_nonneg h1,
    Int.natCast_pow]
  rfl

/-- **C48**: in particular values that fit are recovered. -/
theorem C48_int_fits (v n : Nat) (h : v < 256 ^ n) : bytesToInt (intToBytes (v : Int) n) = v := by
  rw [bytesToInt_eq, intToBytes_nat, beNat_beBytes, Nat.mod_eq_of_lt h]

/-- **C48**: `int_to_bytearray` gives `n` bytes, whose big-endian value is the number modulo 256^n;
`bytearray_to_int` is the big-endian value. -/
theorem C48_conversions (v : Int) (n : Nat) (b : Bytes) :
    (intToBytes v n).length = n ∧ (beNat (intToBytes v n) : Int) = v % 256 ^ n ∧ bytesToInt b = beNat b := by
  refine ⟨?_, ?_, bytesToInt_eq b⟩
  · simp [intToBytes]
  · rw [← bytesToInt_eq]; exact C48_int_bytes_int v n

/-- **C48**: `add_xor` is an involution on operands of equal length (in general: if the second
operand is not longer). -/
theorem C48_xor_involution (k b : Bytes) (h : b.length ≤ k.length) : addXor k (addXor k b) = b :=
  addXor_cancel k b h

/-- **C48**: `add_xor` is the xor of the bytes, of the length of the shorter operand. -/
theorem C48_xor_bytes (a b : Bytes) :
    (addXor a b).length = min a.length b.length ∧
    ∀ (i : Nat) (x y : UInt8), a[i]? = some x → b[i]? = some y → (addXor a b)[i]? = some (x ^^^ y) := by
  refine ⟨addXor_length a b, ?_⟩
  intro i x y hx hy
  unfold addXor
  rw [List.getElem?_zipWith, hx, hy]

/-- **C48** fails for `zero_fill`: the literal is `b'/x00'`, four bytes, none of them zero. So the
result has four times the length, contains no zero byte, and is right for empty values only. -/
theorem C48_zero_fill (b : Bytes) :
    (zeroFill b).length = 4 * b.length ∧ (0 : UInt8) ∉ zeroFill b ∧
    (zeroFill b = List.replicate b.length 0 ↔ b = []) := by
  have hl : (zeroFill b).length = 4 * b.length := by
    unfold zeroFill
    generalize b.length = n
    induction n with
    | zero => rfl
    | succ n ih =>
      rw [List.replicate_succ, List.flatten_cons, List.length_append, ih]
      simp [slashX00]; omega
  refine ⟨hl, ?_, ?_⟩
  · unfold zeroFill
    intro hm
    obtain ⟨l, h1, h2⟩ := List.mem_flatten.1 hm
    rw [List.eq_of_mem_replicate h1] at h2
    revert h2
    decide
  · constructor
    · intro h
      have := congrArg List.length h
      rw [hl, List.length_replicate] at this
      exact List.length_eq_zero_iff.1 (by omega)
    · rintro rfl; rfl

/-- The clause on `zero_fill` as stated. -/
def C48_statement : Prop := ∀ b : Bytes, zeroFill b = List.replicate b.length 0

theorem C48_statement_false : ¬ C48_statement := fun h => absurd (h [1]) (by decide)

/-- The clauses of C48 which hold; missing is `zero_fill`, which is wrong. -/
theorem C48_helpers_partial :
    (∀ b : Bytes, intToBytes (bytesToInt b : Int) b.length = b) ∧
    (∀ (v : Int) (n : Nat), (bytesToInt (intToBytes v n) : Int) = v % 256 ^ n) ∧
    (∀ a b : Bytes, compare a b = true ↔ a = b) ∧
    (∀ a : Bytes, compareToZero a = true ↔ ∀ x ∈ a, x = 0) ∧
    (∀ k b : Bytes, b.length = k.length → addXor k (addXor k b) = b) :=
  ⟨C48_bytes_int_bytes, C48_int_bytes_int, C48_compare, C48_compare_to_zero,
    fun k b h => C48_xor_involution k b (by omega)⟩

/-- Instances. -/
example : intToBytes (-2) 3 = [255, 255, 254] := by decide
example : intToBytes 0x010203 2 = [2, 3] := by decide
example : compare [1, 2] [1, 3] = false ∧ compare [1, 2] [1, 2] = true := by decide
example : zeroFill [7] = [47, 120, 48, 48] := by decide

end Gost
