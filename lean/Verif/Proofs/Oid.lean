import Verif.Model.Oid
import Verif.Spec.Oid
import Verif.Proofs.Bytes

/-! Encoding of numbers and lengths in object identifiers. -/

namespace Gost.Oid
open Spec (b128 b128hi be256 derLen beNat)

theorem bitLength_bounds (v : Nat) (h : v ≠ 0) :
    2 ^ (bitLength v - 1) ≤ v ∧ v < 2 ^ bitLength v ∧ 1 ≤ bitLength v := by
  unfold bitLength
  rw [if_neg h]
  exact ⟨Nat.log2_self_le h, Nat.lt_log2_self, by omega⟩

/-- `_len_int` is the number of digits. -/
theorem lenInt_bounds (v k : Nat) (hv : v ≠ 0) (hk : 0 < k) :
    (2 ^ k) ^ (lenInt v k - 1) ≤ v ∧ v < (2 ^ k) ^ lenInt v k ∧ 1 ≤ lenInt v k := by
  obtain ⟨h1, h2, h3⟩ := bitLength_bounds v hv
  generalize hb : bitLength v = bl at *
  have hdm := Nat.div_add_mod bl k
  have hml := Nat.mod_lt bl hk
  have hL : (lenInt v k - 1) * k ≤ bl - 1 ∧ bl ≤ lenInt v k * k ∧ 1 ≤ lenInt v k := by
    unfold lenInt
    simp only [hb]
    split
    · next h0 =>
      have : bl < k := by
        rcases Nat.div_eq_zero_iff.1 h0 with h | h
        · omega
        · exact h
      refine ⟨by simp, by omega, Nat.le_refl 1⟩
    · next h0 =>
      split
      · next hm =>
        refine ⟨?_, ?_, Nat.le_add_left 1 _⟩
        · rw [Nat.add_sub_cancel, Nat.mul_comm]; omega
        · rw [Nat.succ_mul, Nat.mul_comm]; omega
      · next hm =>
        refine ⟨?_, ?_, Nat.one_le_iff_ne_zero.2 h0⟩
        · rw [Nat.sub_mul, Nat.one_mul, Nat.mul_comm]; omega
        · rw [Nat.mul_comm]; omega
  obtain ⟨h4, h5, h6⟩ := hL
  refine ⟨?_, ?_, h6⟩
  · rw [← Nat.pow_mul, Nat.mul_comm]
    exact Nat.le_trans (Nat.pow_le_pow_right (by decide) h4) h1
  · rw [← Nat.pow_mul, Nat.mul_comm]
    exact Nat.lt_of_lt_of_le h2 (Nat.pow_le_pow_right (by decide) h5)

/-- Base 128 digits without any continuation bits. -/
def b7 (v : Nat) : Bytes := if v = 0 then [] else b7 (v / 128) ++ [UInt8.ofNat (v % 128)]
decreasing_by omega

theorem digits7 (L : Nat) : ∀ v, (128 ^ (L - 1) ≤ v ∨ L = 0) → v < 128 ^ L → digits 7 L v = b7 v := by
  induction L with
  | zero => intro v _ h; simp at h; subst h; rw [b7]; rfl
  | succ L ih =>
    intro v h1 h2
    have hv : v ≠ 0 := by
      rcases h1 with h1 | h1
      · have : 0 < 128 ^ (L + 1 - 1) := Nat.pow_pos (by decide)
        omega
      · omega
    rw [digits, b7, if_neg hv, Nat.shiftRight_eq_div_pow, ih]
    · rw [show (2 ^ 7 - 1 : Nat) = 2 ^ 7 - 1 from rfl, Nat.and_two_pow_sub_one_eq_mod]
    · cases L with
      | zero => exact Or.inr rfl
      | succ L =>
        left
        rcases h1 with h1 | h1
        · rw [show L + 1 + 1 - 1 = (L + 1 - 1) + 1 by omega, Nat.pow_succ] at h1
          exact (Nat.le_div_iff_mul_le (by decide)).2 h1
        · omega
    · rw [Nat.pow_succ] at h2
      exact (Nat.div_lt_iff_lt_mul (by decide)).2 h2

theorem digits8 (L : Nat) : ∀ v, (256 ^ (L - 1) ≤ v ∨ L = 0) → v < 256 ^ L → digits 8 L v = be256 v := by
  induction L with
  | zero => intro v _ h; simp at h; subst h; rw [be256]; rfl
  | succ L ih =>
    intro v h1 h2
    have hv : v ≠ 0 := by
      rcases h1 with h1 | h1
      · have : 0 < 256 ^ (L + 1 - 1) := Nat.pow_pos (by decide)
        omega
      · omega
    rw [digits, be256, if_neg hv, Nat.shiftRight_eq_div_pow, ih]
    · rw [show (2 ^ 8 - 1 : Nat) = 2 ^ 8 - 1 from rfl, Nat.and_two_pow_sub_one_eq_mod]
    · cases L with
      | zero => exact Or.inr rfl
      | succ L =>
        left
        rcases h1 with h1 | h1
        · rw [show L + 1 + 1 - 1 = (L + 1 - 1) + 1 by omega, Nat.pow_succ] at h1
          exact (Nat.le_div_iff_mul_le (by decide)).2 h1
        · omega
    · rw [Nat.pow_succ] at h2
      exact (Nat.div_lt_iff_lt_mul (by decide)).2 h2

theorem digits_length (k n v : Nat) : (digits k n v).length = n := by
  induction n generalizing v with
  | zero => rfl
  | succ n ih => simp [digits, ih]

/-- The continuation bit on the first octet only. -/
def headBit : Bytes → Bytes
  | [] => []
  | b :: l => (b ||| 0x80) :: l

/-- What the code writes for a component. -/
def codeOctets (v : Nat) : Bytes := if v < 128 then [UInt8.ofNat v] else headBit (b7 v)

theorem b7_ne_nil (v : Nat) (h : v ≠ 0) : b7 v ≠ [] := by
  rw [b7, if_neg h]; simp

theorem intToOctet_nat (v : Nat) : intToOctet (v : Int) = .ok (codeOctets v) := by
  unfold intToOctet codeOctets
  rw [if_neg (by omega)]
  simp only [Int.toNat_natCast]
  by_cases h : v < 0x80
  · rw [if_pos h, if_pos h]
  · rw [if_neg h, if_neg h]
    obtain ⟨h1, h2, h3⟩ := lenInt_bounds v 7 (by omega) (by decide)
    rw [digits7 _ v (Or.inl h1) h2]
    cases hb : b7 v with
    | nil => exact absurd hb (b7_ne_nil v (by omega))
    | cons b l => rfl

theorem intToOctet_neg (v : Int) (h : v < 0) : intToOctet v = .error .overflowError := by
  unfold intToOctet; rw [if_pos h]

theorem be256_length_lt (n L : Nat) (h : n < 256 ^ L) : (be256 n).length ≤ L := by
  induction L generalizing n with
  | zero => simp at h; subst h; rw [be256]; simp
  | succ L ih =>
    rw [be256]
    split
    · simp
    · rw [List.length_append]
      have := ih (n / 256) ((Nat.div_lt_iff_lt_mul (by decide)).2 (by rwa [Nat.pow_succ] at h))
      simp; omega

theorem lenOidOctet_eq (n : Nat) (h : n < 256 ^ 126) : lenOidOctet n = .ok (derLen n) := by
  unfold lenOidOctet derLen
  by_cases hn : n < 0x80
  · rw [if_pos hn, if_pos hn]
  · rw [if_neg hn, if_neg hn]
    obtain ⟨h1, h2, h3⟩ := lenInt_bounds n 8 (by omega) (by decide)
    have hd := digits8 _ n (Or.inl h1) h2
    have hlen : (be256 n).length = lenInt n 8 := by rw [← hd, digits_length]
    have hle := be256_length_lt n 126 h
    have hor : 0x80 ||| lenInt n 8 = 128 + lenInt n 8 := by
      have := Nat.two_pow_add_eq_or_of_lt (i := 7) (b := lenInt n 8) (by omega) 1
      simpa using this.symm
    simp only [hor]
    rw [if_neg (by omega), hd, hlen]

/-! ### Decoding -/

/-- Read one base 128 number. -/
def readNum : Nat → Bytes → Option (Nat × Bytes)
  | _, [] => none
  | acc, b :: l => if b.toNat < 128 then some (acc * 128 + b.toNat, l)
      else readNum (acc * 128 + (b.toNat - 128)) l

theorem readNum_hi (v : Nat) : ∀ r, readNum 0 (b128hi v ++ r) = readNum v r := by
  induction v using Nat.strongRecOn with
  | _ v ih =>
    intro r
    rw [b128hi]
    split
    · next h => subst h; rfl
    · next h =>
      rw [List.append_assoc, ih (v / 128) (by omega), List.singleton_append, readNum]
      have hb : (UInt8.ofNat (v % 128 + 128)).toNat = v % 128 + 128 :=
        UInt8.toNat_ofNat_of_lt' (by show _ < 256; omega)
      rw [hb, if_neg (by omega), show v / 128 * 128 + (v % 128 + 128 - 128) = v by omega]

theorem readNum_b128 (v : Nat) (r : Bytes) : readNum 0 (b128 v ++ r) = some (v, r) := by
  rw [b128, List.append_assoc, readNum_hi, List.singleton_append, readNum]
  have hb : (UInt8.ofNat (v % 128)).toNat = v % 128 :=
    UInt8.toNat_ofNat_of_lt' (by show _ < 256; omega)
  rw [hb, if_pos (by omega)]
  congr 2
  omega

theorem b128_ne_nil (v : Nat) : b128 v ≠ [] := by simp [b128]

theorem flatMap_inj (l : List Nat) : ∀ l', l.flatMap b128 = l'.flatMap b128 → l = l' := by
  induction l with
  | nil =>
    intro l' h
    cases l' with
    | nil => rfl
    | cons v l' =>
      exfalso
      have := congrArg List.length h
      simp only [List.flatMap_nil, List.flatMap_cons, List.length_nil, List.length_append] at this
      have := List.length_pos_iff.2 (b128_ne_nil v)
      omega
  | cons u l ih =>
    intro l' h
    cases l' with
    | nil =>
      exfalso
      have := congrArg List.length h
      simp only [List.flatMap_nil, List.flatMap_cons, List.length_nil, List.length_append] at this
      have := List.length_pos_iff.2 (b128_ne_nil u)
      omega
    | cons v l' =>
      rw [List.flatMap_cons, List.flatMap_cons] at h
      have h1 := congrArg (readNum 0) h
      rw [readNum_b128, readNum_b128] at h1
      injection h1 with h1
      rw [Prod.mk.injEq] at h1
      rw [h1.1, ih l' h1.2]

theorem beNat_be256 (n : Nat) : beNat (be256 n) = n := by
  induction n using Nat.strongRecOn with
  | _ n ih =>
    rw [be256]
    split
    · next h => subst h; rfl
    · rw [beNat_append, ih (n / 256) (by omega)]
      have hb : (UInt8.ofNat (n % 256)).toNat = n % 256 :=
        UInt8.toNat_ofNat_of_lt' (by show _ < 256; omega)
      simp only [beNat, List.length_singleton, List.length_nil, hb]
      omega

/-- Read a length. -/
def readLen : Bytes → Option (Nat × Bytes)
  | [] => none
  | b :: l => if b.toNat < 128 then some (b.toNat, l)
      else some (beNat (l.take (b.toNat - 128)), l.drop (b.toNat - 128))

theorem readLen_derLen (n : Nat) (h : n < 256 ^ 126) (r : Bytes) : readLen (derLen n ++ r) = some (n, r) := by
  unfold derLen
  split
  · next hn =>
    have hb : (UInt8.ofNat n).toNat = n := UInt8.toNat_ofNat_of_lt' (by show _ < 256; omega)
    rw [List.singleton_append, readLen, hb, if_pos hn]
  · next hn =>
    have hle := be256_length_lt n 126 h
    have hb : (UInt8.ofNat (128 + (be256 n).length)).toNat = 128 + (be256 n).length :=
      UInt8.toNat_ofNat_of_lt' (by show _ < 256; omega)
    rw [List.cons_append, readLen, hb, if_neg (by omega), Nat.add_sub_cancel_left, List.take_left' rfl,
      List.drop_left' rfl, beNat_be256]

/-! ### Comparison of the two encodings -/

theorem b7_length (v : Nat) : (b7 v).length = (b128hi v).length := by
  induction v using Nat.strongRecOn with
  | _ v ih =>
    rw [b7, b128hi]
    split
    · rfl
    · rw [List.length_append, List.length_append, ih (v / 128) (by omega)]; rfl

theorem codeOctets_length (v : Nat) : (codeOctets v).length = (b128 v).length := by
  unfold codeOctets
  split
  · next h => rw [b128, show v / 128 = 0 by omega, b128hi]; rfl
  · next h =>
    have hl : (headBit (b7 v)).length = (b7 v).length := by
      cases b7 v <;> rfl
    rw [hl, b7, if_neg (by omega), b128, List.length_append, List.length_append, b7_length]

theorem b7_small (v : Nat) : ∀ b ∈ b7 v, b.toNat < 128 := by
  induction v using Nat.strongRecOn with
  | _ v ih =>
    rw [b7]
    split
    · intro b h; cases h
    · intro b hb
      rcases List.mem_append.1 hb with h | h
      · exact ih (v / 128) (by omega) b h
      · rw [List.mem_singleton.1 h]
        rw [UInt8.toNat_ofNat_of_lt' (by show _ < 256; omega)]
        omega

theorem b128hi_large (v : Nat) : ∀ b ∈ b128hi v, 128 ≤ b.toNat := by
  induction v using Nat.strongRecOn with
  | _ v ih =>
    rw [b128hi]
    split
    · intro b h; cases h
    · intro b hb
      rcases List.mem_append.1 hb with h | h
      · exact ih (v / 128) (by omega) b h
      · rw [List.mem_singleton.1 h]
        rw [UInt8.toNat_ofNat_of_lt' (by show _ < 256; omega)]
        omega

theorem or80 (n : Nat) (h : n < 128) : (UInt8.ofNat n ||| 0x80 : UInt8) = UInt8.ofNat (n + 128) := by
  apply UInt8.toNat_inj.mp
  rw [UInt8.toNat_or, UInt8.toNat_ofNat_of_lt' (by show _ < 256; omega),
    UInt8.toNat_ofNat_of_lt' (by show _ < 256; omega)]
  have := Nat.two_pow_add_eq_or_of_lt (i := 7) (b := n) (by omega) 1
  rw [show (0x80 : UInt8).toNat = 2 ^ 7 * 1 from rfl, Nat.or_comm, ← this]
  omega

/-- The code agrees with DER exactly for components below 2^14. -/
theorem codeOctets_iff (v : Nat) : codeOctets v = b128 v ↔ v < 2 ^ 14 := by
  constructor
  · intro h
    refine Nat.lt_of_not_le fun hv => ?_
    have h2 : 2 ≤ (b128hi (v / 128)).length := by
      rw [b128hi, if_neg (by omega), b128hi, if_neg (by omega)]
      simp
    have e1 : (b128 v)[1]? = (b128hi (v / 128))[1]? := by
      rw [b128, List.getElem?_append_left (by omega)]
    obtain ⟨b, hb⟩ : ∃ b, (b128hi (v / 128))[1]? = some b := ⟨_, List.getElem?_eq_getElem (by omega)⟩
    have hbig := b128hi_large _ b (List.mem_of_getElem? hb)
    rw [← h, hb] at e1
    unfold codeOctets at e1
    rw [if_neg (by omega)] at e1
    have e2 : (b7 v)[1]? = some b := by
      rw [← e1]
      cases b7 v with
      | nil => rfl
      | cons c l => rfl
    have := b7_small v b (List.mem_of_getElem? e2)
    omega
  · intro hv
    unfold codeOctets
    split
    · next h =>
      rw [b128, show v / 128 = 0 by omega, b128hi, if_pos rfl, Nat.mod_eq_of_lt h]
      rfl
    · next h =>
      rw [b7, if_neg (by omega), b7, if_neg (by omega), show v / 128 / 128 = 0 by omega, b7, if_pos rfl]
      rw [b128, b128hi, if_neg (by omega), show v / 128 / 128 = 0 by omega, b128hi, if_pos rfl]
      simp only [List.nil_append, List.cons_append, headBit]
      rw [or80 _ (by omega)]

end Gost.Oid
