import Verif.Props.Field
import Verif.Props.MacChange

/-! Property C87: the two masking keys of the MAC, and the message which looks like the padding of
another. -/

namespace Gost
open Polynomial
open Spec (Alg bitPoly macPoly blocks rest)

/-- Only the zero string is its own double. -/
theorem macDouble_fixed (a : Alg) (v : Bytes) (hv : v.length = a.blockSize)
    (h : Spec.macDouble a.blockSize v = v) : v = List.replicate a.blockSize 0 := by
  rcases macDouble_cases a v hv with ⟨_, e⟩ | e
  · rw [h] at e
    have h0 : bitPoly (Spec.beNat v) = 0 := by
      have : (X - 1 : (ZMod 2)[X]) * bitPoly (Spec.beNat v) = 0 := by rw [sub_mul, ← e]; ring
      rcases mul_eq_zero.1 this with h1 | h1
      · exact absurd h1 (X_sub_C_ne_zero 1)
      · exact h1
    have := bitPoly_inj (h0.trans bitPoly_zero.symm)
    exact beNat_inj _ _ (by simp [hv]) (by rw [this, beNat_zeros])
  · rw [h] at e
    have e' := congrArg (fun p => p.eval 1) e
    simp only [eval_add, eval_mul, eval_X, one_mul, macPoly_eval_one] at e'
    exact absurd e' (by simp)

/-- Only the zero string doubles to zero. -/
theorem macDouble_zero (a : Alg) (v : Bytes) (hv : v.length = a.blockSize)
    (h : Spec.macDouble a.blockSize v = List.replicate a.blockSize 0) :
    v = List.replicate a.blockSize 0 := by
  rcases macDouble_cases a v hv with ⟨_, e⟩ | e
  · rw [h, beNat_zeros, bitPoly_zero] at e
    rcases mul_eq_zero.1 e.symm with h1 | h1
    · exact absurd h1 X_ne_zero
    · exact beNat_inj _ _ (by simp [hv]) (by rw [bitPoly_inj (h1.trans bitPoly_zero.symm), beNat_zeros])
  · rw [h, beNat_zeros, bitPoly_zero] at e
    have e' := congrArg (fun p => p.eval 0) e
    have m0 : (macPoly a.blockSize).eval 0 = 1 := by
      cases a
      · rw [macPoly_kuz]; simp
      · rw [macPoly_magma]; simp
    simp [m0] at e'

theorem macDouble_of_zero (a : Alg) :
    Spec.macDouble a.blockSize (List.replicate a.blockSize 0) = List.replicate a.blockSize 0 := by
  cases a <;> decide

/-- The masking keys are equal exactly if the cipher maps the zero block to itself. -/
theorem macKeys_eq_iff (a : Alg) (E : Bytes → Bytes)
    (hE : (E (List.replicate a.blockSize 0)).length = a.blockSize) :
    Spec.macKey1 E a.blockSize = Spec.macKey2 E a.blockSize ↔
      E (List.replicate a.blockSize 0) = List.replicate a.blockSize 0 := by
  unfold Spec.macKey2 Spec.macKey1
  constructor
  · intro h
    exact macDouble_zero a _ hE (macDouble_fixed a _ (macDouble_length _ _) h.symm)
  · intro h
    rw [h, macDouble_of_zero, macDouble_of_zero]

/-- C87, keys: in every MAC object the two keys differ, unless the cipher under the key of the
object maps the zero block to itself; then both are zero. -/
theorem C87_keys (a : Alg) (kv : PyVal) (key : Bytes) (hk : kv.data? = some key)
    (hl : key.length = 32) (dat : Option PyVal) (s : Mac)
    (h : newCipher a.name kv modeMac (data := dat) = .ok (.mac s)) :
    (s.key1 = s.key2 ↔ a.encrypt key (List.replicate a.blockSize 0) = List.replicate a.blockSize 0) ∧
    (s.key1 = List.replicate a.blockSize 0 ↔
      a.encrypt key (List.replicate a.blockSize 0) = List.replicate a.blockSize 0) ∧
    (s.key2 = List.replicate a.blockSize 0 ↔
      a.encrypt key (List.replicate a.blockSize 0) = List.replicate a.blockSize 0) := by
  obtain ⟨e1, e2⟩ := mac_keys_of_new a kv key hk hl dat s h
  have hE := encrypt_zero_length a key hl
  rw [e1, e2]
  refine ⟨macKeys_eq_iff a _ hE, ⟨macDouble_zero a _ hE, fun h => ?_⟩,
    ⟨fun h => macDouble_zero a _ hE (macDouble_zero a _ (macDouble_length _ _) h), fun h => ?_⟩⟩
  · rw [Spec.macKey1, h, macDouble_of_zero]
  · rw [Spec.macKey2, Spec.macKey1, h, macDouble_of_zero, macDouble_of_zero]

/-- C87: a message which does not end with a whole block (or is empty) and the same message followed
by the padding have the same full-length MAC exactly if the cipher maps the zero block to itself. -/
theorem C87_padding (a : Alg) (kv m₁ m₂ : PyVal) (key msg : Bytes) (hk : kv.data? = some key)
    (hkl : key.length = 32) (h₁ : m₁.data? = some msg)
    (h₂ : m₂.data? = some (msg ++ 0x80 :: List.replicate (a.blockSize - 1 - msg.length % a.blockSize) 0))
    (hlen : msg = [] ∨ a.blockSize ≤ msg.length ∧ msg.length % a.blockSize ≠ 0) :
    ∃ s₁ s₂ r₁ r₂, newCipher a.name kv modeMac (data := some m₁) = .ok (.mac s₁) ∧
      newCipher a.name kv modeMac (data := some m₂) = .ok (.mac s₂) ∧
      (s₁.digest a.blockSize).2 = .ok r₁ ∧ (s₂.digest a.blockSize).2 = .ok r₂ ∧
      (r₁ = r₂ ↔ a.encrypt key (List.replicate a.blockSize 0) = List.replicate a.blockSize 0) := by
  obtain ⟨o, D, hg, hbs, hI, _, _⟩ := new_mac a kv key hk hkl none none
  have hn : 0 < a.blockSize := by cases a <;> decide
  have hE : PermOn a.blockSize (a.encrypt key) := by
    rw [← hbs]
    exact ⟨hI.enc_len, fun b c hb hc h => hI.E_inj b c hb hc h⟩
  have hmod := Nat.mod_lt msg.length hn
  have hdm := Nat.div_add_mod msg.length a.blockSize
  generalize hP : rest a.blockSize msg ++
    0x80 :: List.replicate (a.blockSize - 1 - msg.length % a.blockSize) 0 = P
  have hPl : P.length = a.blockSize := by rw [← hP]; simp [rest_length]; omega
  have hB : ∀ b ∈ blocks a.blockSize msg, b.length = a.blockSize := fun b hb => mem_blocks_length hb
  have hfl := flatten_blocks_rest a.blockSize hn msg
  have hm2 : msg ++ 0x80 :: List.replicate (a.blockSize - 1 - msg.length % a.blockSize) 0 =
      (blocks a.blockSize msg ++ [P]).flatten := by
    rw [List.flatten_append, List.flatten_singleton, ← hP, ← List.append_assoc, hfl]
  have hB2 : ∀ b ∈ blocks a.blockSize msg ++ [P], b.length = a.blockSize := by
    intro b hb
    rcases List.mem_append.1 hb with h | h
    · exact hB b h
    · rw [List.mem_singleton.1 h, hPl]
  have hlen2 : (msg ++ 0x80 :: List.replicate (a.blockSize - 1 - msg.length % a.blockSize) 0).length =
      a.blockSize * (msg.length / a.blockSize + 1) := by
    simp only [List.length_append, List.length_cons, List.length_replicate, Nat.mul_add]; omega
  have hblk2 := blocks_flatten a.blockSize hn _ hB2
  rw [← hm2] at hblk2
  obtain ⟨⟨s₁, n₁, d₁⟩, _⟩ := C17_omac_partial a kv m₁ key _ hk hkl h₁
    (hlen.imp id (·.1)) a.blockSize (Nat.le_refl _)
  obtain ⟨⟨s₂, n₂, d₂⟩, _⟩ := C17_omac_partial a kv m₂ key _ hk hkl h₂
    (Or.inr (by rw [hlen2]; exact Nat.le_mul_of_pos_right _ (Nat.succ_pos _))) a.blockSize (Nat.le_refl _)
  refine ⟨s₁, s₂, _, _, n₁, n₂, d₁, d₂, ?_⟩
  have hz : (List.replicate a.blockSize (0 : UInt8)).length = a.blockSize := by simp
  have hc := macChain_len hE _ _ hz hB
  have o1 : Spec.omac (a.encrypt key) a.blockSize msg = a.encrypt key (Spec.xor (Spec.xor P
      (Spec.macChain (a.encrypt key) (List.replicate a.blockSize 0) (blocks a.blockSize msg)))
      (Spec.macKey2 (a.encrypt key) a.blockSize)) := by
    unfold Spec.omac
    rw [if_neg (by rintro ⟨h0, h⟩; rcases hlen with h' | h'; exact h0 h'; exact h'.2 h), hP]
  have o2 : Spec.omac (a.encrypt key) a.blockSize
      (msg ++ 0x80 :: List.replicate (a.blockSize - 1 - msg.length % a.blockSize) 0) =
      a.encrypt key (Spec.xor (Spec.xor P
      (Spec.macChain (a.encrypt key) (List.replicate a.blockSize 0) (blocks a.blockSize msg)))
      (Spec.macKey1 (a.encrypt key) a.blockSize)) := by
    unfold Spec.omac
    rw [if_pos ⟨by simp, by rw [hlen2, Nat.mul_mod_right]⟩, hblk2]
    simp
  have lx : (Spec.xor P (Spec.macChain (a.encrypt key) (List.replicate a.blockSize 0)
      (blocks a.blockSize msg))).length = a.blockSize := by rw [specXor_length, hPl, hc, Nat.min_self]
  have lk1 : (Spec.macKey1 (a.encrypt key) a.blockSize).length = a.blockSize := macDouble_length _ _
  have lk2 : (Spec.macKey2 (a.encrypt key) a.blockSize).length = a.blockSize := macDouble_length _ _
  have l1 : (Spec.xor (Spec.xor P (Spec.macChain (a.encrypt key) (List.replicate a.blockSize 0)
      (blocks a.blockSize msg))) (Spec.macKey1 (a.encrypt key) a.blockSize)).length = a.blockSize := by
    rw [specXor_length, lx, lk1, Nat.min_self]
  have l2 : (Spec.xor (Spec.xor P (Spec.macChain (a.encrypt key) (List.replicate a.blockSize 0)
      (blocks a.blockSize msg))) (Spec.macKey2 (a.encrypt key) a.blockSize)).length = a.blockSize := by
    rw [specXor_length, lx, lk2, Nat.min_self]
  rw [o1, o2, List.take_of_length_le (Nat.le_of_eq (hE.len _ l2)),
    List.take_of_length_le (Nat.le_of_eq (hE.len _ l1)),
    ← macKeys_eq_iff a _ (encrypt_zero_length a key hkl)]
  constructor
  · intro h
    exact (xor_inj_left lk2 lk1 lx (hE.inj _ _ l2 l1 h)).symm
  · intro h
    rw [h]

/-- Messages as in the theorem, and a key for which the zero block is not mapped to itself. -/
example : Alg.magma.blockSize ≤ (Ex.count 1 11).length ∧ (Ex.count 1 11).length % Alg.magma.blockSize ≠ 0 ∧
    Alg.magma.encrypt Ex.key (List.replicate 8 0) ≠ List.replicate 8 0 := by
  refine ⟨by decide, by decide, by decide +kernel⟩

end Gost
