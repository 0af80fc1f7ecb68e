import Verif.Props.Mac

/-! Property C76: a change confined to one block changes the MAC. -/

namespace Gost
open Spec (Alg blocks rest)

/-- The strings whose blocks the MAC chains: the blocks of the message, the last one padded. -/
def macBlocks (n : Nat) (msg : Bytes) : List Bytes :=
  if msg.length % n = 0 then blocks n msg
  else blocks n msg ++ [rest n msg ++ 0x80 :: List.replicate (n - 1 - msg.length % n) 0]

/-- The MAC from its chain of blocks and the masking key. -/
def macEnd (E : Bytes → Bytes) (n : Nat) (K : Bytes) (L : List Bytes) : Bytes :=
  E (Spec.xor (Spec.xor (L.getLastD []) (Spec.macChain E (List.replicate n 0) L.dropLast)) K)

theorem omac_eq_macEnd (E : Bytes → Bytes) (n : Nat) (msg : Bytes) (h0 : msg ≠ []) :
    Spec.omac E n msg = macEnd E n
      (if msg.length % n = 0 then Spec.macKey1 E n else Spec.macKey2 E n) (macBlocks n msg) := by
  unfold Spec.omac macEnd macBlocks
  by_cases h : msg.length % n = 0
  · rw [if_pos ⟨h0, h⟩, if_pos h, if_pos h]
  · rw [if_neg (fun hh => h hh.2), if_neg h, if_neg h]
    simp

theorem macBlocks_append (n : Nat) (hn : 0 < n) (p d : Bytes) (hp : p.length % n = 0) :
    macBlocks n (p ++ d) = blocks n p ++ macBlocks n d := by
  have hd : n ∣ p.length := Nat.dvd_of_mod_eq_zero hp
  have hm : (p ++ d).length % n = d.length % n := by
    rw [List.length_append, Nat.add_mod, hp, Nat.zero_add, Nat.mod_mod]
  unfold macBlocks
  rw [hm, blocks_append n hn p d hd, rest_append n hn p d hd]
  split
  · rfl
  · rw [List.append_assoc]

theorem macBlocks_length {n : Nat} (hn : 0 < n) {msg b : Bytes} (h : b ∈ macBlocks n msg) :
    b.length = n := by
  unfold macBlocks at h
  split at h
  · exact mem_blocks_length h
  · rcases List.mem_append.1 h with h | h
    · exact mem_blocks_length h
    · rw [List.mem_singleton.1 h]
      have := Nat.mod_lt msg.length hn
      simp [rest_length]
      omega

theorem specXor_length (a b : Bytes) : (Spec.xor a b).length = min a.length b.length := by
  simp [Spec.xor]

theorem xor_inj_right {n : Nat} {a b c : Bytes} (ha : a.length = n) (hb : b.length = n)
    (hc : c.length = n) (h : Spec.xor a c = Spec.xor b c) : a = b := by
  have h' : addXor a c = addXor b c := h
  rw [addXor_comm a c, addXor_comm b c] at h'
  exact addXor_left_cancel c a b (by omega) (by omega) h'

theorem xor_inj_left {n : Nat} {a b c : Bytes} (ha : a.length = n) (hb : b.length = n)
    (hc : c.length = n) (h : Spec.xor c a = Spec.xor c b) : a = b :=
  addXor_left_cancel c a b (by omega) (by omega) h

/-- A permutation of the blocks of `n` bytes. -/
structure PermOn (n : Nat) (E : Bytes → Bytes) : Prop where
  len : ∀ b : Bytes, b.length = n → (E b).length = n
  inj : ∀ b c : Bytes, b.length = n → c.length = n → E b = E c → b = c

theorem macChain_len {n : Nat} {E : Bytes → Bytes} (hE : PermOn n E) (P : List Bytes) :
    ∀ c : Bytes, c.length = n → (∀ b ∈ P, b.length = n) → (Spec.macChain E c P).length = n := by
  induction P with
  | nil => intro c hc _; exact hc
  | cons p P ih =>
    intro c hc hP
    exact ih _ (hE.len _ (by rw [specXor_length, hP p (by simp), hc, Nat.min_self]))
      (fun b hb => hP b (by simp [hb]))

theorem macChain_inj {n : Nat} {E : Bytes → Bytes} (hE : PermOn n E) (P : List Bytes) :
    ∀ c c' : Bytes, c.length = n → c'.length = n → (∀ b ∈ P, b.length = n) →
      Spec.macChain E c P = Spec.macChain E c' P → c = c' := by
  induction P with
  | nil => intro c c' _ _ _ h; exact h
  | cons p P ih =>
    intro c c' hc hc' hP h
    have hp := hP p (by simp)
    have l1 : (Spec.xor p c).length = n := by rw [specXor_length, hp, hc, Nat.min_self]
    have l2 : (Spec.xor p c').length = n := by rw [specXor_length, hp, hc', Nat.min_self]
    have := ih _ _ (hE.len _ l1) (hE.len _ l2) (fun b hb => hP b (by simp [hb])) h
    exact xor_inj_left hc hc' hp (hE.inj _ _ l1 l2 this)

theorem macEnd_ne {n : Nat} {E : Bytes → Bytes} (hE : PermOn n E) (K : Bytes) (hK : K.length = n)
    (A B : List Bytes) (x y : Bytes) (hA : ∀ b ∈ A, b.length = n) (hB : ∀ b ∈ B, b.length = n)
    (hx : x.length = n) (hy : y.length = n) (hxy : x ≠ y) :
    macEnd E n K (A ++ x :: B) ≠ macEnd E n K (A ++ y :: B) := by
  intro h
  have hz : (List.replicate n (0 : UInt8)).length = n := by simp
  have hc := macChain_len hE A _ hz hA
  have lx : (Spec.xor x (Spec.macChain E (List.replicate n 0) A)).length = n := by
    rw [specXor_length, hx, hc, Nat.min_self]
  have ly : (Spec.xor y (Spec.macChain E (List.replicate n 0) A)).length = n := by
    rw [specXor_length, hy, hc, Nat.min_self]
  rcases List.eq_nil_or_concat B with rfl | ⟨B', z, rfl⟩
  · unfold macEnd at h
    simp only [List.getLastD_concat, List.dropLast_concat] at h
    have h1 := hE.inj _ _ (by rw [specXor_length, lx, hK, Nat.min_self])
      (by rw [specXor_length, ly, hK, Nat.min_self]) h
    exact hxy (xor_inj_right hx hy hc (xor_inj_right lx ly hK h1))
  · rw [List.concat_eq_append] at h hB
    have hz' : z.length = n := hB z (by simp)
    have hB' : ∀ b ∈ B', b.length = n := fun b hb => hB b (by simp [hb])
    have e : ∀ w : Bytes, A ++ w :: (B' ++ [z]) = (A ++ w :: B') ++ [z] := fun w => by simp
    have m : ∀ w : Bytes, Spec.macChain E (List.replicate n 0) (A ++ w :: B') =
        Spec.macChain E (E (Spec.xor w (Spec.macChain E (List.replicate n 0) A))) B' := fun w => by
      unfold Spec.macChain
      rw [List.foldl_append, List.foldl_cons]
    rw [e x, e y] at h
    unfold macEnd at h
    simp only [List.getLastD_concat, List.dropLast_concat, m] at h
    have cx := macChain_len hE B' _ (hE.len _ lx) hB'
    have cy := macChain_len hE B' _ (hE.len _ ly) hB'
    have l1 := (specXor_length z (Spec.macChain E (E (Spec.xor x (Spec.macChain E (List.replicate n 0) A))) B')).trans
      (by rw [hz', cx, Nat.min_self] : _ = n)
    have l2 := (specXor_length z (Spec.macChain E (E (Spec.xor y (Spec.macChain E (List.replicate n 0) A))) B')).trans
      (by rw [hz', cy, Nat.min_self] : _ = n)
    have h1 := hE.inj _ _ (by rw [specXor_length, l1, hK, Nat.min_self])
      (by rw [specXor_length, l2, hK, Nat.min_self]) h
    have h2 := xor_inj_left cx cy hz' (xor_inj_right l1 l2 hK h1)
    have h3 := hE.inj _ _ lx ly (macChain_inj hE B' _ _ (hE.len _ lx) (hE.len _ ly) hB' h2)
    exact hxy (xor_inj_right hx hy hc h3)

/-- Two strings of the same length which are not longer than a block and differ have different
padded blocks. -/
theorem macBlocks_one {n : Nat} (hn : 0 < n) (x y : Bytes) (hl : x.length = y.length)
    (hx : x.length ≤ n) (hxy : x ≠ y) :
    ∃ u v, macBlocks n x = [u] ∧ macBlocks n y = [v] ∧ u.length = n ∧ v.length = n ∧ u ≠ v := by
  rcases Nat.lt_or_eq_of_le hx with h | h
  · have h0 : x.length ≠ 0 := by
      intro h0
      have e1 := List.length_eq_zero_iff.1 h0
      have e2 := List.length_eq_zero_iff.1 (hl ▸ h0)
      exact hxy (e1.trans e2.symm)
    have hm : x.length % n = x.length := Nat.mod_eq_of_lt h
    have hm' : y.length % n = x.length := by rw [← hl]; exact hm
    refine ⟨x ++ 0x80 :: List.replicate (n - 1 - x.length) 0,
      y ++ 0x80 :: List.replicate (n - 1 - x.length) 0, ?_, ?_, ?_, ?_, ?_⟩
    · unfold macBlocks
      rw [hm, if_neg h0, blocks_of_lt n x h, rest_of_lt n x h, List.nil_append]
    · unfold macBlocks
      rw [hm', if_neg h0, blocks_of_lt n y (hl ▸ h), rest_of_lt n y (hl ▸ h), List.nil_append]
    · simp; omega
    · simp; omega
    · intro e
      exact hxy (List.append_inj_left e hl)
  · have one : ∀ w : Bytes, w.length = n → macBlocks n w = [w] := by
      intro w hw
      unfold macBlocks
      rw [hw, Nat.mod_self, if_pos rfl]
      have := blocks_cons n w [] hn hw
      rwa [List.append_nil, blocks_nil] at this
    exact ⟨x, y, one x h, one y (hl ▸ h), h, hl ▸ h, hxy⟩

theorem omac_ne {n : Nat} (hn : 0 < n) {E : Bytes → Bytes} (hE : PermOn n E)
    (hK1 : (Spec.macKey1 E n).length = n) (hK2 : (Spec.macKey2 E n).length = n)
    (p x y t : Bytes) (hp : p.length % n = 0) (hl : x.length = y.length) (hx : x.length ≤ n)
    (ht : x.length = n ∨ t = []) (hxy : x ≠ y) :
    Spec.omac E n (p ++ x ++ t) ≠ Spec.omac E n (p ++ y ++ t) := by
  have hx0 : x ≠ [] := by
    rintro rfl
    exact hxy (List.length_eq_zero_iff.1 hl.symm).symm
  have hy0 : y ≠ [] := by
    rintro rfl
    exact hxy (List.length_eq_zero_iff.1 hl)
  obtain ⟨u, v, e1, e2, lu, lv, huv⟩ := macBlocks_one hn x y hl hx hxy
  have key : ∃ B : List Bytes, (∀ b ∈ B, b.length = n) ∧
      macBlocks n (x ++ t) = u :: B ∧ macBlocks n (y ++ t) = v :: B := by
    rcases ht with ht | rfl
    · have one : ∀ w : Bytes, w.length = n → blocks n w = macBlocks n w := by
        intro w hw
        unfold macBlocks
        rw [hw, Nat.mod_self, if_pos rfl]
      refine ⟨macBlocks n t, fun b hb => macBlocks_length hn hb, ?_, ?_⟩
      · rw [macBlocks_append n hn x t (by rw [ht, Nat.mod_self]), one x ht, e1, List.singleton_append]
      · rw [macBlocks_append n hn y t (by rw [← hl, ht, Nat.mod_self]), one y (hl ▸ ht), e2,
          List.singleton_append]
    · exact ⟨[], by simp, by rw [List.append_nil, e1], by rw [List.append_nil, e2]⟩
  obtain ⟨B, hB, f1, f2⟩ := key
  rw [omac_eq_macEnd E n _ (by simp [hx0]), omac_eq_macEnd E n _ (by simp [hy0])]
  rw [show (p ++ y ++ t).length = (p ++ x ++ t).length by simp [hl], List.append_assoc,
    List.append_assoc, macBlocks_append n hn p _ hp, macBlocks_append n hn p _ hp, f1, f2]
  refine macEnd_ne hE _ ?_ (blocks n p) B u v (fun b hb => mem_blocks_length hb) hB lu lv huv
  split
  · exact hK1
  · exact hK2

/-- C76: two messages of the same length, at least one block long, which differ within one block
only (the messages are `p ++ x ++ t` and `p ++ y ++ t`, `p` consists of whole blocks and `x`, `y` of
one block, or of the incomplete last one) have different full-length MACs. -/
theorem C76_one_block (a : Alg) (kv m₁ m₂ : PyVal) (key p x y t : Bytes) (hk : kv.data? = some key)
    (hkl : key.length = 32) (h₁ : m₁.data? = some (p ++ x ++ t)) (h₂ : m₂.data? = some (p ++ y ++ t))
    (hlen : a.blockSize ≤ (p ++ x ++ t).length) (hp : p.length % a.blockSize = 0)
    (hl : x.length = y.length) (hx : x.length ≤ a.blockSize) (ht : x.length = a.blockSize ∨ t = [])
    (hxy : x ≠ y) :
    ∃ s₁ s₂ r₁ r₂, newCipher a.name kv modeMac (data := some m₁) = .ok (.mac s₁) ∧
      newCipher a.name kv modeMac (data := some m₂) = .ok (.mac s₂) ∧
      (s₁.digest a.blockSize).2 = .ok r₁ ∧ (s₂.digest a.blockSize).2 = .ok r₂ ∧ r₁ ≠ r₂ := by
  obtain ⟨o, D, hg, hbs, hI, _, _⟩ := new_mac a kv key hk hkl none none
  have hn : 0 < a.blockSize := by cases a <;> decide
  have hE : PermOn a.blockSize (a.encrypt key) := by
    rw [← hbs]
    refine ⟨hI.enc_len, fun b c hb hc h => ?_⟩
    rw [← hI.D_E b hb, h, hI.D_E c hc]
  have hsame : (p ++ y ++ t).length = (p ++ x ++ t).length := by simp [hl]
  obtain ⟨⟨s₁, n₁, d₁⟩, _⟩ := C17_omac_partial a kv m₁ key _ hk hkl h₁ (Or.inr hlen) a.blockSize (Nat.le_refl _)
  obtain ⟨⟨s₂, n₂, d₂⟩, _⟩ := C17_omac_partial a kv m₂ key _ hk hkl h₂ (Or.inr (by omega)) a.blockSize (Nat.le_refl _)
  refine ⟨s₁, s₂, _, _, n₁, n₂, d₁, d₂, ?_⟩
  have full : ∀ M : Bytes, M ≠ [] →
      (Spec.omac (a.encrypt key) a.blockSize M).length = a.blockSize := by
    intro M hM
    rw [omac_eq_macEnd _ _ _ hM]
    have hz : (List.replicate a.blockSize (0 : UInt8)).length = a.blockSize := by simp
    have hne : macBlocks a.blockSize M ≠ [] := by
      unfold macBlocks
      split
      · next h =>
        intro e
        have := congrArg List.length e
        rw [blocks_length, List.length_nil] at this
        have h3 := Nat.div_add_mod M.length a.blockSize
        rw [this, h] at h3
        exact hM (List.length_eq_zero_iff.1 (by omega))
      · simp
    refine hE.len _ ?_
    rw [specXor_length, specXor_length, macChain_len hE _ _ hz
        (fun b hb => macBlocks_length hn (List.dropLast_subset _ hb)),
      List.getLastD_eq_getLast?, List.getLast?_eq_some_getLast hne, Option.getD_some,
      macBlocks_length hn (List.getLast_mem hne)]
    split
    · rw [Spec.macKey1, macDouble_length]; omega
    · rw [Spec.macKey2, macDouble_length]; omega
  have hx0 : p ++ x ++ t ≠ [] := fun e => by rw [e, List.length_nil] at hlen; omega
  have hy0 : p ++ y ++ t ≠ [] := fun e => by rw [e, List.length_nil] at hsame; omega
  rw [List.take_of_length_le (Nat.le_of_eq (full _ hx0)), List.take_of_length_le (Nat.le_of_eq (full _ hy0))]
  exact omac_ne hn hE (macDouble_length _ _) (macDouble_length _ _) p x y t hp hl hx ht hxy

/-- Messages as in the theorem: the second block of three changed, and the incomplete end changed. -/
example : (Ex.count 0 8).length % Alg.magma.blockSize = 0 ∧
    (Ex.count 1 8).length = Alg.magma.blockSize ∧ Ex.count 1 8 ≠ Ex.count 2 8 ∧
    ([1, 2] : Bytes).length ≤ Alg.magma.blockSize ∧ ([1, 2] : Bytes) ≠ [1, 3] := by decide

end Gost
