import Verif.Props.WeakKeys

/-! Property C126: the last sixteen rounds of Magma undo themselves. -/

namespace Gost
namespace Magma

/-- The first n steps of `encrypt`, gost_34_12_2015.py 772-778: `_cipher_g_prev` with the keys 0, …, n - 1. -/
def firstRounds (ks : List Bytes) (n : Nat) (b : Bytes) : Res Bytes :=
  (List.range n).foldlM (fun r (i : Nat) => do gPrev (← pyGet ks i) r) b

theorem rounds_ok {ks : List Bytes} (h : GoodKeys ks) (n : Nat) (hn : n ≤ 32) (b : Bytes) (hb : b.length = 8) :
    firstRounds ks n b = .ok (steps ks (List.range n) b) :=
  steps_ok h _ (fun i hi => by have := List.mem_range.1 hi; omega) b hb

theorem sw_inj {a b : Bytes} (ha : a.length = 8) (hb : b.length = 8) (h : sw a = sw b) : a = b := by
  rw [← sw_sw a ha, h, sw_sw b hb]

theorem steps_inj (ks : List Bytes) (l : List Nat) {a b : Bytes} (ha : a.length = 8) (hb : b.length = 8)
    (h : steps ks l a = steps ks l b) : a = b := by
  have := steps_inverse ks l a ha
  rw [h, steps_inverse ks l b hb] at this
  exact (sw_inj hb ha this).symm

theorem sw_fixed (n : Bytes) (hn : n.length = 8) : sw n = n ↔ n.take 4 = n.drop 4 := by
  unfold sw
  constructor
  · intro h
    have := congrArg (List.take 4) h
    rw [List.take_left' (by simp [hn])] at this
    exact this.symm
  · intro h
    rw [← h]
    conv_rhs => rw [← List.take_append_drop 4 n, ← h]

/-- The block before the steps of l which become the state m. -/
def back (ks : List Bytes) (l : List Nat) (m : Bytes) : Bytes := sw (steps ks l.reverse (sw m))

theorem back_length (ks : List Bytes) (l : List Nat) (m : Bytes) (hm : m.length = 8) : (back ks l m).length = 8 := by
  rw [back, sw_length, steps_length _ _ _ (by rw [sw_length]; exact hm)]

theorem steps_back (ks : List Bytes) (l : List Nat) (m : Bytes) (hm : m.length = 8) : steps ks l (back ks l m) = m := by
  have := steps_inverse ks l.reverse (sw m) (by rw [sw_length]; exact hm)
  rw [List.reverse_reverse, sw_sw m hm] at this
  exact this

/-- The keys of the last sixteen rounds read the same in both directions, whatever the key. -/
theorem keys_reflect (key : Bytes) (h : key.length = 32) {ks : List Bytes} (hi : init key = .ok ks) (b : Bytes) :
    steps ks (List.range' 24 8) b = steps ks (List.range' 16 8).reverse b := by
  apply steps_same
  have e : ∀ n, n < 32 → ks.getD n [] = (key.drop (4 * (if n < 24 then n % 8 else 7 - n % 8))).take 4 :=
    fun n hn => init_keys key h hi n hn
  rw [show List.range' 24 8 = [24, 25, 26, 27, 28, 29, 30, 31] from rfl,
    show (List.range' 16 8).reverse = [23, 22, 21, 20, 19, 18, 17, 16] from rfl]
  simp only [List.map_cons, List.map_nil]
  rw [e 24 (by decide), e 25 (by decide), e 26 (by decide), e 27 (by decide), e 28 (by decide), e 29 (by decide),
    e 30 (by decide), e 31 (by decide), e 23 (by decide), e 22 (by decide), e 21 (by decide), e 20 (by decide),
    e 19 (by decide), e 18 (by decide), e 17 (by decide), e 16 (by decide)]
  rfl

theorem E_split (key : Bytes) (h : key.length = 32) {ks : List Bytes} (hi : init key = .ok ks) (b : Bytes) :
    E ks b = sw (steps ks (List.range' 16 8).reverse (steps ks (List.range 24) b)) ∧
    steps ks (List.range 24) b = steps ks (List.range' 16 8) (steps ks (List.range 16) b) := by
  refine ⟨?_, ?_⟩
  · rw [E, show List.range 32 = List.range 24 ++ List.range' 24 8 from rfl, steps_append, keys_reflect key h hi]
  · rw [show List.range 24 = List.range 16 ++ List.range' 16 8 from rfl, steps_append]

end Magma
open Magma

/-- C126: the last sixteen rounds undo themselves: the ciphertext of b is the state of b' after sixteen rounds exactly if
the ciphertext of b' is the state of b after sixteen rounds. -/
theorem C126_involution (key : Bytes) (hk : key.length = 32) : ∃ ks, init key = .ok ks ∧
    ∀ b b' : Bytes, b.length = 8 → b'.length = 8 →
      (encrypt ks b = firstRounds ks 16 b' ↔ encrypt ks b' = firstRounds ks 16 b) := by
  obtain ⟨ks, h1, hg, _, _⟩ := init_ok key hk
  have key1 : ∀ b b' : Bytes, b.length = 8 → b'.length = 8 → encrypt ks b = firstRounds ks 16 b' →
      encrypt ks b' = firstRounds ks 16 b := by
    intro b b' hb hb' h
    rw [(encrypt_ok hg b hb).1, rounds_ok hg 16 (by decide) b' hb'] at h
    have h := Except.ok.inj h
    rw [(encrypt_ok hg b' hb').1, rounds_ok hg 16 (by decide) b hb]
    refine congrArg Except.ok ?_
    rw [(E_split key hk h1 b').1, (E_split key hk h1 b').2, ← h, (E_split key hk h1 b).1]
    have hl := steps_length ks (List.range 24) b hb
    have hinv := steps_inverse ks (List.range' 16 8).reverse (steps ks (List.range 24) b) hl
    rw [List.reverse_reverse] at hinv
    rw [hinv, (E_split key hk h1 b).2, steps_inverse ks _ _ (steps_length _ _ _ hb), sw_sw _ (steps_length _ _ _ hb)]
  exact ⟨ks, h1, fun b b' hb hb' => ⟨key1 b b' hb hb', key1 b' b hb' hb⟩⟩

/-- C126: the ciphertext is the state after sixteen rounds exactly if the state after 24 rounds has equal halves. -/
theorem C126_reflection (key : Bytes) (hk : key.length = 32) : ∃ ks, init key = .ok ks ∧
    ∀ b : Bytes, b.length = 8 → ∃ n, firstRounds ks 24 b = .ok n ∧
      (encrypt ks b = firstRounds ks 16 b ↔ n.take 4 = n.drop 4) := by
  obtain ⟨ks, h1, hg, _, _⟩ := init_ok key hk
  refine ⟨ks, h1, fun b hb => ⟨_, rounds_ok hg 24 (by decide) b hb, ?_⟩⟩
  have hm := steps_length ks (List.range 16) b hb
  have hn := steps_length ks (List.range 24) b hb
  rw [(encrypt_ok hg b hb).1, rounds_ok hg 16 (by decide) b hb, (E_split key hk h1 b).1, ← sw_fixed _ hn]
  have hinv := steps_inverse ks (List.range' 16 8) _ hm
  rw [← (E_split key hk h1 b).2] at hinv
  constructor
  · intro h
    have h := congrArg sw (Except.ok.inj h)
    rw [sw_sw _ (steps_length _ _ _ hn), ← hinv] at h
    exact (steps_inj ks _ hn (by rw [sw_length]; exact hn) h).symm
  · intro h
    rw [h] at hinv
    rw [hinv, sw_sw _ hm]

/-- C126: these blocks are as many as there are words of four bytes: each word gives one of them, different words give
different ones, and there are no others. -/
theorem C126_count (key : Bytes) (hk : key.length = 32) : ∃ ks, init key = .ok ks ∧ ∃ blk : Bytes → Bytes,
    (∀ w w', w.length = 4 → w'.length = 4 → blk w = blk w' → w = w') ∧
    ∀ b : Bytes, b.length = 8 → (encrypt ks b = firstRounds ks 16 b ↔ ∃ w, w.length = 4 ∧ b = blk w) := by
  obtain ⟨ks, h1, h⟩ := C126_reflection key hk
  obtain ⟨ks', h1', hg, _, _⟩ := init_ok key hk
  rw [h1] at h1'
  cases h1'
  refine ⟨ks, h1, fun w => back ks (List.range 24) (w ++ w), ?_, ?_⟩
  · intro w w' hw hw' e
    have := congrArg (steps ks (List.range 24)) e
    rw [steps_back _ _ _ (by simp [hw]), steps_back _ _ _ (by simp [hw'])] at this
    exact (List.append_inj this (by rw [hw, hw'])).1
  · intro b hb
    obtain ⟨n, hn, hiff⟩ := h b hb
    rw [rounds_ok hg 24 (by decide) b hb] at hn
    have hn := Except.ok.inj hn
    rw [hiff, ← hn]
    have hl := steps_length ks (List.range 24) b hb
    constructor
    · intro e
      refine ⟨(steps ks (List.range 24) b).take 4, by simp [hl], ?_⟩
      apply steps_inj ks (List.range 24) hb (back_length _ _ _ (by simp [hl]))
      rw [steps_back _ _ _ (by simp [hl])]
      conv_lhs => rw [← List.take_append_drop 4 (steps ks (List.range 24) b), ← e]
    · rintro ⟨w, hw, e⟩
      rw [e, steps_back _ _ _ (by simp [hw]), List.take_left' hw, List.drop_left' hw]

/-- C126, keys which read the same in both directions (C84): the blocks which encryption does not change are those with
equal halves after sixteen rounds, one for each word and no others. -/
theorem C126_fixed (key : Bytes) (hk : key.length = 32) (hp : Palindrome key) : ∃ ks, init key = .ok ks ∧
    ∃ blk : Bytes → Bytes, (∀ w w', w.length = 4 → w'.length = 4 → blk w = blk w' → w = w') ∧
    ∀ b : Bytes, b.length = 8 → (encrypt ks b = .ok b ↔ ∃ w, w.length = 4 ∧ b = blk w) := by
  obtain ⟨ks, h1, hg, _, _⟩ := init_ok key hk
  have hrev : ∀ b, steps ks (List.range' 16 16) b = steps ks (List.range 16).reverse b := by
    intro b
    rw [show List.range' 16 16 = (List.range 16).reverse.map (31 - ·) by decide]
    apply steps_same
    rw [List.map_map]
    apply List.map_congr_left
    intro n hn
    have : n < 16 := by simpa using hn
    exact keys_reverse key hk hp h1 n (by omega)
  refine ⟨ks, h1, fun w => back ks (List.range 16) (w ++ w), ?_, ?_⟩
  · intro w w' hw hw' e
    have := congrArg (steps ks (List.range 16)) e
    rw [steps_back _ _ _ (by simp [hw]), steps_back _ _ _ (by simp [hw'])] at this
    exact (List.append_inj this (by rw [hw, hw'])).1
  · intro b hb
    have hl := steps_length ks (List.range 16) b hb
    have hE : E ks b = sw (steps ks (List.range 16).reverse (steps ks (List.range 16) b)) := by
      rw [E, show List.range 32 = List.range 16 ++ List.range' 16 16 from rfl, steps_append, hrev]
    have hinv := steps_inverse ks (List.range 16) b hb
    have hfix : encrypt ks b = .ok b ↔
        (steps ks (List.range 16) b).take 4 = (steps ks (List.range 16) b).drop 4 := by
      rw [(encrypt_ok hg b hb).1, hE, ← sw_fixed _ hl]
      constructor
      · intro h
        have h := congrArg sw (Except.ok.inj h)
        rw [sw_sw _ (steps_length _ _ _ hl), ← hinv] at h
        exact (steps_inj ks _ hl (by rw [sw_length]; exact hl) h).symm
      · intro h
        rw [h] at hinv
        rw [hinv, sw_sw _ hb]
    rw [hfix]
    constructor
    · intro e
      refine ⟨(steps ks (List.range 16) b).take 4, by simp [hl], ?_⟩
      apply steps_inj ks (List.range 16) hb (back_length _ _ _ (by simp [hl]))
      rw [steps_back _ _ _ (by simp [hl])]
      conv_lhs => rw [← List.take_append_drop 4 (steps ks (List.range 16) b), ← e]
    · rintro ⟨w, hw, e⟩
      rw [e, steps_back _ _ _ (by simp [hw]), List.take_left' hw, List.drop_left' hw]

/-- Cases: a key of 32 different bytes, with a block for which sixteen rounds are all and one for which they are not. -/
example : ∃ ks, init (Ex.count 0 32) = .ok ks ∧ ∃ b b' : Bytes, b.length = 8 ∧ b'.length = 8 ∧
    encrypt ks b = firstRounds ks 16 b ∧ encrypt ks b' ≠ firstRounds ks 16 b' := by
  refine ⟨(init (Ex.count 0 32)).toOption.getD [], ?_, back ((init (Ex.count 0 32)).toOption.getD []) (List.range 24) (Ex.count 5 4 ++ Ex.count 5 4),
    Ex.count 3 8, ?_, ?_, ?_, ?_⟩ <;> decide +kernel

end Gost
