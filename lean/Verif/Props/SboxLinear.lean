import Verif.Props.SboxDiff
import Mathlib.Algebra.BigOperators.Group.Finset.Basic
import Mathlib.Algebra.BigOperators.Intervals

/-! Property C125: the substitutions are far from linear functions. -/

namespace Gost

/-- The sum modulo 2 of the bits of x below k which the mask a selects. -/
def dot : Nat → Nat → Nat → Bool
  | 0, _, _ => false
  | k + 1, a, x => dot k a x ^^ (a.testBit k && x.testBit k)

/-! ### Counting for all masks at once, in the digits of one number -/

/-- The numbers v 0, …, v (n - 1) as digits. -/
def pack (v : Nat → Nat) : Nat → Nat
  | 0 => 0
  | n + 1 => pack v n + v n * 65536 ^ n

theorem pack_add (v w : Nat → Nat) (n : Nat) : pack v n + pack w n = pack (fun i => v i + w i) n := by
  induction n with
  | zero => rfl
  | succ n ih => simp only [pack, ← ih]; ring

theorem pack_congr {v w : Nat → Nat} {n : Nat} (h : ∀ i, i < n → v i = w i) : pack v n = pack w n := by
  induction n with
  | zero => rfl
  | succ n ih => rw [pack, pack, ih (fun i hi => h i (by omega)), h n (by omega)]

theorem pack_append (v : Nat → Nat) (m n : Nat) :
    pack v (m + n) = pack v m + 65536 ^ m * pack (fun i => v (m + i)) n := by
  induction n with
  | zero => rfl
  | succ n ih => rw [← Nat.add_assoc, pack, ih, pack, Nat.pow_add]; ring

theorem pack_lt {v : Nat → Nat} {n : Nat} (h : ∀ i, i < n → v i < 65536) : pack v n < 65536 ^ n := by
  induction n with
  | zero => exact Nat.one_pos
  | succ n ih =>
    have h1 := ih fun i hi => h i (by omega)
    have h2 : v n * 65536 ^ n ≤ 65535 * 65536 ^ n := Nat.mul_le_mul_right _ (by have := h n (by omega); omega)
    rw [pack, Nat.pow_succ]
    omega

theorem digit_pack {v : Nat → Nat} {n : Nat} (h : ∀ i, i < n → v i < 65536) {i : Nat} (hi : i < n) :
    digit (pack v n) i = v i := by
  obtain ⟨c, rfl⟩ : ∃ c, n = i + 1 + c := ⟨n - i - 1, by omega⟩
  have hl := pack_lt (v := v) (n := i) fun j hj => h j (by omega)
  have e : pack v (i + 1 + c) = pack v i + 65536 ^ i * (v i + 65536 * pack (fun j => v (i + 1 + j)) c) := by
    rw [pack_append, pack, Nat.pow_succ]; ring
  have := h i (by omega)
  unfold digit
  rw [e, Nat.add_mul_div_left _ _ (Nat.pow_pos (by decide)), Nat.div_eq_of_lt hl]
  omega

/-- 2^k digits 1. -/
def ones : Nat → Nat
  | 0 => 1
  | k + 1 => ones k + 65536 ^ 2 ^ k * ones k

/-- The counts for all masks below 2^k: of the x below 2^k with mask·x = f (o + x), where g is 0 if f is true and else
1. (u and v are the counts of the two halves; the digits are those of u + v and of u + 2^k - v. Each of them occurs once
in the formula, so that the kernel computes it once.) -/
def walsh (g : Nat → Nat) : Nat → Nat → Nat
  | 0, o => g o
  | k + 1, o => ((65536 ^ 2 ^ k + 1) * walsh g k o + 65536 ^ 2 ^ k * (2 ^ k * ones k)) -
      (65536 ^ 2 ^ k - 1) * walsh g k (o + 2 ^ k)

/-- What is counted. -/
def agree (f : Nat → Bool) (k o a : Nat) : Nat := ((Finset.range (2 ^ k)).filter fun x => dot k a x = f (o + x)).card

theorem agree_le (f : Nat → Bool) (k o a : Nat) : agree f k o a ≤ 2 ^ k :=
  le_trans (Finset.card_filter_le _ _) (by rw [Finset.card_range])

theorem ones_pack (k c : Nat) : c * ones k = pack (fun _ => c) (2 ^ k) := by
  induction k with
  | zero => simp [ones, pack]
  | succ k ih => rw [ones, Nat.pow_succ, Nat.mul_two, pack_append, ← ih]; ring

theorem dot_low (k a x m : Nat) : dot k (2 ^ k * m + a) x = dot k a x ∧ dot k a (2 ^ k * m + x) = dot k a x := by
  have tb : ∀ (j y c : Nat), j < k → (2 ^ k * c + y).testBit j = y.testBit j := fun j y c hj => by
    rw [Nat.testBit_eq_decide_div_mod_eq, Nat.testBit_eq_decide_div_mod_eq]
    obtain ⟨d, rfl⟩ : ∃ d, k = j + 1 + d := ⟨k - j - 1, by omega⟩
    rw [show 2 ^ (j + 1 + d) * c + y = y + 2 ^ j * (2 * (2 ^ d * c)) by ring,
      Nat.add_mul_div_left _ _ (Nat.pow_pos (by decide)), Nat.add_mul_mod_self_left]
  have key : ∀ n, n ≤ k → dot n (2 ^ k * m + a) x = dot n a x ∧ dot n a (2 ^ k * m + x) = dot n a x := by
    intro n hn
    induction n with
    | zero => exact ⟨rfl, rfl⟩
    | succ n ih =>
      obtain ⟨i1, i2⟩ := ih (by omega)
      simp only [dot, i1, i2, tb n _ _ (show n < k by omega), and_self]
  exact key k (Nat.le_refl k)

theorem top_bit {k x : Nat} (h : x < 2 ^ k) : x.testBit k = false ∧ (2 ^ k + x).testBit k = true := by
  constructor
  · exact Nat.testBit_lt_two_pow h
  · rw [Nat.testBit_two_pow_add_eq, Nat.testBit_lt_two_pow h]; rfl

/-- A filter over 2^(k+1) numbers is one over the lower half and one over the upper half. -/
theorem card_split (k : Nat) (pr : Nat → Prop) [DecidablePred pr] :
    ((Finset.range (2 ^ (k + 1))).filter pr).card =
      ((Finset.range (2 ^ k)).filter pr).card + ((Finset.range (2 ^ k)).filter fun x => pr (2 ^ k + x)).card := by
  simp only [Finset.card_filter]
  rw [Nat.pow_succ, Nat.mul_two, Finset.sum_range_add]

theorem agree_low (f : Nat → Bool) (k o a : Nat) (ha : a < 2 ^ k) :
    agree f (k + 1) o a = agree f k o a + agree f k (o + 2 ^ k) a := by
  unfold agree
  rw [card_split]
  have hd : ∀ x, dot (k + 1) a x = dot k a x := fun x => by simp [dot, (top_bit ha).1]
  simp only [hd]
  congr 3
  ext x
  have := (dot_low k a x 1).2
  rw [Nat.mul_one] at this
  rw [this, Nat.add_assoc]

theorem agree_high (f : Nat → Bool) (k o a : Nat) (ha : a < 2 ^ k) :
    agree f (k + 1) o (2 ^ k + a) = agree f k o a + (2 ^ k - agree f k (o + 2 ^ k) a) := by
  have h1 := (dot_low k a · 1)
  simp only [Nat.mul_one] at h1
  have e1 : ∀ x, x < 2 ^ k → dot (k + 1) (2 ^ k + a) x = dot k a x := fun x hx => by
    simp [dot, (top_bit hx).1, (h1 x).1]
  have e2 : ∀ x, x < 2 ^ k → dot (k + 1) (2 ^ k + a) (2 ^ k + x) = !dot k a x := fun x hx => by
    have : dot k (2 ^ k + a) (2 ^ k + x) = dot k a x := by
      have := (dot_low k a (2 ^ k + x) 1).1
      rw [Nat.mul_one] at this
      rw [this, (h1 x).2]
    simp [dot, (top_bit hx).2, (top_bit ha).2, this]
  have h2 : agree f (k + 1) o (2 ^ k + a) = agree f k o a +
      ((Finset.range (2 ^ k)).filter fun x => ¬ dot k a x = f (o + 2 ^ k + x)).card := by
    unfold agree
    rw [card_split]
    congr 2
    · apply Finset.filter_congr
      intro x hx
      rw [e1 x (Finset.mem_range.1 hx)]
    · apply Finset.filter_congr
      intro x hx
      rw [e2 x (Finset.mem_range.1 hx), Nat.add_assoc]
      cases dot k a x <;> cases f (o + (2 ^ k + x)) <;> decide
  have h3 := Finset.card_filter_add_card_filter_not (s := Finset.range (2 ^ k)) (fun x => dot k a x = f (o + 2 ^ k + x))
  rw [Finset.card_range] at h3
  rw [h2]
  unfold agree
  omega

theorem walsh_pack (f : Nat → Bool) (g : Nat → Nat) (hg : ∀ x, g x = if f x then 0 else 1) (k : Nat) :
    ∀ o, walsh g k o = pack (agree f k o) (2 ^ k) := by
  induction k with
  | zero =>
    intro o
    have : agree f 0 o 0 = if f o then 0 else 1 := by
      unfold agree
      rw [show Finset.range (2 ^ 0) = {0} from rfl, Finset.filter_singleton]
      simp only [dot, Nat.add_zero]
      cases f o <;> rfl
    simp [walsh, pack, this, hg]
  | succ k ih =>
    intro o
    have e1 : pack (agree f (k + 1) o) (2 ^ k) = walsh g k o + walsh g k (o + 2 ^ k) := by
      rw [ih, ih, pack_add]
      exact pack_congr fun i hi => agree_low f k o i hi
    have e2 : pack (fun i => agree f (k + 1) o (2 ^ k + i)) (2 ^ k) + walsh g k (o + 2 ^ k) =
        walsh g k o + 2 ^ k * ones k := by
      rw [ih, ih, ones_pack, pack_add, pack_add]
      refine pack_congr fun i hi => ?_
      rw [agree_high f k o i hi]
      have := agree_le f k (o + 2 ^ k) i
      omega
    rw [Nat.pow_succ, Nat.mul_two, pack_append, e1, walsh]
    generalize pack (fun i => agree f (k + 1) o (2 ^ k + i)) (2 ^ k) = w at e2
    generalize walsh g k o = u at e2 ⊢
    generalize walsh g k (o + 2 ^ k) = v at e2 ⊢
    generalize 2 ^ k * ones k = c at e2 ⊢
    obtain ⟨B, hB⟩ : ∃ B, 65536 ^ 2 ^ k = B + 1 := ⟨65536 ^ 2 ^ k - 1, by
      have := Nat.pow_pos (n := 2 ^ k) (show 0 < 65536 by decide); omega⟩
    rw [hB, Nat.add_sub_cancel]
    have : (B + 1 + 1) * u + (B + 1) * c = u + v + (B + 1) * w + B * v := by
      have h := congrArg (fun t => (B + 1) * t) e2
      simp only [Nat.mul_add, Nat.add_mul, Nat.one_mul] at h ⊢
      omega
    rw [this, Nat.add_sub_cancel]

/-- The first digits are between l and m. -/
def digitsIn (l m a : Nat) : Nat → Bool
  | 0 => true
  | n + 1 => (l.ble (a % 65536) && (a % 65536).ble m) && digitsIn l m (a / 65536) n

theorem digitsIn_le {l m : Nat} (n : Nat) : ∀ a e, digitsIn l m a n = true → e < n → l ≤ digit a e ∧ digit a e ≤ m := by
  induction n with
  | zero => intro a e _ h; omega
  | succ n ih =>
    intro a e h he
    rw [digitsIn, Bool.and_eq_true, Bool.and_eq_true] at h
    cases e with
    | zero =>
      have h1 := Nat.le_of_ble_eq_true h.1.1
      have h2 := Nat.le_of_ble_eq_true h.1.2
      simpa [digit] using ⟨h1, h2⟩
    | succ e =>
      have := ih (a / 65536) e h.2 (by omega)
      unfold digit at this ⊢
      rwa [Nat.div_div_eq_div_mul, Nat.mul_comm, ← Nat.pow_succ] at this

/-! ### C125 -/

/-- Bit number m is the parity of the bits of m. -/
def parNum : Nat := 68033174967769840440887906939858451149105560803546820641877549596291376780905

theorem dot_and (k a x : Nat) : dot k a x = dot k (a &&& x) (2 ^ k - 1) := by
  have key : ∀ n, n ≤ k → dot n a x = dot n (a &&& x) (2 ^ k - 1) := by
    intro n hn
    induction n with
    | zero => rfl
    | succ n ih => simp [dot, ih (by omega), Nat.testBit_and, Nat.testBit_two_pow_sub_one, show n < k by omega]
  exact key k (Nat.le_refl k)

theorem parNum_eq : ∀ m : Fin 256, (parNum >>> (m : Nat)) % 2 = if dot 8 m 255 then 0 else 1 := by decide +kernel

/-- The value at the ends of `walsh`, for the mask b. -/
def piLeaf (b x : Nat) : Nat := (parNum >>> (b &&& piLook x)) % 2

theorem piLook_lt (x : Nat) : piLook x < 256 := Nat.mod_lt _ (by decide)

theorem piLeaf_eq (b x : Nat) : piLeaf b x = if dot 8 b (piLook x) then 0 else 1 := by
  have h : b &&& piLook x < 256 := Nat.and_lt_two_pow (n := 8) _ (piLook_lt x)
  unfold piLeaf
  rw [dot_and]
  exact parNum_eq ⟨_, h⟩

theorem piWalsh : ∀ b : Fin 255, digitsIn 100 156 (walsh (piLeaf (b + 1)) 8 0) 256 = true := by decide +kernel

/-- C125: for any two masks, the second not 0, the number of bytes x for which a·x is b·S(x) is between 100 and 156: it
differs from one half of the 256 by at most 28. -/
theorem C125_sbox (a b : UInt8) (hb : b ≠ 0) :
    100 ≤ ((Finset.range 256).filter fun x => dot 8 a.toNat x = dot 8 b.toNat (sKuz (UInt8.ofNat x)).toNat).card ∧
    ((Finset.range 256).filter fun x => dot 8 a.toNat x = dot 8 b.toNat (sKuz (UInt8.ofNat x)).toNat).card ≤ 156 := by
  have hb0 : b.toNat ≠ 0 := fun h => hb (UInt8.toNat_inj.1 h)
  have hbl := b.toNat_lt
  have h := digitsIn_le 256 _ a.toNat (piWalsh ⟨b.toNat - 1, by omega⟩) a.toNat_lt
  simp only [show b.toNat - 1 + 1 = b.toNat by omega] at h
  rw [walsh_pack _ _ (piLeaf_eq b.toNat), digit_pack (fun i _ =>
    lt_of_le_of_lt (agree_le _ 8 0 i) (by decide)) a.toNat_lt] at h
  have e : ((Finset.range 256).filter fun x => dot 8 a.toNat x = dot 8 b.toNat (sKuz (UInt8.ofNat x)).toNat).card =
      agree (fun x => dot 8 b.toNat (piLook x)) 8 0 a.toNat := by
    unfold agree
    refine congrArg Finset.card (Finset.filter_congr ?_)
    intro x hx
    have := piLook_eq ⟨x, Finset.mem_range.1 hx⟩
    simp only at this
    rw [this, UInt8.toNat_ofNat', Nat.mod_eq_of_lt (piLook_lt x), Nat.zero_add]
  rw [e]
  exact h

/-- C125: for each of the eight substitutions of Magma, between 4 and 12 of the 16. -/
theorem C125_sbox_magma : ∀ (i : Fin 8) (a b : Fin 16), b ≠ 0 →
    4 ≤ ((Finset.range 16).filter fun x => dot 4 a x = dot 4 b (Magma.sbox i x)).card ∧
    ((Finset.range 16).filter fun x => dot 4 a x = dot 4 b (Magma.sbox i x)).card ≤ 12 := by decide +kernel

/-- C125: the bounds are reached. -/
theorem C125_reached :
    ((Finset.range 256).filter fun x => dot 8 246 x = dot 8 28 (sKuz (UInt8.ofNat x)).toNat).card = 100 ∧
    ((Finset.range 256).filter fun x => dot 8 110 x = dot 8 15 (sKuz (UInt8.ofNat x)).toNat).card = 156 ∧
    ((Finset.range 16).filter fun x => dot 4 1 x = dot 4 8 (Magma.sbox 0 x)).card = 4 ∧
    ((Finset.range 16).filter fun x => dot 4 1 x = dot 4 14 (Magma.sbox 0 x)).card = 12 := by decide +kernel

end Gost
