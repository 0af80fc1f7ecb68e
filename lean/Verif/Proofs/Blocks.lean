import Verif.Spec.Blocks
import Verif.Proofs.Basic
import Verif.Model.Modes

/-! Block splitting and the block loop of the modes. -/

namespace Gost
open Spec (blocks rest)

/-! ### Splitting -/

theorem blocks_length (n : Nat) (d : Bytes) : (blocks n d).length = d.length / n := by
  simp [blocks]

theorem blocks_getElem (n : Nat) (d : Bytes) (i : Nat) (h : i < (blocks n d).length) :
    (blocks n d)[i] = (d.drop (n * i)).take n := by
  simp [blocks]

theorem mem_blocks_length {n : Nat} {d b : Bytes} (h : b ∈ blocks n d) : b.length = n := by
  simp only [blocks, List.mem_map, List.mem_range] at h
  obtain ⟨i, hi, rfl⟩ := h
  have h1 : n * (i + 1) ≤ n * (d.length / n) := Nat.mul_le_mul_left n hi
  have h2 := Nat.mul_div_le d.length n
  simp only [List.length_take, List.length_drop]
  rw [Nat.mul_add, Nat.mul_one] at h1
  omega

theorem rest_length (n : Nat) (d : Bytes) : (rest n d).length = d.length % n := by
  simp only [rest, List.length_drop]
  have := Nat.div_add_mod d.length n
  omega

theorem blocks_nil (n : Nat) : blocks n [] = [] := by simp [blocks]

theorem blocks_of_lt (n : Nat) (d : Bytes) (h : d.length < n) : blocks n d = [] := by
  simp [blocks, Nat.div_eq_of_lt h]

theorem rest_of_lt (n : Nat) (d : Bytes) (h : d.length < n) : rest n d = d := by
  simp [rest, Nat.div_eq_of_lt h]

theorem blocks_cons (n : Nat) (a d : Bytes) (hn : 0 < n) (ha : a.length = n) :
    blocks n (a ++ d) = a :: blocks n d := by
  unfold blocks
  rw [List.length_append, ha, Nat.add_div_left _ hn, List.range_succ_eq_map, List.map_cons,
    List.map_map]
  congr 1
  · simp only [Nat.mul_zero, List.drop_zero]
    exact List.take_left' ha
  · apply List.map_congr_left
    intro i _
    simp only [Function.comp]
    congr 1
    have : n * (i + 1) = a.length + n * i := by rw [ha, Nat.mul_add, Nat.mul_one, Nat.add_comm]
    rw [Nat.succ_eq_add_one, this, List.drop_append]
    simp

theorem rest_cons (n : Nat) (a d : Bytes) (hn : 0 < n) (ha : a.length = n) :
    rest n (a ++ d) = rest n d := by
  unfold rest
  rw [List.length_append, ha, Nat.add_div_left _ hn]
  have : n * (d.length / n).succ = a.length + n * (d.length / n) := by
    rw [ha, Nat.mul_succ, Nat.add_comm]
  rw [this, List.drop_append]
  simp

/-- Induction principle: a string is short or begins with a block. -/
theorem blocks_induction (n : Nat) (hn : 0 < n) {P : Bytes → Prop}
    (short : ∀ d, d.length < n → P d)
    (step : ∀ a d, a.length = n → P d → P (a ++ d)) : ∀ d, P d := by
  intro d
  induction hl : d.length using Nat.strongRecOn generalizing d with
  | _ k ih =>
    by_cases h : d.length < n
    · exact short d h
    · rw [← List.take_append_drop n d]
      apply step
      · simp; omega
      · exact ih (d.drop n).length (by simp; omega) _ rfl

theorem flatten_blocks_rest (n : Nat) (hn : 0 < n) (d : Bytes) :
    (blocks n d).flatten ++ rest n d = d := by
  induction d using blocks_induction n hn with
  | short d h => simp [blocks_of_lt n d h, rest_of_lt n d h]
  | step a d ha ih =>
    rw [blocks_cons n a d hn ha, rest_cons n a d hn ha, List.flatten_cons, List.append_assoc, ih]

theorem blocks_flatten_append (n : Nat) (hn : 0 < n) (l : List Bytes) (hl : ∀ b ∈ l, b.length = n)
    (d : Bytes) : blocks n (l.flatten ++ d) = l ++ blocks n d := by
  induction l with
  | nil => simp
  | cons b l ih =>
    rw [List.flatten_cons, List.append_assoc, blocks_cons n b _ hn (hl b (by simp)),
      ih (fun x hx => hl x (by simp [hx])), List.cons_append]

theorem rest_flatten_append (n : Nat) (hn : 0 < n) (l : List Bytes) (hl : ∀ b ∈ l, b.length = n)
    (d : Bytes) : rest n (l.flatten ++ d) = rest n d := by
  induction l with
  | nil => simp
  | cons b l ih =>
    rw [List.flatten_cons, List.append_assoc, rest_cons n b _ hn (hl b (by simp)),
      ih (fun x hx => hl x (by simp [hx]))]

theorem blocks_flatten (n : Nat) (hn : 0 < n) (l : List Bytes) (hl : ∀ b ∈ l, b.length = n) :
    blocks n l.flatten = l := by
  have := blocks_flatten_append n hn l hl []
  simpa [blocks_nil] using this

theorem rest_flatten (n : Nat) (hn : 0 < n) (l : List Bytes) (hl : ∀ b ∈ l, b.length = n) :
    rest n l.flatten = [] := by
  have := rest_flatten_append n hn l hl []
  simpa [rest] using this

theorem rest_aligned (n : Nat) (d : Bytes) (h : n ∣ d.length) : rest n d = [] := by
  apply List.eq_nil_of_length_eq_zero
  rw [rest_length]
  exact Nat.mod_eq_zero_of_dvd h

theorem flatten_blocks (n : Nat) (hn : 0 < n) (d : Bytes) (h : n ∣ d.length) :
    (blocks n d).flatten = d := by
  have := flatten_blocks_rest n hn d
  rwa [rest_aligned n d h, List.append_nil] at this

theorem blocks_append (n : Nat) (hn : 0 < n) (a b : Bytes) (h : n ∣ a.length) :
    blocks n (a ++ b) = blocks n a ++ blocks n b := by
  conv => lhs; rw [← flatten_blocks n hn a h]
  exact blocks_flatten_append n hn _ (fun x hx => mem_blocks_length hx) b

theorem rest_append (n : Nat) (hn : 0 < n) (a b : Bytes) (h : n ∣ a.length) :
    rest n (a ++ b) = rest n b := by
  conv => lhs; rw [← flatten_blocks n hn a h]
  exact rest_flatten_append n hn _ (fun x hx => mem_blocks_length hx) b

theorem flatten_length_const (n : Nat) (l : List Bytes) (hl : ∀ b ∈ l, b.length = n) :
    l.flatten.length = n * l.length := by
  induction l with
  | nil => simp
  | cons b l ih =>
    rw [List.flatten_cons, List.length_append, hl b (by simp),
      ih (fun x hx => hl x (by simp [hx])), List.length_cons, Nat.mul_add, Nat.mul_one,
      Nat.add_comm]

theorem dvd_flatten_length (n : Nat) (l : List Bytes) (hl : ∀ b ∈ l, b.length = n) :
    n ∣ l.flatten.length := by
  rw [flatten_length_const n l hl]
  exact Nat.dvd_mul_right n _

/-! ### The loop -/

/-- Running a stepping function over a list of blocks. -/
def mapAccum {τ : Type} (f : τ → Bytes → τ × Bytes) : τ → List Bytes → τ × List Bytes
  | t, [] => (t, [])
  | t, b :: bs =>
    ((mapAccum f (f t b).1 bs).1, (f t b).2 :: (mapAccum f (f t b).1 bs).2)

theorem mapAccum_append {τ : Type} (f : τ → Bytes → τ × Bytes) (t : τ) (l₁ l₂ : List Bytes) :
    mapAccum f t (l₁ ++ l₂) =
      ((mapAccum f (mapAccum f t l₁).1 l₂).1,
        (mapAccum f t l₁).2 ++ (mapAccum f (mapAccum f t l₁).1 l₂).2) := by
  induction l₁ generalizing t with
  | nil => simp [mapAccum]
  | cons b l ih => simp [mapAccum, ih]

theorem mapAccum_length {τ : Type} (f : τ → Bytes → τ × Bytes) (t : τ) (l : List Bytes) :
    (mapAccum f t l).2.length = l.length := by
  induction l generalizing t with
  | nil => rfl
  | cons b l ih => simp [mapAccum, ih]

theorem mapAccum_mem {τ : Type} (f : τ → Bytes → τ × Bytes) (P : τ → Prop) (n m : Nat)
    (hf : ∀ t b, P t → b.length = n → P (f t b).1 ∧ (f t b).2.length = m) (t : τ) (l : List Bytes)
    (ht : P t) (hl : ∀ b ∈ l, b.length = n) :
    P (mapAccum f t l).1 ∧ ∀ b ∈ (mapAccum f t l).2, b.length = m := by
  induction l generalizing t with
  | nil => exact ⟨ht, by simp [mapAccum]⟩
  | cons b l ih =>
    have h1 := hf t b ht (hl b (by simp))
    have h2 := ih (f t b).1 h1.1 (fun x hx => hl x (by simp [hx]))
    refine ⟨h2.1, ?_⟩
    intro x hx
    rcases List.mem_cons.1 hx with rfl | hx
    · exact h1.2
    · exact h2.2 x hx

theorem getBlock_eq (bs : Nat) (data : Bytes) (i : Nat) :
    getBlock bs data i = (data.drop (bs * i)).take bs := by
  unfold getBlock
  rw [pySlice_nat]
  congr 1
  omega

theorem getNumBlock_eq (bs : Nat) (data : Bytes) : getNumBlock bs data = data.length / bs := rfl

/-- The block loop when no step fails: a fold over the whole blocks. `e` rebuilds the object
state from the part of it which changes. -/
theorem blockLoop_ok {σ τ : Type} (step : σ → Bytes → Res (σ × Bytes)) (e : τ → σ) (P : τ → Prop)
    (f : τ → Bytes → τ × Bytes) (bs : Nat)
    (hs : ∀ t b, P t → b.length = bs → step (e t) b = .ok (e (f t b).1, (f t b).2) ∧ P (f t b).1)
    (data : Bytes) (t : τ) (ht : P t) :
    blockLoop step bs data (List.range (getNumBlock bs data)) (e t) [] =
      (e (mapAccum f t (blocks bs data)).1, .ok (mapAccum f t (blocks bs data)).2.flatten) := by
  suffices h : ∀ (is : List Nat) (t : τ) (acc : Bytes), P t →
      (∀ i ∈ is, (getBlock bs data i).length = bs) →
      blockLoop step bs data is (e t) acc =
        (e (mapAccum f t (is.map (getBlock bs data))).1,
          .ok (acc ++ (mapAccum f t (is.map (getBlock bs data))).2.flatten)) by
    have hb : blocks bs data = (List.range (getNumBlock bs data)).map (getBlock bs data) := by
      simp [blocks, getBlock_eq, getNumBlock]
    have := h (List.range (getNumBlock bs data)) t [] ht (by
      intro i hi
      exact mem_blocks_length (d := data) (by rw [hb]; exact List.mem_map_of_mem hi))
    rw [this, hb, List.nil_append]
  intro is
  induction is with
  | nil => intro t acc _ _; simp [blockLoop, mapAccum]
  | cons i is ih =>
    intro t acc ht hl
    have h1 := hs t (getBlock bs data i) ht (hl i (by simp))
    rw [blockLoop, h1.1]
    simp only []
    rw [ih _ _ h1.2 (fun j hj => hl j (by simp [hj]))]
    simp [mapAccum]

end Gost
