import Verif.Model.Utils

/-! Helper lemmas on the Python fragment and on `add_xor`. -/

namespace Gost

/-! ### Results -/

@[simp] theorem Res.bind_ok {α β : Type} (a : α) (f : α → Res β) :
    ((Except.ok a : Res α) >>= f) = f a := (rfl)

@[simp] theorem Res.bind_error {α β : Type} (e : Err) (f : α → Res β) :
    ((Except.error e : Res α) >>= f) = .error e := (rfl)

@[simp] theorem Res.pure_eq {α : Type} (a : α) : (pure a : Res α) = .ok a := rfl

@[simp] theorem Res.map_ok {α β : Type} (a : α) (f : α → β) :
    (f <$> (Except.ok a : Res α)) = .ok (f a) := rfl

@[simp] theorem Res.map_error {α β : Type} (e : Err) (f : α → β) :
    (f <$> (Except.error e : Res α)) = .error e := rfl

theorem mapM_ok {α β : Type} (f : α → Res β) (g : α → β) :
    ∀ l : List α, (∀ x ∈ l, f x = .ok (g x)) → l.mapM f = .ok (l.map g)
  | [], _ => rfl
  | a :: l, h => by
    rw [List.mapM_cons, h a (by simp), mapM_ok f g l (fun x hx => h x (by simp [hx]))]
    rfl

theorem mapM_error {α β : Type} (f : α → Res β) (g : α → β) (e : Err) (l₁ : List α) (a : α)
    (l₂ : List α) (h₁ : ∀ x ∈ l₁, f x = .ok (g x)) (h₂ : f a = .error e) :
    (l₁ ++ a :: l₂).mapM f = .error e := by
  induction l₁ with
  | nil => simp [List.mapM_cons, h₂]
  | cons b l ih =>
    rw [List.cons_append, List.mapM_cons, h₁ b (by simp), ih (fun x hx => h₁ x (by simp [hx]))]
    rfl

theorem foldlM_ok {α β : Type} (f : β → α → Res β) (g : β → α → β) (P : β → Prop) :
    ∀ (l : List α) (b : β), P b → (∀ b, P b → ∀ x ∈ l, f b x = .ok (g b x) ∧ P (g b x)) →
      l.foldlM f b = .ok (l.foldl g b) ∧ P (l.foldl g b)
  | [], _, hb, _ => ⟨rfl, hb⟩
  | a :: l, b, hb, h => by
    have h1 := h b hb a (by simp)
    rw [List.foldlM_cons, h1.1]
    simpa using foldlM_ok f g P l (g b a) h1.2 (fun b hb x hx => h b hb x (by simp [hx]))

/-! ### Indexing and slicing -/

theorem pyGet_nat {α : Type} (l : List α) (i : Nat) (h : i < l.length) :
    pyGet l (i : Int) = .ok l[i] := by
  have h1 : ¬ ((i : Int) < 0) := by omega
  simp [pyGet, h1, List.getElem?_eq_getElem h]

theorem pyGet_getD {α : Type} (l : List α) (i : Nat) (d : α) (h : i < l.length) :
    pyGet l (i : Int) = .ok (l.getD i d) := by
  rw [pyGet_nat l i h]
  simp [List.getD, List.getElem?_eq_getElem h]

theorem pyGet_out {α : Type} (l : List α) (i : Nat) (h : l.length ≤ i) :
    pyGet l (i : Int) = .error .indexError := by
  have h1 : ¬ ((i : Int) < 0) := by omega
  simp [pyGet, h1, List.getElem?_eq_none h]

theorem pyGet_neg_one {α : Type} (l : List α) (d : α) (h : 0 < l.length) :
    pyGet l (-1) = .ok (l.getD (l.length - 1) d) := by
  have h1 : ¬ (-1 + (l.length : Int) < 0) := by omega
  have h2 : (-1 + (l.length : Int)).toNat = l.length - 1 := by omega
  have h3 : l.length - 1 < l.length := by omega
  simp [pyGet, h1, h2, List.getD, List.getElem?_eq_getElem h3]

theorem sliceBound_nat (n i : Nat) : sliceBound n (i : Int) = min i n := by
  have h : ¬ ((i : Int) < 0) := by omega
  simp [sliceBound, h]

theorem pySlice_nat {α : Type} (l : List α) (i j : Nat) :
    pySlice l (i : Int) (j : Int) = (l.drop i).take (j - i) := by
  simp only [pySlice, sliceBound_nat]
  by_cases h : i ≤ l.length
  · rw [Nat.min_eq_left h]
    by_cases h2 : j ≤ l.length
    · rw [Nat.min_eq_left h2]
    · rw [Nat.min_eq_right (by omega : l.length ≤ j), List.take_of_length_le (by simp),
        List.take_of_length_le (by simp; omega)]
  · have h1 : l.length ≤ i := by omega
    rw [Nat.min_eq_right h1]
    simp [List.drop_eq_nil_of_le h1]

theorem pySlice_zero {α : Type} (l : List α) (j : Nat) : pySlice l 0 (j : Int) = l.take j := by
  have := pySlice_nat l 0 j
  simpa using this

theorem pyFrom_nat {α : Type} (l : List α) (i : Nat) : pyFrom l (i : Int) = l.drop i := by
  simp only [pyFrom, sliceBound_nat]
  by_cases h : i ≤ l.length
  · rw [Nat.min_eq_left h]
  · have h1 : l.length ≤ i := by omega
    rw [Nat.min_eq_right h1]
    simp [List.drop_eq_nil_of_le h1]

theorem pyUpto_nat {α : Type} (l : List α) (i : Nat) : pyUpto l (i : Int) = l.take i := by
  simp only [pyUpto, sliceBound_nat]
  by_cases h : i ≤ l.length
  · rw [Nat.min_eq_left h]
  · have h1 : l.length ≤ i := by omega
    rw [Nat.min_eq_right h1]
    simp [List.take_of_length_le h1]

/-- `l[-k:]` for `0 < k ≤ len(l)`. -/
theorem pyFrom_neg {α : Type} (l : List α) (k : Nat) (h0 : 0 < k) (h : k ≤ l.length) :
    pyFrom l (-(k : Int)) = l.drop (l.length - k) := by
  have h1 : -(k : Int) < 0 := by omega
  have h2 : (-(k : Int) + (l.length : Int)).toNat = l.length - k := by omega
  unfold pyFrom sliceBound
  rw [if_pos h1, h2]

theorem range_map_getD {α : Type} (l : List α) (d : α) (n : Nat) (h : l.length = n) :
    (List.range n).map (fun i => l.getD i d) = l := by
  apply List.ext_getElem
  · simp [h]
  · intro i h1 h2
    simp [List.getD, List.getElem?_eq_getElem h2]

theorem range_map_getD_le {α : Type} (l : List α) (d : α) (n : Nat) (h : n ≤ l.length) :
    (List.range n).map (fun i => l.getD i d) = l.take n := by
  apply List.ext_getElem
  · simp; omega
  · intro i h1 h2
    simp at h1
    simp [List.getD, List.getElem?_eq_getElem (show i < l.length by omega)]

/-! ### `add_xor` -/

@[simp] theorem addXor_nil_left (b : Bytes) : addXor [] b = [] := rfl
@[simp] theorem addXor_nil_right (a : Bytes) : addXor a [] = [] := by cases a <;> rfl
@[simp] theorem addXor_cons (x y : UInt8) (a b : Bytes) :
    addXor (x :: a) (y :: b) = (x ^^^ y) :: addXor a b := rfl

@[simp] theorem addXor_length (a b : Bytes) : (addXor a b).length = min a.length b.length := by
  simp [addXor]

theorem addXor_comm (a b : Bytes) : addXor a b = addXor b a := by
  induction a generalizing b with
  | nil => simp
  | cons x a ih => cases b with
    | nil => rfl
    | cons y b => simp [ih b, UInt8.xor_comm]

theorem addXor_assoc (a b c : Bytes) : addXor (addXor a b) c = addXor a (addXor b c) := by
  induction a generalizing b c with
  | nil => simp
  | cons x a ih => cases b with
    | nil => simp
    | cons y b => cases c with
      | nil => simp
      | cons z c => simp [ih, UInt8.xor_assoc]

/-- `k ⊕ (k ⊕ b) = b` as long as the mask is not shorter. -/
theorem addXor_cancel (k b : Bytes) (h : b.length ≤ k.length) : addXor k (addXor k b) = b := by
  induction k generalizing b with
  | nil => cases b with
    | nil => rfl
    | cons => simp at h
  | cons x k ih => cases b with
    | nil => rfl
    | cons y b =>
      simp at h
      simp [ih b h, ← UInt8.xor_assoc]

theorem addXor_take (a b : Bytes) (n : Nat) (h : b.length ≤ n) :
    addXor (a.take n) b = addXor a b := by
  induction a generalizing b n with
  | nil => simp
  | cons x a ih => cases b with
    | nil => simp
    | cons y b => cases n with
      | zero => simp at h
      | succ n => simp at h; simp [ih b n h]

theorem addXor_append (a b c d : Bytes) (h : a.length = c.length) :
    addXor (a ++ b) (c ++ d) = addXor a c ++ addXor b d := by
  simp [addXor, List.zipWith_append h]

theorem addXor_take_both (a b : Bytes) (n : Nat) :
    (addXor a b).take n = addXor (a.take n) (b.take n) := by
  simp [addXor, List.take_zipWith]

theorem addXor_zeros (a : Bytes) (n : Nat) (h : a.length ≤ n) :
    addXor a (List.replicate n 0) = a := by
  induction a generalizing n with
  | nil => simp
  | cons x a ih => cases n with
    | zero => simp at h
    | succ n => simp at h; simp [List.replicate_succ, ih n h]

theorem addXor_left_cancel (k a b : Bytes) (ha : a.length ≤ k.length) (hb : b.length ≤ k.length)
    (h : addXor k a = addXor k b) : a = b := by
  rw [← addXor_cancel k a ha, h, addXor_cancel k b hb]

theorem zeros_length (n : Nat) : (zeros (n : Int)).length = n := by simp [zeros]

theorem zeros_nat (n : Nat) : zeros (n : Int) = List.replicate n 0 := by simp [zeros]

/-- A statement about all bytes follows from its 256 instances. -/
theorem forall_byte {P : UInt8 → Prop} (h : ∀ n : Fin 256, P (UInt8.ofNat n)) (b : UInt8) : P b := by
  have := h ⟨b.toNat, b.toNat_lt⟩
  simpa using this

end Gost
