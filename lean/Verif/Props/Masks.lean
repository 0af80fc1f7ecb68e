import Verif.Props.Diffusion
import Verif.Props.SboxLinear
import Mathlib.Data.Fintype.Pi
import Mathlib.Data.Fintype.BigOperators

/-! Property C125: how linear relations spread in Kuznechik. -/

namespace Gost

/-- The sum modulo 2 of the bits of the first n bytes of x which the masks of u select. -/
def dotBytes : Nat → Bytes → Bytes → Bool
  | 0, _, _ => false
  | n + 1, u, x => dotBytes n u x ^^ dot 8 (u.getD n 0).toNat (x.getD n 0).toNat

/-- The positions among the first n with a mask other than 0. -/
def active (n : Nat) (u : Bytes) : Finset Nat := (Finset.range n).filter fun j => u.getD j 0 ≠ 0

theorem dot_zero (k a x : Nat) (h : a = 0 ∨ x = 0) : dot k a x = false := by
  induction k with
  | zero => rfl
  | succ k ih => rcases h with rfl | rfl <;> simp [dot, ih]

/-- For a mask other than 0 there is a byte with the sum 1. -/
theorem dot_one : ∀ a : Fin 256, (a : Nat) ≠ 0 → ∃ i : Fin 8, dot 8 a (2 ^ (i : Nat)) = true := by decide +kernel

theorem dot_byte (a : UInt8) (h : a ≠ 0) : ∃ x : UInt8, dot 8 a.toNat x.toNat = true := by
  obtain ⟨i, hi⟩ := dot_one ⟨a.toNat, a.toNat_lt⟩ (fun e => h (UInt8.toNat_inj.1 e))
  refine ⟨UInt8.ofNat (2 ^ (i : Nat)), ?_⟩
  rw [UInt8.toNat_ofNat', Nat.mod_eq_of_lt (Nat.pow_lt_pow_right (by decide) i.2)]
  exact hi

theorem dotBytes_zero (n : Nat) (u x : Bytes) (h : ∀ j, j < n → dot 8 (u.getD j 0).toNat (x.getD j 0).toNat = false) :
    dotBytes n u x = false := by
  induction n with
  | zero => rfl
  | succ n ih => rw [dotBytes, ih (fun j hj => h j (by omega)), h n (by omega)]; rfl

theorem dotBytes_one (n : Nat) (u x : Bytes) (p : Nat) (hp : p < n)
    (h1 : dot 8 (u.getD p 0).toNat (x.getD p 0).toNat = true)
    (h : ∀ j, j < n → j ≠ p → dot 8 (u.getD j 0).toNat (x.getD j 0).toNat = false) : dotBytes n u x = true := by
  induction n with
  | zero => omega
  | succ n ih =>
    rw [dotBytes]
    by_cases e : p = n
    · subst e
      rw [dotBytes_zero p u x (fun j hj => h j (by omega) (by omega)), h1]; rfl
    · rw [ih (by omega) (fun j hj => h j (by omega)), h n (by omega) (fun e' => e e'.symm)]; rfl

namespace Kuz

/-- A block and its image, one after the other. -/
def word (x : Fin 16 → UInt8) (i : Fin 32) : UInt8 :=
  if (i : Nat) < 16 then (List.ofFn x).getD i 0 else (Spec.Kuz.L (List.ofFn x)).getD (i - 16) 0

theorem word_determined {T : Finset (Fin 32)} (hT : T.card = 16) (x y : Fin 16 → UInt8)
    (h : ∀ i ∈ T, word x i = word y i) : x = y := by
  by_contra hne
  have hl : List.ofFn x ≠ List.ofFn y := fun e => hne (List.ofFn_injective e)
  have hb := L_branch (List.ofFn x) (List.ofFn y) (List.length_ofFn) (List.length_ofFn) hl
  have hsub : ((changed 16 (List.ofFn x) (List.ofFn y)).disjSum
      (changed 16 (Spec.Kuz.L (List.ofFn x)) (Spec.Kuz.L (List.ofFn y)))).card ≤ (Tᶜ).card := by
    refine Finset.card_le_card_of_injOn (fun z => match z with
      | .inl j => Fin.ofNat 32 j
      | .inr j => Fin.ofNat 32 (16 + j)) ?_ ?_
    · rintro z hz
      rw [Finset.mem_coe, Finset.mem_compl]
      intro hm
      have := h _ hm
      rcases z with j | j
      · obtain ⟨hj, hd⟩ := Finset.mem_filter.1 (Finset.inl_mem_disjSum.1 hz)
        have hj := Finset.mem_range.1 hj
        have e : ((Fin.ofNat 32 j : Fin 32) : Nat) = j := Nat.mod_eq_of_lt (by omega)
        unfold word at this
        simp only [e, hj, if_true] at this
        exact hd this
      · obtain ⟨hj, hd⟩ := Finset.mem_filter.1 (Finset.inr_mem_disjSum.1 hz)
        have hj := Finset.mem_range.1 hj
        have e : ((Fin.ofNat 32 (16 + j) : Fin 32) : Nat) = 16 + j := Nat.mod_eq_of_lt (by omega)
        unfold word at this
        simp only [e, show ¬ (16 + j < 16) by omega, if_false, Nat.add_sub_cancel_left] at this
        exact hd this
    · rintro z hz w hw e
      have lim : ∀ {c : Finset Nat}, c = changed 16 (List.ofFn x) (List.ofFn y) ∨
          c = changed 16 (Spec.Kuz.L (List.ofFn x)) (Spec.Kuz.L (List.ofFn y)) → ∀ j ∈ c, j < 16 := by
        rintro c (rfl | rfl) j hj <;> exact Finset.mem_range.1 (Finset.mem_filter.1 hj).1
      rcases z with j | j <;> rcases w with k | k <;> have e := congrArg Fin.val e <;>
        simp only [Fin.ofNat] at e
      · have := lim (.inl rfl) j (Finset.inl_mem_disjSum.1 hz)
        have := lim (.inl rfl) k (Finset.inl_mem_disjSum.1 hw)
        congr 1; omega
      · have := lim (.inl rfl) j (Finset.inl_mem_disjSum.1 hz)
        have := lim (.inr rfl) k (Finset.inr_mem_disjSum.1 hw)
        omega
      · have := lim (.inr rfl) j (Finset.inr_mem_disjSum.1 hz)
        have := lim (.inl rfl) k (Finset.inl_mem_disjSum.1 hw)
        omega
      · have := lim (.inr rfl) j (Finset.inr_mem_disjSum.1 hz)
        have := lim (.inr rfl) k (Finset.inr_mem_disjSum.1 hw)
        congr 1; omega
  rw [Finset.card_disjSum, Finset.card_compl, hT, Fintype.card_fin] at hsub
  omega

noncomputable local instance : Fintype UInt8 := Fintype.ofEquiv (Fin 256) ⟨fun i => UInt8.ofFin i, fun x => x.toFin, fun _ => rfl, fun _ => rfl⟩

/-- Any sixteen of the 32 bytes can be chosen. -/
theorem word_free {T : Finset (Fin 32)} (hT : T.card = 16) (t : Fin 32 → UInt8) :
    ∃ x : Fin 16 → UInt8, ∀ i ∈ T, word x i = t i := by
  have hinj : Function.Injective fun (x : Fin 16 → UInt8) (i : T) => word x i := by
    intro x y h
    exact word_determined hT x y fun i hi => congrFun h ⟨i, hi⟩
  have hbij := (Fintype.bijective_iff_injective_and_card (fun (x : Fin 16 → UInt8) (i : T) => word x i)).2
    ⟨hinj, by rw [Fintype.card_fun, Fintype.card_fun, Fintype.card_coe, hT, Fintype.card_fin]⟩
  obtain ⟨x, hx⟩ := hbij.2 fun i => t i
  exact ⟨x, fun i hi => congrFun hx ⟨i, hi⟩⟩

/-- C125: let u and v be masks of 16 bytes, not both 0, such that the sum of the bits of a block selected by u is always
that of its image under `_cipher_l` selected by v. Then at least 17 of the 32 bytes of the masks are not 0. -/
theorem C125_masks (u v : Bytes) (h0 : active 16 u ≠ ∅ ∨ active 16 v ≠ ∅)
    (h : ∀ x : Bytes, x.length = 16 → ∃ y, cipherL x = .ok y ∧ dotBytes 16 u x = dotBytes 16 v y) :
    17 ≤ (active 16 u).card + (active 16 v).card := by
  by_contra hc
  let m : Fin 32 → UInt8 := fun i => if (i : Nat) < 16 then u.getD i 0 else v.getD (i - 16) 0
  have hA : (Finset.univ.filter fun i => m i ≠ 0).card ≤ 16 := by
    refine le_trans ?_ (show ((active 16 u).disjSum (active 16 v)).card ≤ 16 by rw [Finset.card_disjSum]; omega)
    refine Finset.card_le_card_of_injOn (fun i : Fin 32 => if (i : Nat) < 16 then Sum.inl (i : Nat) else
      Sum.inr ((i : Nat) - 16)) ?_ ?_
    · intro i hi
      have hi := (Finset.mem_filter.1 (Finset.mem_coe.1 hi)).2
      simp only [m] at hi
      rw [Finset.mem_coe]
      by_cases hlt : (i : Nat) < 16
      · simp only [hlt, if_true] at hi ⊢
        exact Finset.inl_mem_disjSum.2 (Finset.mem_filter.2 ⟨Finset.mem_range.2 hlt, hi⟩)
      · simp only [hlt, if_false] at hi ⊢
        exact Finset.inr_mem_disjSum.2 (Finset.mem_filter.2 ⟨Finset.mem_range.2 (by omega), hi⟩)
    · intro i _ j _ e
      simp only at e
      apply Fin.ext
      split at e <;> split at e <;> simp at e <;> omega
  obtain ⟨T, hsub, hT⟩ := Finset.exists_superset_card_eq hA (show 16 ≤ Fintype.card (Fin 32) by decide)
  obtain ⟨p, hp⟩ : ∃ p : Fin 32, m p ≠ 0 := by
    rcases h0 with h0 | h0 <;> obtain ⟨j, hj⟩ := Finset.nonempty_iff_ne_empty.2 h0 <;>
      obtain ⟨hj, hd⟩ := Finset.mem_filter.1 hj <;> have hj := Finset.mem_range.1 hj
    · exact ⟨⟨j, by omega⟩, by simp only [m, hj, if_true]; exact hd⟩
    · exact ⟨⟨16 + j, by omega⟩, by simp only [m, show ¬ (16 + j < 16) by omega, if_false, Nat.add_sub_cancel_left]; exact hd⟩
  obtain ⟨c, hc1⟩ := dot_byte (m p) hp
  obtain ⟨x, hx⟩ := word_free hT (fun i => if i = p then c else 0)
  have hpT : p ∈ T := hsub (Finset.mem_filter.2 ⟨Finset.mem_univ _, hp⟩)
  have hone : dot 8 (m p).toNat (word x p).toNat = true := by rw [hx p hpT, if_pos rfl]; exact hc1
  have hother : ∀ i, i ≠ p → dot 8 (m i).toNat (word x i).toNat = false := by
    intro i hi
    by_cases hiT : i ∈ T
    · rw [hx i hiT, if_neg hi]
      exact dot_zero _ _ _ (.inr rfl)
    · have : m i = 0 := by
        by_contra hne
        exact hiT (hsub (Finset.mem_filter.2 ⟨Finset.mem_univ _, hne⟩))
      rw [this]
      exact dot_zero _ _ _ (.inl rfl)
  obtain ⟨y, hy, he⟩ := h (List.ofFn x) List.length_ofFn
  rw [cipherL_ok _ List.length_ofFn] at hy
  cases hy
  have lo : ∀ j, (hj : j < 16) → m ⟨j, by omega⟩ = u.getD j 0 ∧ word x ⟨j, by omega⟩ = (List.ofFn x).getD j 0 :=
    fun j hj => by simp only [m, word, hj, if_true, and_self]
  have hi : ∀ j, (hj : j < 16) → m ⟨16 + j, by omega⟩ = v.getD j 0 ∧
      word x ⟨16 + j, by omega⟩ = (Spec.Kuz.L (List.ofFn x)).getD j 0 :=
    fun j hj => by simp only [m, word, show ¬ (16 + j < 16) by omega, if_false, Nat.add_sub_cancel_left, and_self]
  by_cases hlt : (p : Nat) < 16
  · have e1 : dotBytes 16 u (List.ofFn x) = true := by
      refine dotBytes_one 16 _ _ p hlt ?_ ?_
      · rw [← (lo p hlt).1, ← (lo p hlt).2]; exact hone
      · intro j hj hjp
        rw [← (lo j hj).1, ← (lo j hj).2]
        exact hother _ (fun e => hjp (by rw [← e]))
    have e2 : dotBytes 16 v (Spec.Kuz.L (List.ofFn x)) = false := by
      refine dotBytes_zero 16 _ _ fun j hj => ?_
      rw [← (hi j hj).1, ← (hi j hj).2]
      exact hother _ (fun e => by have := congrArg Fin.val e; simp only at this; omega)
    rw [e1, e2] at he
    cases he
  · have hp16 : (p : Nat) - 16 < 16 := by omega
    have hpe : (⟨16 + ((p : Nat) - 16), by omega⟩ : Fin 32) = p := Fin.ext (by simp only; omega)
    have e1 : dotBytes 16 u (List.ofFn x) = false := by
      refine dotBytes_zero 16 _ _ fun j hj => ?_
      rw [← (lo j hj).1, ← (lo j hj).2]
      exact hother _ (fun e => by have := congrArg Fin.val e; simp only at this; omega)
    have e2 : dotBytes 16 v (Spec.Kuz.L (List.ofFn x)) = true := by
      refine dotBytes_one 16 _ _ ((p : Nat) - 16) hp16 ?_ ?_
      · have := hi _ hp16
        rw [hpe] at this
        rw [← this.1, ← this.2]; exact hone
      · intro j hj hjp
        rw [← (hi j hj).1, ← (hi j hj).2]
        exact hother _ (fun e => by have := congrArg Fin.val e; simp only at this; omega)
    rw [e1, e2] at he
    cases he

/-- C125, for decryption. -/
theorem C125_masks_reverse (u v : Bytes) (h0 : active 16 u ≠ ∅ ∨ active 16 v ≠ ∅)
    (h : ∀ x : Bytes, x.length = 16 → ∃ y, cipherLRev x = .ok y ∧ dotBytes 16 u x = dotBytes 16 v y) :
    17 ≤ (active 16 u).card + (active 16 v).card := by
  rw [Nat.add_comm]
  refine C125_masks v u h0.symm fun z hz => ⟨_, cipherL_ok z hz, ?_⟩
  obtain ⟨y, hy, e⟩ := h (Spec.Kuz.L z) (L_length z hz)
  rw [cipherLRev_ok _ (L_length z hz), Linv_L z hz] at hy
  cases hy
  exact e.symm

theorem gfMul_xor (c a b : UInt8) : Spec.gfMul c (a ^^^ b) = Spec.gfMul c a ^^^ Spec.gfMul c b :=
  el_inj (by rw [el_mul, el_xor, el_xor, el_mul, el_mul, mul_add])

theorem foldl_xor_acc (l : Bytes) (p q : UInt8) : l.foldl (· ^^^ ·) (p ^^^ q) = p ^^^ l.foldl (· ^^^ ·) q := by
  induction l generalizing q with
  | nil => rfl
  | cons x l ih => rw [List.foldl_cons, List.foldl_cons, UInt8.xor_assoc, ih]

theorem ell_xor (c a b : Bytes) (hab : a.length = b.length) (p q : UInt8) :
    (List.zipWith Spec.gfMul c (Spec.Kuz.xor a b)).foldl (· ^^^ ·) (p ^^^ q) =
      (List.zipWith Spec.gfMul c a).foldl (· ^^^ ·) p ^^^ (List.zipWith Spec.gfMul c b).foldl (· ^^^ ·) q := by
  induction c generalizing a b p q with
  | nil => rfl
  | cons x c ih =>
    cases a with
    | nil => cases b with
      | nil => rfl
      | cons => simp at hab
    | cons y a => cases b with
      | nil => simp at hab
      | cons z b =>
        show (List.zipWith Spec.gfMul c (Spec.Kuz.xor a b)).foldl (· ^^^ ·) ((p ^^^ q) ^^^ Spec.gfMul x (y ^^^ z)) =
          (List.zipWith Spec.gfMul c a).foldl (· ^^^ ·) (p ^^^ Spec.gfMul x y) ^^^
            (List.zipWith Spec.gfMul c b).foldl (· ^^^ ·) (q ^^^ Spec.gfMul x z)
        rw [← ih a b (by simpa using hab), gfMul_xor]
        congr 1
        simp only [UInt8.xor_assoc]
        rw [← UInt8.xor_assoc q, UInt8.xor_comm q, UInt8.xor_assoc]

theorem R_xor (a b : Bytes) (hab : a.length = b.length) :
    Spec.Kuz.R (Spec.Kuz.xor a b) = Spec.Kuz.xor (Spec.Kuz.R a) (Spec.Kuz.R b) := by
  have h := ell_xor Spec.Kuz.coeffs a b hab 0 0
  show Spec.Kuz.ell (Spec.Kuz.xor a b) :: (Spec.Kuz.xor a b).take 15 =
    (Spec.Kuz.ell a ^^^ Spec.Kuz.ell b) :: List.zipWith (· ^^^ ·) (a.take 15) (b.take 15)
  rw [← List.take_zipWith]
  exact congrArg (· :: _) h

theorem L_xor (a b : Bytes) (hab : a.length = b.length) :
    Spec.Kuz.L (Spec.Kuz.xor a b) = Spec.Kuz.xor (Spec.Kuz.L a) (Spec.Kuz.L b) := by
  have : ∀ n, Nat.repeat Spec.Kuz.R n (Spec.Kuz.xor a b) =
      Spec.Kuz.xor (Nat.repeat Spec.Kuz.R n a) (Nat.repeat Spec.Kuz.R n b) ∧
      (Nat.repeat Spec.Kuz.R n a).length = (Nat.repeat Spec.Kuz.R n b).length := by
    intro n
    induction n with
    | zero => exact ⟨rfl, hab⟩
    | succ n ih =>
      refine ⟨?_, ?_⟩
      · show Spec.Kuz.R (Nat.repeat Spec.Kuz.R n (Spec.Kuz.xor a b)) = _
        rw [ih.1, R_xor _ _ ih.2]; rfl
      · show (Spec.Kuz.R _).length = (Spec.Kuz.R _).length
        simp only [Spec.Kuz.R, List.length_cons, List.length_take, ih.2]
  exact (this 16).1

theorem dot_xor (k a x y : Nat) : dot k a (x ^^^ y) = (dot k a x ^^ dot k a y) := by
  induction k with
  | zero => rfl
  | succ k ih =>
    simp only [dot, ih, Nat.testBit_xor]
    cases dot k a x <;> cases dot k a y <;> cases a.testBit k <;> cases x.testBit k <;> cases y.testBit k <;> rfl

theorem xor_getD (a b : Bytes) (hab : a.length = b.length) (j : Nat) :
    (Spec.Kuz.xor a b).getD j 0 = a.getD j 0 ^^^ b.getD j 0 := by
  simp only [Spec.Kuz.xor, List.getD_eq_getElem?_getD, List.getElem?_zipWith]
  by_cases h : j < a.length
  · rw [List.getElem?_eq_getElem h, List.getElem?_eq_getElem (hab ▸ h)]; rfl
  · rw [List.getElem?_eq_none (by omega), List.getElem?_eq_none (by omega)]; rfl

theorem dotBytes_xor (n : Nat) (u a b : Bytes) (hab : a.length = b.length) :
    dotBytes n u (Spec.Kuz.xor a b) = (dotBytes n u a ^^ dotBytes n u b) := by
  induction n with
  | zero => rfl
  | succ n ih =>
    rw [dotBytes, dotBytes, dotBytes, ih, xor_getD _ _ hab, UInt8.toNat_xor, dot_xor]
    cases dotBytes n u a <;> cases dotBytes n u b <;> cases dot 8 (u.getD n 0).toNat (a.getD n 0).toNat <;>
      cases dot 8 (u.getD n 0).toNat (b.getD n 0).toNat <;> rfl

/-- The block with the byte b at position j and zeros elsewhere. -/
def single (j : Nat) (b : UInt8) : Bytes := (List.replicate 16 0).set j b

theorem single_xor (j : Nat) (b c : UInt8) : single j (b ^^^ c) = Spec.Kuz.xor (single j b) (single j c) := by
  apply List.ext_getElem (by simp [single, Spec.Kuz.xor])
  intro i h1 h2
  simp only [single, Spec.Kuz.xor, List.getElem_zipWith, List.getElem_set, List.getElem_replicate]
  split <;> rfl

theorem byte_bits : ∀ b : Fin 256, (b : Nat) = (List.range 8).foldl
    (fun acc i => acc ^^^ (if (b : Nat).testBit i then 2 ^ i else 0)) 0 := by decide +kernel

/-- A sum which is 0 on the blocks with one bit is 0 on all blocks. -/
theorem additive_zero (g : Bytes → Bool)
    (hg : ∀ a b : Bytes, a.length = 16 → b.length = 16 → g (Spec.Kuz.xor a b) = (g a ^^ g b))
    (h1 : ∀ j, j < 16 → ∀ i, i < 8 → g (single j (UInt8.ofNat (2 ^ i))) = false)
    (x : Bytes) (hx : x.length = 16) : g x = false := by
  have hlen : ∀ j b, (single j b).length = 16 := fun j b => by simp [single]
  have hs : ∀ j, j < 16 → ∀ b c, g (single j (b ^^^ c)) = (g (single j b) ^^ g (single j c)) := fun j _ b c => by
    rw [single_xor, hg _ _ (hlen _ _) (hlen _ _)]
  have hz : ∀ j, j < 16 → g (single j 0) = false := fun j hj => by
    have := hs j hj 0 0
    rw [show (0 : UInt8) ^^^ 0 = 0 from rfl] at this
    rw [this]; cases g (single j 0) <;> rfl
  have hbyte : ∀ j, j < 16 → ∀ b, g (single j b) = false := by
    intro j hj b
    have hfold : ∀ l : List Nat, (∀ i ∈ l, i < 8) → ∀ acc : Nat, g (single j (UInt8.ofNat acc)) = false →
        g (single j (UInt8.ofNat (l.foldl (fun acc i => acc ^^^ (if b.toNat.testBit i then 2 ^ i else 0)) acc))) = false := by
      intro l
      induction l with
      | nil => intro _ _ h; exact h
      | cons i l ih =>
        intro hl acc h
        refine ih (fun k hk => hl k (List.mem_cons_of_mem _ hk)) _ ?_
        rw [UInt8.ofNat_xor, hs j hj, h]
        split
        · rw [h1 j hj i (hl i List.mem_cons_self)]; rfl
        · rw [show UInt8.ofNat 0 = 0 from rfl, hz j hj]; rfl
    have := hfold (List.range 8) (fun i hi => List.mem_range.1 hi) 0 (hz j hj)
    rw [← byte_bits ⟨b.toNat, b.toNat_lt⟩] at this
    simpa using this
  have hdown : ∀ k, k ≤ 16 → ∀ y : Bytes, y.length = 16 → (∀ j, k ≤ j → y.getD j 0 = 0) → g y = false := by
    intro k
    induction k with
    | zero =>
      intro _ y hy h0
      have : y = single 0 0 := by
        apply List.ext_getElem (by rw [hy, hlen])
        intro i h1 h2
        have := h0 i (Nat.zero_le _)
        rw [List.getD_eq_getElem?_getD, List.getElem?_eq_getElem h1, Option.getD_some] at this
        rw [this]
        simp only [single, List.getElem_set, List.getElem_replicate]
        split <;> rfl
      rw [this]; exact hz 0 (by decide)
    | succ k ih =>
      intro hk y hy h0
      have : y = Spec.Kuz.xor (single k (y.getD k 0)) (y.set k 0) := by
        apply List.ext_getElem (by simp [Spec.Kuz.xor, hlen, hy])
        intro i h1 h2
        simp only [single, Spec.Kuz.xor, List.getElem_zipWith, List.getElem_set, List.getElem_replicate]
        by_cases e : k = i
        · subst e
          simp [List.getElem?_eq_getElem h1]
        · simp [e]
      rw [this, hg _ _ (hlen _ _) (by simp [hy]), hbyte k (by omega), ih (by omega) _ (by simp [hy])]
      · rfl
      · intro j hj
        by_cases e : j = k
        · subst e
          simp [List.getD_eq_getElem?_getD, hy, show j < 16 by omega]
        · have := h0 j (by omega)
          rw [List.getD_eq_getElem?_getD] at this ⊢
          rw [List.getElem?_set_ne (fun e' => e e'.symm)]
          exact this
  exact hdown 16 (Nat.le_refl _) x hx fun j hj => by
    rw [List.getD_eq_getElem?_getD, List.getElem?_eq_none (by omega)]; rfl

/-- The mask of a byte with the given bits. -/
def maskByte (f : Nat → Bool) : UInt8 := UInt8.ofNat ((List.range 8).foldl (fun acc i => acc ||| (if f i then 2 ^ i else 0)) 0)

theorem dot_maskByte (f : Nat → Bool) (i : Nat) (hi : i < 8) : dot 8 (maskByte f).toNat (2 ^ i) = f i := by
  have : ∀ b0 b1 b2 b3 b4 b5 b6 b7 : Bool, ∀ i : Fin 8,
      dot 8 (maskByte fun k => [b0, b1, b2, b3, b4, b5, b6, b7].getD k false).toNat (2 ^ (i : Nat)) =
        [b0, b1, b2, b3, b4, b5, b6, b7].getD i false := by decide +kernel
  have h := this (f 0) (f 1) (f 2) (f 3) (f 4) (f 5) (f 6) (f 7) ⟨i, hi⟩
  have e : maskByte f = maskByte fun k => [f 0, f 1, f 2, f 3, f 4, f 5, f 6, f 7].getD k false := rfl
  rw [e, h]
  have : i = 0 ∨ i = 1 ∨ i = 2 ∨ i = 3 ∨ i = 4 ∨ i = 5 ∨ i = 6 ∨ i = 7 := by omega
  rcases this with rfl | rfl | rfl | rfl | rfl | rfl | rfl | rfl <;> rfl

/-- C125: for every mask of the image there is a mask of the block as in `C125_masks`. -/
theorem C125_masks_exist (v : Bytes) : ∃ u : Bytes, u.length = 16 ∧
    ∀ x : Bytes, x.length = 16 → ∃ y, cipherL x = .ok y ∧ dotBytes 16 u x = dotBytes 16 v y := by
  let f : Bytes → Bool := fun x => dotBytes 16 v (Spec.Kuz.L x)
  let u : Bytes := (List.range 16).map fun j => maskByte fun i => f (single j (UInt8.ofNat (2 ^ i)))
  refine ⟨u, by simp [u], fun x hx => ⟨_, cipherL_ok x hx, ?_⟩⟩
  have hz := additive_zero (fun x => dotBytes 16 u x ^^ f x) ?_ ?_ x hx
  · simpa using hz
  · intro a b ha hb
    have hL : (Spec.Kuz.L a).length = (Spec.Kuz.L b).length := by rw [L_length a ha, L_length b hb]
    simp only [f, dotBytes_xor _ _ _ _ (ha.trans hb.symm), L_xor _ _ (ha.trans hb.symm), dotBytes_xor _ _ _ _ hL]
    cases dotBytes 16 u a <;> cases dotBytes 16 u b <;> cases dotBytes 16 v (Spec.Kuz.L a) <;>
      cases dotBytes 16 v (Spec.Kuz.L b) <;> rfl
  · intro j hj i hi
    have hj0 : (single j (UInt8.ofNat (2 ^ i))).getD j 0 = UInt8.ofNat (2 ^ i) := by
      simp [single, hj]
    have hoth : ∀ k, k < 16 → k ≠ j → (single j (UInt8.ofNat (2 ^ i))).getD k 0 = 0 := by
      intro k hk hkj
      rw [single, List.getD_eq_getElem?_getD, List.getElem?_set_ne (fun e => hkj e.symm), List.getElem?_replicate]
      split <;> rfl
    have hu : u.getD j 0 = maskByte fun i => f (single j (UInt8.ofNat (2 ^ i))) := by simp [u, hj]
    have hd : dot 8 (u.getD j 0).toNat ((single j (UInt8.ofNat (2 ^ i))).getD j 0).toNat =
        f (single j (UInt8.ofNat (2 ^ i))) := by
      rw [hj0, hu, UInt8.toNat_ofNat', Nat.mod_eq_of_lt (Nat.pow_lt_pow_right (by decide) hi), dot_maskByte _ i hi]
    show (dotBytes 16 u _ ^^ f _) = false
    have h0 : ∀ k, k < 16 → k ≠ j → dot 8 (u.getD k 0).toNat ((single j (UInt8.ofNat (2 ^ i))).getD k 0).toNat = false :=
      fun k hk hkj => by rw [hoth k hk hkj]; exact dot_zero _ _ _ (.inr rfl)
    cases hf : f (single j (UInt8.ofNat (2 ^ i))) with
    | true => rw [dotBytes_one 16 u _ j hj (hd.trans hf) h0]; rfl
    | false =>
      rw [dotBytes_zero 16 u _ fun k hk => ?_]
      · rfl
      · by_cases e : k = j
        · subst e; exact hd.trans hf
        · exact h0 k hk e

/-- `C125_masks` is not vacuous: a mask with one byte of the image gives a mask with all sixteen bytes of the block. -/
example : ∃ u : Bytes, u.length = 16 ∧ (active 16 u).card = 16 ∧
    ∀ x : Bytes, x.length = 16 → ∃ y, cipherL x = .ok y ∧ dotBytes 16 u x = dotBytes 16 (single 3 5) y := by
  obtain ⟨u, hu, h⟩ := C125_masks_exist (single 3 5)
  have hb := C125_masks u (single 3 5) (.inr (by decide +kernel)) h
  have h1 : (active 16 (single 3 5)).card = 1 := by decide +kernel
  have h2 : (active 16 u).card ≤ 16 := by
    exact (Finset.card_filter_le (Finset.range 16) fun j => u.getD j 0 ≠ 0).trans (by rw [Finset.card_range])
  exact ⟨u, hu, by omega, h⟩

end Kuz
end Gost
