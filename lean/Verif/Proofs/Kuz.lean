import Verif.Proofs.Basic
import Verif.Model.BlockCipher
import Verif.Spec.Kuznyechik

/-! Kuznechik: the model computes the pure functions of the specification, and
decryption inverts encryption. -/

namespace Gost

/-- Closes goals about lengths of xors and maps. -/
macro "lens" : tactic =>
  `(tactic| (simp only [addXor_length, List.length_map, List.length_append, List.length_cons,
      List.length_nil, List.length_set, List.length_replicate]; omega))

open Spec (gfMul)

set_option maxRecDepth 20000

/-! ### Tables -/

theorem sKuz_eq_fin : ∀ n : Fin 256, sKuz (UInt8.ofNat n) = Spec.pi (UInt8.ofNat n) := by
  decide +kernel

theorem sKuz_eq (b : UInt8) : sKuz b = Spec.pi b :=
  forall_byte (P := fun b => sKuz b = Spec.pi b) sKuz_eq_fin b

theorem sKuzRev_sKuz_fin : ∀ n : Fin 256, sKuzRev (sKuz (UInt8.ofNat n)) = UInt8.ofNat n := by
  decide +kernel

theorem sKuzRev_sKuz (b : UInt8) : sKuzRev (sKuz b) = b :=
  forall_byte (P := fun b => sKuzRev (sKuz b) = b) sKuzRev_sKuz_fin b

theorem sKuz_sKuzRev_fin : ∀ n : Fin 256, sKuz (sKuzRev (UInt8.ofNat n)) = UInt8.ofNat n := by
  decide +kernel

theorem sKuz_sKuzRev (b : UInt8) : sKuz (sKuzRev b) = b :=
  forall_byte (P := fun b => sKuz (sKuzRev b) = b) sKuz_sKuzRev_fin b

/-- Coefficient belonging to table `i`: the table order is `a_0, a_15, a_14, …`. -/
def kuzCo (i : Nat) : UInt8 := Spec.Kuz.coeffs.getD ((i + 15) % 16) 0

theorem gf_rows : ∀ i : Fin 16, gfTable.getD i [] =
    (List.range 256).map fun n => (gfMul (kuzCo i) (UInt8.ofNat n)).toNat := by
  decide +kernel

/-- All 16·256 entries of the multiplication tables. -/
theorem gf_eq (i : Nat) (hi : i < 16) (b : UInt8) : gf i b = gfMul (kuzCo i) b := by
  have h := gf_rows ⟨i, hi⟩
  have hb := b.toNat_lt
  unfold gf
  rw [show gfTable.getD i [] = _ from h]
  simp [List.getD, hb]

theorem gf_zero_fin : ∀ n : Fin 256, gf 0 (UInt8.ofNat n) = UInt8.ofNat n := by
  decide +kernel

theorem gf_zero (b : UInt8) : gf 0 b = b :=
  forall_byte (P := fun b => gf 0 b = b) gf_zero_fin b

/-! ### Pure forms -/

theorem exists16 {α : Type} (l : List α) (h : l.length = 16) :
    ∃ x0 x1 x2 x3 x4 x5 x6 x7 x8 x9 x10 x11 x12 x13 x14 x15,
      l = [x0, x1, x2, x3, x4, x5, x6, x7, x8, x9, x10, x11, x12, x13, x14, x15] := by
  rcases l with _ | ⟨x0, _ | ⟨x1, _ | ⟨x2, _ | ⟨x3, _ | ⟨x4, _ | ⟨x5, _ | ⟨x6, _ | ⟨x7,
    _ | ⟨x8, _ | ⟨x9, _ | ⟨x10, _ | ⟨x11, _ | ⟨x12, _ | ⟨x13, _ | ⟨x14, _ | ⟨x15, _ | ⟨x16, l⟩⟩⟩⟩⟩⟩⟩⟩⟩⟩⟩⟩⟩⟩⟩⟩⟩
  all_goals first
    | (exfalso; simp at h; done)
    | (exfalso; simp at h; omega)
    | exact ⟨_, _, _, _, _, _, _, _, _, _, _, _, _, _, _, _, rfl⟩

namespace Kuz

/-- The inverse of R: `a_15 … a_0 ↦ a_14 … a_0 ‖ ℓ(a_14, …, a_0, a_15)`. -/
def Rinv (a : Bytes) : Bytes := a.drop 1 ++ [Spec.Kuz.ell (a.drop 1 ++ a.take 1)]

theorem cipherS_ok (d : Bytes) (h : d.length = 16) : cipherS d = .ok (d.map sKuz) := by
  unfold cipherS
  rw [mapM_ok _ (fun i => sKuz (d.getD i 0))]
  · rw [show (fun i => sKuz (d.getD i 0)) = sKuz ∘ (fun i => d.getD i 0) from rfl,
      ← List.map_map, range_map_getD d 0 16 h]
  · intro i hi
    rw [pyGet_getD d i 0 (by simp at hi; omega)]; rfl

theorem cipherSRev_ok (d : Bytes) (h : d.length = 16) : cipherSRev d = .ok (d.map sKuzRev) := by
  unfold cipherSRev
  rw [mapM_ok _ (fun i => sKuzRev (d.getD i 0))]
  · rw [show (fun i => sKuzRev (d.getD i 0)) = sKuzRev ∘ (fun i => d.getD i 0) from rfl,
      ← List.map_map, range_map_getD d 0 16 h]
  · intro i hi
    rw [pyGet_getD d i 0 (by simp at hi; omega)]; rfl

theorem cipherS_short (d : Bytes) (h : d.length < 16) : cipherS d = .error .indexError := by
  unfold cipherS
  have : List.range 16 = List.range d.length ++ d.length :: List.range' (d.length + 1) (15 - d.length) := by
    rw [List.range_eq_range', List.range_eq_range', ← List.range'_succ]
    have := List.range'_append (s := 0) (m := d.length) (n := 15 - d.length + 1) (step := 1)
    rw [show 0 + 1 * d.length = d.length by omega] at this
    rw [this]
    congr 1; omega
  rw [this]
  refine mapM_error _ (fun i => sKuz (d.getD i 0)) _ _ _ _ ?_ ?_
  · intro i hi
    rw [pyGet_getD d i 0 (by simpa using hi)]; rfl
  · rw [pyGet_out d d.length (Nat.le_refl _)]; rfl

theorem cipherR_ok (d : Bytes) (h : d.length = 16) : cipherR d = .ok (Spec.Kuz.R d) := by
  obtain ⟨x0, x1, x2, x3, x4, x5, x6, x7, x8, x9, x10, x11, x12, x13, x14, x15, rfl⟩ := exists16 d h
  have h1 : cipherR [x0, x1, x2, x3, x4, x5, x6, x7, x8, x9, x10, x11, x12, x13, x14, x15] =
    .ok ((0 ^^^ gf 0 x15 ^^^ gf 1 x0 ^^^ gf 2 x1 ^^^ gf 3 x2 ^^^ gf 4 x3 ^^^ gf 5 x4 ^^^ gf 6 x5
      ^^^ gf 7 x6 ^^^ gf 8 x7 ^^^ gf 9 x8 ^^^ gf 10 x9 ^^^ gf 11 x10 ^^^ gf 12 x11 ^^^ gf 13 x12
      ^^^ gf 14 x13 ^^^ gf 15 x14) ::
      [x0, x1, x2, x3, x4, x5, x6, x7, x8, x9, x10, x11, x12, x13, x14]) := by
    unfold cipherR; generalize gf = g; rfl
  rw [h1]
  simp only [gf_eq 0 (by omega), gf_eq 1 (by omega), gf_eq 2 (by omega), gf_eq 3 (by omega),
    gf_eq 4 (by omega), gf_eq 5 (by omega), gf_eq 6 (by omega), gf_eq 7 (by omega),
    gf_eq 8 (by omega), gf_eq 9 (by omega), gf_eq 10 (by omega), gf_eq 11 (by omega),
    gf_eq 12 (by omega), gf_eq 13 (by omega), gf_eq 14 (by omega), gf_eq 15 (by omega)]
  simp only [Spec.Kuz.R, Spec.Kuz.ell, Spec.Kuz.coeffs, kuzCo, List.zipWith_cons_cons,
    List.zipWith_nil_left, List.foldl_cons, List.foldl_nil, List.take]
  congr 2
  simp only [List.getD, Nat.reduceAdd, Nat.reduceMod, List.getElem?_cons_zero,
    List.getElem?_cons_succ, Option.getD_some]
  ac_rfl

theorem cipherRRev_ok (d : Bytes) (h : d.length = 16) : cipherRRev d = .ok (Rinv d) := by
  obtain ⟨x0, x1, x2, x3, x4, x5, x6, x7, x8, x9, x10, x11, x12, x13, x14, x15, rfl⟩ := exists16 d h
  have h1 : cipherRRev [x0, x1, x2, x3, x4, x5, x6, x7, x8, x9, x10, x11, x12, x13, x14, x15] =
    .ok ([x1, x2, x3, x4, x5, x6, x7, x8, x9, x10, x11, x12, x13, x14, x15] ++
      [0 ^^^ gf 15 x15 ^^^ gf 14 x14 ^^^ gf 13 x13 ^^^ gf 12 x12 ^^^ gf 11 x11 ^^^ gf 10 x10
      ^^^ gf 9 x9 ^^^ gf 8 x8 ^^^ gf 7 x7 ^^^ gf 6 x6 ^^^ gf 5 x5 ^^^ gf 4 x4 ^^^ gf 3 x3
      ^^^ gf 2 x2 ^^^ gf 1 x1 ^^^ gf 0 x0]) := by
    unfold cipherRRev; generalize gf = g; rfl
  rw [h1]
  simp only [gf_eq 0 (by omega), gf_eq 1 (by omega), gf_eq 2 (by omega), gf_eq 3 (by omega),
    gf_eq 4 (by omega), gf_eq 5 (by omega), gf_eq 6 (by omega), gf_eq 7 (by omega),
    gf_eq 8 (by omega), gf_eq 9 (by omega), gf_eq 10 (by omega), gf_eq 11 (by omega),
    gf_eq 12 (by omega), gf_eq 13 (by omega), gf_eq 14 (by omega), gf_eq 15 (by omega)]
  simp only [Rinv, Spec.Kuz.ell, Spec.Kuz.coeffs, kuzCo, List.zipWith_cons_cons, List.drop,
    List.zipWith_nil_left, List.foldl_cons, List.foldl_nil, List.take, List.cons_append,
    List.nil_append]
  congr 2
  simp only [List.getD, Nat.reduceAdd, Nat.reduceMod, List.getElem?_cons_zero,
    List.getElem?_cons_succ, Option.getD_some]
  ac_rfl

theorem gfMul_one_fin : ∀ n : Fin 256, gfMul 1 (UInt8.ofNat n) = UInt8.ofNat n := by
  decide +kernel

theorem gfMul_one (b : UInt8) : gfMul 1 b = b :=
  forall_byte (P := fun b => gfMul 1 b = b) gfMul_one_fin b

/-- ℓ of 15 coefficients plus the coefficient-one byte. -/
theorem ell_append (t : Bytes) (x : UInt8) (h : t.length = 15) :
    Spec.Kuz.ell (t ++ [x]) = Spec.Kuz.ell t ^^^ x := by
  have : Spec.Kuz.coeffs = Spec.Kuz.coeffs.take 15 ++ [1] := rfl
  unfold Spec.Kuz.ell
  rw [this, List.zipWith_append (by rw [h]; rfl), List.foldl_append]
  have h2 : List.zipWith gfMul (List.take 15 Spec.Kuz.coeffs ++ [1]) t =
      List.zipWith gfMul (List.take 15 Spec.Kuz.coeffs) t := by
    have := List.zipWith_append (f := gfMul) (l₁ := List.take 15 Spec.Kuz.coeffs) (l₂ := t)
      (l₁' := [1]) (l₂' := []) (by rw [h]; rfl)
    simpa using this
  rw [h2]
  simp [gfMul_one]

theorem R_length (d : Bytes) (h : d.length = 16) : (Spec.Kuz.R d).length = 16 := by
  simp [Spec.Kuz.R, h]

theorem Rinv_length (d : Bytes) (h : d.length = 16) : (Rinv d).length = 16 := by
  simp [Rinv, h]

theorem Rinv_R (d : Bytes) (h : d.length = 16) : Rinv (Spec.Kuz.R d) = d := by
  have h15 : (d.take 15).length = 15 := by simp [h]
  have hd : d = d.take 15 ++ [d.getD 15 0] := by
    conv => lhs; rw [← List.take_append_drop 15 d]
    congr 1
    apply List.ext_getElem
    · simp [h]
    · intro i h1 h2
      simp at h2
      subst h2
      simp [List.getD, List.getElem?_eq_getElem (show 15 < d.length by omega)]
  have e1 : Spec.Kuz.ell d = Spec.Kuz.ell (d.take 15) ^^^ d.getD 15 0 := by
    conv => lhs; rw [hd]
    rw [ell_append _ _ h15]
  unfold Rinv Spec.Kuz.R
  simp only [List.drop_succ_cons, List.drop_zero, List.take_succ_cons, List.take_zero]
  rw [ell_append _ _ h15, e1, ← UInt8.xor_assoc]
  simp only [UInt8.xor_self, UInt8.zero_xor]
  exact hd.symm

theorem R_Rinv (d : Bytes) (h : d.length = 16) : Spec.Kuz.R (Rinv d) = d := by
  obtain ⟨x, t, rfl⟩ : ∃ x t, d = x :: t := by
    cases d with
    | nil => simp at h
    | cons x t => exact ⟨x, t, rfl⟩
  have ht : t.length = 15 := by simpa using h
  unfold Rinv Spec.Kuz.R
  simp only [List.drop_succ_cons, List.drop_zero, List.take_succ_cons, List.take_zero]
  rw [ell_append _ _ ht, ell_append _ _ ht, ← UInt8.xor_assoc]
  simp [ht]

/-! ### L -/

theorem iter_length (f : Bytes → Bytes) (hf : ∀ d : Bytes, d.length = 16 → (f d).length = 16)
    (n : Nat) (d : Bytes) (h : d.length = 16) : (Nat.repeat f n d).length = 16 := by
  induction n with
  | zero => exact h
  | succ n ih => exact hf _ ih

theorem L_length (d : Bytes) (h : d.length = 16) : (Spec.Kuz.L d).length = 16 :=
  iter_length _ R_length 16 d h

theorem repeat_ok (g : Bytes → Res Bytes) (f : Bytes → Bytes)
    (hg : ∀ d : Bytes, d.length = 16 → g d = .ok (f d))
    (hf : ∀ d : Bytes, d.length = 16 → (f d).length = 16) (n : Nat) (d : Bytes)
    (h : d.length = 16) :
    (List.range n).foldlM (fun r _ => g r) d = .ok (Nat.repeat f n d) := by
  induction n with
  | zero => rfl
  | succ n ih =>
    rw [List.range_succ, List.foldlM_append, ih]
    simp only [Res.bind_ok, List.foldlM_cons, List.foldlM_nil]
    rw [hg _ (iter_length f hf n d h)]
    rfl

/-- Sixteen applications of the inverse of R. -/
def Linv (a : Bytes) : Bytes := Nat.repeat Rinv 16 a

theorem Linv_length (d : Bytes) (h : d.length = 16) : (Linv d).length = 16 :=
  iter_length _ Rinv_length 16 d h

theorem cipherL_ok (d : Bytes) (h : d.length = 16) : cipherL d = .ok (Spec.Kuz.L d) :=
  repeat_ok _ _ cipherR_ok R_length 16 d h

theorem cipherLRev_ok (d : Bytes) (h : d.length = 16) : cipherLRev d = .ok (Linv d) :=
  repeat_ok _ _ cipherRRev_ok Rinv_length 16 d h

theorem repeat_succ' (f : Bytes → Bytes) (n : Nat) (d : Bytes) :
    Nat.repeat f (n + 1) d = Nat.repeat f n (f d) := by
  induction n with
  | zero => rfl
  | succ n ih =>
    show f (Nat.repeat f (n + 1) d) = f (Nat.repeat f n (f d))
    rw [ih]

theorem repeat_inverse (f g : Bytes → Bytes)
    (hf : ∀ d : Bytes, d.length = 16 → (f d).length = 16)
    (hfg : ∀ d : Bytes, d.length = 16 → g (f d) = d) (n : Nat) (d : Bytes)
    (h : d.length = 16) : Nat.repeat g n (Nat.repeat f n d) = d := by
  induction n with
  | zero => rfl
  | succ n ih =>
    rw [repeat_succ' g]
    show Nat.repeat g n (g (f (Nat.repeat f n d))) = d
    rw [hfg _ (iter_length f hf n d h), ih]

theorem Linv_L (d : Bytes) (h : d.length = 16) : Linv (Spec.Kuz.L d) = d :=
  repeat_inverse _ _ R_length Rinv_R 16 d h

theorem L_Linv (d : Bytes) (h : d.length = 16) : Spec.Kuz.L (Linv d) = d :=
  repeat_inverse _ _ Rinv_length R_Rinv 16 d h

/-! ### Rounds, for any list of ten round keys of at least 16 bytes -/

/-- Ten keys of at least 16 bytes (after `clear` the keys are longer). -/
def GoodKeys (ks : List Bytes) : Prop := ks.length = 10 ∧ ∀ k ∈ ks, 16 ≤ k.length

/-- One round. -/
def round (k b : Bytes) : Bytes := Spec.Kuz.L ((addXor k b).map sKuz)

/-- One inverse round. -/
def roundInv (k b : Bytes) : Bytes := addXor k ((Linv b).map sKuzRev)

theorem round_length (k b : Bytes) (hk : 16 ≤ k.length) (hb : b.length = 16) :
    (round k b).length = 16 := by
  apply L_length; lens

theorem roundInv_length (k b : Bytes) (hk : 16 ≤ k.length) (hb : b.length = 16) :
    (roundInv k b).length = 16 := by
  have := Linv_length b hb
  simp [roundInv]; omega

theorem roundInv_round (k b : Bytes) (hk : 16 ≤ k.length) (hb : b.length = 16) :
    roundInv k (round k b) = b := by
  unfold roundInv round
  rw [Linv_L _ (by lens), List.map_map]
  have : (sKuzRev ∘ sKuz) = id := by funext x; exact sKuzRev_sKuz x
  rw [this, List.map_id, addXor_cancel _ _ (by omega)]

theorem round_roundInv (k b : Bytes) (hk : 16 ≤ k.length) (hb : b.length = 16) :
    round k (roundInv k b) = b := by
  have h1 := Linv_length b hb
  unfold roundInv round
  rw [addXor_cancel _ _ (by lens), List.map_map]
  have : (sKuz ∘ sKuzRev) = id := by funext x; exact sKuz_sKuzRev x
  rw [this, List.map_id, L_Linv _ hb]

/-- Pure encryption with a list of ten round keys. -/
def E (ks : List Bytes) (b : Bytes) : Bytes :=
  addXor (ks.getD 9 []) ((List.range 9).foldl (fun b n => round (ks.getD n []) b) b)

/-- Pure decryption with a list of ten round keys. -/
def D (ks : List Bytes) (b : Bytes) : Bytes :=
  (List.range 9).reverse.foldl (fun b n => roundInv (ks.getD n []) b) (addXor (ks.getD 9 []) b)

theorem GoodKeys.get {ks : List Bytes} (h : GoodKeys ks) (i : Nat) (hi : i < 10) :
    16 ≤ (ks.getD i []).length := by
  have : i < ks.length := by rw [h.1]; exact hi
  simp only [List.getD, List.getElem?_eq_getElem this, Option.getD_some]
  exact h.2 _ (List.getElem_mem this)

theorem encrypt_ok {ks : List Bytes} (h : GoodKeys ks) (b : Bytes) (hb : b.length = 16) :
    encrypt ks b = .ok (E ks b) ∧ (E ks b).length = 16 := by
  have key := foldlM_ok (fun b (i : Nat) => do
      let k ← pyGet ks i
      let b ← cipherS (addXor k b)
      cipherL b) (fun b n => round (ks.getD n []) b) (fun b => b.length = 16) (List.range 9) b hb
    (by
      intro b hb i hi
      have hi9 : i < 9 := by simpa using hi
      have hk := h.get i (by omega)
      refine ⟨?_, round_length _ _ hk hb⟩
      simp only [pyGet_getD ks i [] (by rw [h.1]; omega), Res.bind_ok]
      rw [cipherS_ok _ (by lens), Res.bind_ok, cipherL_ok _ (by lens)]
      rfl)
  have hk := h.get 9 (by omega)
  constructor
  · unfold encrypt
    rw [key.1]
    simp only [Res.bind_ok]
    rw [show (9 : Int) = ((9 : Nat) : Int) from rfl, pyGet_getD ks 9 [] (by rw [h.1]; omega)]
    simp only [Res.bind_ok, Res.pure_eq, E]
  · have := key.2
    simp only [E, addXor_length]; omega

theorem decrypt_ok {ks : List Bytes} (h : GoodKeys ks) (b : Bytes) (hb : b.length = 16) :
    decrypt ks b = .ok (D ks b) ∧ (D ks b).length = 16 := by
  have hk9 := h.get 9 (by omega)
  have key := foldlM_ok (fun b (i : Nat) => do
      let b ← cipherLRev b
      let b ← cipherSRev b
      let k ← pyGet ks i
      pure (addXor k b)) (fun b n => roundInv (ks.getD n []) b) (fun b => b.length = 16)
    (List.range 9).reverse (addXor (ks.getD 9 []) b) (by lens)
    (by
      intro b hb i hi
      have hi9 : i < 9 := by simpa using hi
      have hk := h.get i (by omega)
      refine ⟨?_, roundInv_length _ _ hk hb⟩
      have hl := Linv_length b hb
      rw [cipherLRev_ok _ hb, Res.bind_ok, cipherSRev_ok _ hl, Res.bind_ok,
        pyGet_getD ks i [] (by rw [h.1]; omega)]
      rfl)
  constructor
  · unfold decrypt
    rw [show (9 : Int) = ((9 : Nat) : Int) from rfl, pyGet_getD ks 9 [] (by rw [h.1]; omega)]
    exact key.1
  · exact key.2

theorem rounds_inverse (f g : Bytes → Nat → Bytes) (P : Bytes → Prop)
    (l : List Nat) (hP : ∀ b, P b → ∀ n ∈ l, P (f b n))
    (hfg : ∀ b, P b → ∀ n ∈ l, g (f b n) n = b) (b : Bytes) (hb : P b) :
    l.reverse.foldl g (l.foldl f b) = b := by
  induction l generalizing b with
  | nil => rfl
  | cons n l ih =>
    rw [List.reverse_cons, List.foldl_append, List.foldl_cons, List.foldl_cons,
      List.foldl_nil, ih
      (fun b hb m hm => hP b hb m (by simp [hm])) (fun b hb m hm => hfg b hb m (by simp [hm]))
      (f b n) (hP b hb n (by simp))]
    exact hfg b hb n (by simp)

theorem D_E {ks : List Bytes} (h : GoodKeys ks) (b : Bytes) (hb : b.length = 16) :
    D ks (E ks b) = b := by
  have hl : ((List.range 9).foldl (fun b n => round (ks.getD n []) b) b).length = 16 := by
    have hk := h.get 9 (by omega)
    have key := foldlM_ok (fun b (n : Nat) => (Except.ok (round (ks.getD n []) b) : Res Bytes))
      (fun b n => round (ks.getD n []) b) (fun b => b.length = 16) (List.range 9) b hb
      (fun b hb i hi => ⟨rfl, round_length _ _ (h.get i (by simp at hi; omega)) hb⟩)
    exact key.2
  have hk := h.get 9 (by omega)
  unfold D E
  rw [addXor_cancel _ _ (by omega)]
  exact rounds_inverse (fun b n => round (ks.getD n []) b) (fun b n => roundInv (ks.getD n []) b)
    (fun b => b.length = 16) (List.range 9)
    (fun b hb i hi => round_length _ _ (h.get i (by simp at hi; omega)) hb)
    (fun b hb i hi => roundInv_round _ _ (h.get i (by simp at hi; omega)) hb) b hb

theorem E_D {ks : List Bytes} (h : GoodKeys ks) (b : Bytes) (hb : b.length = 16) :
    E ks (D ks b) = b := by
  have hk := h.get 9 (by omega)
  unfold D E
  have := rounds_inverse (fun b n => roundInv (ks.getD n []) b) (fun b n => round (ks.getD n []) b)
    (fun b => b.length = 16) (List.range 9).reverse
    (fun b hb i hi => roundInv_length _ _ (h.get i (by simp at hi; omega)) hb)
    (fun b hb i hi => round_roundInv _ _ (h.get i (by simp at hi; omega)) hb)
    (addXor (ks.getD 9 []) b) (by lens)
  rw [List.reverse_reverse] at this
  rw [this, addXor_cancel _ _ (by omega)]

theorem encrypt_short {ks : List Bytes} (h : GoodKeys ks) (b : Bytes) (hb : b.length < 16) :
    encrypt ks b = .error .indexError := by
  unfold encrypt
  have : List.range 9 = 0 :: List.range' 1 8 := rfl
  rw [this, List.foldlM_cons, pyGet_getD ks 0 [] (by rw [h.1]; omega)]
  simp only [Res.bind_ok]
  rw [cipherS_short _ (by lens)]
  simp only [Res.bind_error]

/-! ### Key schedule -/

theorem xor_eq (a b : Bytes) : Spec.Kuz.xor a b = addXor a b := rfl

theorem C_length (i : Nat) : (Spec.Kuz.C i).length = 16 := L_length _ (by simp)

theorem getC_ok : getC = .ok ((List.range 32).map fun i => Spec.Kuz.C (i + 1)) := by
  unfold getC
  apply mapM_ok
  intro i _
  rw [cipherL_ok _ (by simp)]
  rfl

theorem F_length (k : Bytes) (a : Bytes × Bytes) (hk : k.length = 16) (h1 : a.1.length = 16)
    (h2 : a.2.length = 16) :
    (Spec.Kuz.F k a).1.length = 16 ∧ (Spec.Kuz.F k a).2.length = 16 := by
  have : (Spec.Kuz.L (Spec.Kuz.S (addXor k a.1))).length = 16 := by
    apply L_length; simp [Spec.Kuz.S]; omega
  simp only [Spec.Kuz.F, xor_eq, addXor_length]
  omega

theorem keyStep_ok (n : Nat) (hn : n < 32) (k : Bytes × Bytes) (h1 : k.1.length = 16) :
    keyStep ((List.range 32).map fun i => Spec.Kuz.C (i + 1)) k n =
      .ok (Spec.Kuz.F (Spec.Kuz.C (n + 1)) k) := by
  have hc := C_length (n + 1)
  unfold keyStep
  rw [pyGet_nat _ n (by simpa using hn)]
  simp only [List.getElem_map, List.getElem_range, Res.bind_ok]
  rw [cipherS_ok _ (by lens), Res.bind_ok, cipherL_ok _ (by lens), Res.bind_ok,
    addXor_comm k.1]
  have : sKuz = Spec.pi := by funext b; exact sKuz_eq b
  simp only [Spec.Kuz.F, Spec.Kuz.S, xor_eq, this, Res.pure_eq]

theorem keyPair_length (key : Bytes) (h : key.length = 32) (i : Nat) :
    (Spec.Kuz.keyPair key i).1.length = 16 ∧ (Spec.Kuz.keyPair key i).2.length = 16 := by
  induction i with
  | zero => simp [Spec.Kuz.keyPair, h]
  | succ i ih =>
    have := foldlM_ok (fun a j => (Except.ok (Spec.Kuz.F (Spec.Kuz.C (8 * i + j + 1)) a) : Res _))
      (fun a j => Spec.Kuz.F (Spec.Kuz.C (8 * i + j + 1)) a)
      (fun a => a.1.length = 16 ∧ a.2.length = 16) (List.range 8) (Spec.Kuz.keyPair key i) ih
      (fun b hb j _ => ⟨rfl, F_length _ _ (C_length _) hb.1 hb.2⟩)
    exact this.2

/-- The key schedule of the code is that of the standard. -/
theorem init_ok (key : Bytes) (h : key.length = 32) :
    init key = .ok ((List.range 10).map (Spec.Kuz.roundKey key)) := by
  have step : ∀ i, i < 4 → (List.range 8).foldlM
      (fun k j => keyStep ((List.range 32).map fun i => Spec.Kuz.C (i + 1)) k (i * 8 + j))
        (Spec.Kuz.keyPair key i) = .ok (Spec.Kuz.keyPair key (i + 1)) := by
    intro i hi
    have := foldlM_ok
      (fun k j => keyStep ((List.range 32).map fun i => Spec.Kuz.C (i + 1)) k (i * 8 + j))
      (fun a j => Spec.Kuz.F (Spec.Kuz.C (8 * i + j + 1)) a)
      (fun a => a.1.length = 16 ∧ a.2.length = 16) (List.range 8) (Spec.Kuz.keyPair key i)
      (keyPair_length key h i)
      (fun b hb j hj => by
        have hj8 : j < 8 := by simpa using hj
        refine ⟨?_, F_length _ _ (C_length _) hb.1 hb.2⟩
        rw [keyStep_ok _ (by omega) _ hb.1, Nat.mul_comm i 8])
    exact this.1
  unfold init
  rw [getC_ok, Res.bind_ok]
  have e1 : pyUpto key 16 = key.take 16 := pyUpto_nat key 16
  have e2 : pyFrom key 16 = key.drop 16 := pyFrom_nat key 16
  rw [e1, e2]
  have r4 : List.range 4 = [0, 1, 2, 3] := rfl
  have k0 : Spec.Kuz.keyPair key 0 = (key.take 16, key.drop 16) := rfl
  have s0 := step 0 (by omega)
  have s1 := step 1 (by omega)
  have s2 := step 2 (by omega)
  have s3 := step 3 (by omega)
  rw [k0] at s0
  simp only [r4, List.foldlM_cons, List.foldlM_nil]
  rw [s0]; simp only [Res.bind_ok, Res.pure_eq]
  rw [s1]; simp only [Res.bind_ok]
  rw [s2]; simp only [Res.bind_ok]
  rw [s3]; simp only [Res.bind_ok]
  have r10 : List.range 10 = [0, 1, 2, 3, 4, 5, 6, 7, 8, 9] := rfl
  rw [r10]
  simp [Spec.Kuz.roundKey, k0]

theorem roundKey_length (key : Bytes) (h : key.length = 32) (n : Nat) :
    (Spec.Kuz.roundKey key n).length = 16 := by
  have := keyPair_length key h (n / 2)
  unfold Spec.Kuz.roundKey
  split
  · exact this.1
  · exact this.2

theorem init_good (key : Bytes) (h : key.length = 32) :
    GoodKeys ((List.range 10).map (Spec.Kuz.roundKey key)) := by
  constructor
  · simp
  · intro k hk
    simp only [List.mem_map] at hk
    obtain ⟨n, _, rfl⟩ := hk
    rw [roundKey_length key h n]
    exact Nat.le_refl _

theorem E_spec (key : Bytes) (b : Bytes) :
    E ((List.range 10).map (Spec.Kuz.roundKey key)) b = Spec.Kuz.encrypt key b := by
  have g : ∀ n, n < 10 → ((List.range 10).map (Spec.Kuz.roundKey key)).getD n [] =
      Spec.Kuz.roundKey key n := by
    intro n hn
    simp [List.getD, hn]
  have hpi : sKuz = Spec.pi := by funext b; exact sKuz_eq b
  have r9 : List.range 9 = [0, 1, 2, 3, 4, 5, 6, 7, 8] := rfl
  unfold E Spec.Kuz.encrypt round Spec.Kuz.S
  simp only [r9, List.foldl_cons, List.foldl_nil, hpi, xor_eq]
  simp only [g 0 (by omega), g 1 (by omega), g 2 (by omega), g 3 (by omega), g 4 (by omega),
    g 5 (by omega), g 6 (by omega), g 7 (by omega), g 8 (by omega), g 9 (by omega)]

theorem clear_good {ks : List Bytes} (h : GoodKeys ks) : GoodKeys (clear ks) := by
  constructor
  · simp [clear, h.1]
  · intro k hk
    simp only [clear, List.mem_map] at hk
    obtain ⟨k', hk', rfl⟩ := hk
    have := h.2 k' hk'
    simp [zeroFill, slashX00]
    omega

end Kuz
end Gost
