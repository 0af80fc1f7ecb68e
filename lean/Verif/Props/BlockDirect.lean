import Verif.Props.BlockCipher

/-! Property C73: the block cipher classes called directly, with keys and blocks of any length. -/

namespace Gost

theorem addXor_take_left (a b : Bytes) (n : Nat) (h : b.length ≤ n) : addXor (a.take n) b = addXor a b := by
  unfold addXor
  induction b generalizing a n with
  | nil => simp
  | cons y b ih =>
    cases n with
    | zero => simp at h
    | succ n =>
      cases a with
      | nil => rfl
      | cons x a => simp only [List.take_succ_cons, List.zipWith_cons_cons]; rw [ih a n (by simpa using h)]

theorem addXor_take_right (a b : Bytes) (n : Nat) (h : a.length ≤ n) : addXor a (b.take n) = addXor a b := by
  rw [addXor_comm, addXor_take_left b a n h, addXor_comm]

/-- A byte missing in a block. -/
theorem mapM_short {β : Type} (d : Bytes) (n : Nat) (h : d.length < n) (f : UInt8 → β) :
    (List.range n).mapM (fun (i : Nat) => do
      let b ← pyGet d (i : Int)
      pure (f b)) = (.error .indexError : Res (List β)) := by
  have : List.range n = List.range d.length ++ d.length :: List.range' (d.length + 1) (n - 1 - d.length) := by
    rw [List.range_eq_range', List.range_eq_range', ← List.range'_succ]
    have := List.range'_append (s := 0) (m := d.length) (n := n - 1 - d.length + 1) (step := 1)
    rw [show 0 + 1 * d.length = d.length by omega] at this
    rw [this]
    congr 1; omega
  rw [this]
  refine mapM_error _ (fun i => f (d.getD i 0)) _ _ _ _ ?_ ?_
  · intro i hi
    rw [pyGet_getD d i 0 (by simpa using hi)]; rfl
  · rw [pyGet_out d d.length (Nat.le_refl _)]; rfl

namespace Kuz

theorem cipherRRev_short (d : Bytes) (h : d.length < 16) : cipherRRev d = .error .indexError := by
  have := mapM_short d 16 h id
  simp only [id, Res.pure_eq] at this
  have e : (fun (i : Nat) => pyGet d (i : Int)) = fun (i : Nat) => (do
      let b ← pyGet d (i : Int)
      Except.ok b : Res UInt8) := by
    funext i
    cases pyGet d (i : Int) <;> rfl
  unfold cipherRRev
  rw [e, this, Res.bind_error]

theorem decrypt_short {ks : List Bytes} (h : GoodKeys ks) (b : Bytes) (hb : b.length < 16) :
    decrypt ks b = .error .indexError := by
  unfold decrypt
  rw [show (9 : Int) = ((9 : Nat) : Int) from rfl, pyGet_getD ks 9 [] (by rw [h.1]; omega), Res.bind_ok]
  have r9 : (List.range 9).reverse = 8 :: (List.range 8).reverse := rfl
  have hl : cipherLRev (addXor (ks.getD 9 []) b) = .error .indexError := by
    unfold cipherLRev
    rw [show List.range 16 = 0 :: List.range' 1 15 from rfl, List.foldlM_cons,
      cipherRRev_short _ (by rw [addXor_length]; omega), Res.bind_error]
  rw [r9, List.foldlM_cons, hl]
  simp only [Res.bind_error]

theorem F_long (k : Bytes) (a : Bytes × Bytes) (hk : k.length = 16) (h1 : a.1.length = 16)
    (h2 : 16 ≤ a.2.length) :
    (Spec.Kuz.F k a).1.length = 16 ∧ 16 ≤ (Spec.Kuz.F k a).2.length := by
  have : (Spec.Kuz.L (Spec.Kuz.S (addXor k a.1))).length = 16 := by
    apply L_length; simp [Spec.Kuz.S]; omega
  simp only [Spec.Kuz.F, xor_eq, addXor_length]
  omega

theorem F_take (k : Bytes) (a : Bytes × Bytes) (hk : k.length = 16) (h1 : a.1.length = 16) :
    Spec.Kuz.F k (a.1, a.2.take 16) = Spec.Kuz.F k a := by
  have : (Spec.Kuz.L (Spec.Kuz.S (addXor k a.1))).length = 16 := by
    apply L_length; simp [Spec.Kuz.S]; omega
  simp only [Spec.Kuz.F, xor_eq]
  rw [addXor_take_right _ _ 16 (by omega)]

theorem keyPair_take (key : Bytes) (h : 32 ≤ key.length) (i : Nat) :
    Spec.Kuz.keyPair (key.take 32) (i + 1) = Spec.Kuz.keyPair key (i + 1) := by
  induction i with
  | zero =>
    have h1 : (key.take 32).take 16 = key.take 16 := by rw [List.take_take]; rfl
    have h2 : (key.take 32).drop 16 = (key.drop 16).take 16 := by rw [List.drop_take]
    have r8 : List.range 8 = 0 :: List.range' 1 7 := rfl
    simp only [Spec.Kuz.keyPair, h1, h2, r8, List.foldl_cons]
    rw [F_take _ (key.take 16, key.drop 16) (C_length _) (by simp; omega)]
  | succ i ih =>
    show List.foldl _ (Spec.Kuz.keyPair (key.take 32) (i + 1)) _ =
      List.foldl _ (Spec.Kuz.keyPair key (i + 1)) _
    rw [ih]

theorem keyPair_long (key : Bytes) (h : 32 ≤ key.length) (i : Nat) :
    (Spec.Kuz.keyPair key i).1.length = 16 ∧ 16 ≤ (Spec.Kuz.keyPair key i).2.length := by
  induction i with
  | zero => simp [Spec.Kuz.keyPair]; omega
  | succ i ih =>
    have := foldlM_ok (fun a j => (Except.ok (Spec.Kuz.F (Spec.Kuz.C (8 * i + j + 1)) a) : Res _))
      (fun a j => Spec.Kuz.F (Spec.Kuz.C (8 * i + j + 1)) a)
      (fun a => a.1.length = 16 ∧ 16 ≤ a.2.length) (List.range 8) (Spec.Kuz.keyPair key i) ih
      (fun b hb j _ => ⟨rfl, F_long _ _ (C_length _) hb.1 hb.2⟩)
    exact this.2

theorem init_long (key : Bytes) (h : 32 ≤ key.length) :
    init key = .ok ((List.range 10).map (Spec.Kuz.roundKey key)) := by
  have step : ∀ i, i < 4 → (List.range 8).foldlM
      (fun k j => keyStep ((List.range 32).map fun i => Spec.Kuz.C (i + 1)) k (i * 8 + j))
        (Spec.Kuz.keyPair key i) = .ok (Spec.Kuz.keyPair key (i + 1)) := by
    intro i hi
    have := foldlM_ok
      (fun k j => keyStep ((List.range 32).map fun i => Spec.Kuz.C (i + 1)) k (i * 8 + j))
      (fun a j => Spec.Kuz.F (Spec.Kuz.C (8 * i + j + 1)) a)
      (fun a => a.1.length = 16 ∧ 16 ≤ a.2.length) (List.range 8) (Spec.Kuz.keyPair key i)
      (keyPair_long key h i)
      (fun b hb j hj => by
        have hj8 : j < 8 := by simpa using hj
        refine ⟨?_, F_long _ _ (C_length _) hb.1 hb.2⟩
        rw [keyStep_ok _ (by omega) _ hb.1, Nat.mul_comm i 8])
    exact this.1
  unfold init
  rw [getC_ok, Res.bind_ok]
  have e1 : pyUpto key 16 = key.take 16 := pyUpto_nat key 16
  have e2 : pyFrom key 16 = key.drop 16 := pyFrom_nat key 16
  rw [e1, e2]
  have r4 : List.range 4 = [0, 1, 2, 3] := rfl
  have k0 : Spec.Kuz.keyPair key 0 = (key.take 16, key.drop 16) := rfl
  have s0 := step 0 (by omega)
  have s1 := step 1 (by omega)
  have s2 := step 2 (by omega)
  have s3 := step 3 (by omega)
  rw [k0] at s0
  simp only [r4, List.foldlM_cons, List.foldlM_nil]
  rw [s0]; simp only [Res.bind_ok, Res.pure_eq]
  rw [s1]; simp only [Res.bind_ok]
  rw [s2]; simp only [Res.bind_ok]
  rw [s3]; simp only [Res.bind_ok]
  have r10 : List.range 10 = [0, 1, 2, 3, 4, 5, 6, 7, 8, 9] := rfl
  rw [r10]
  simp [Spec.Kuz.roundKey, k0]

theorem init_short (key : Bytes) (h : key.length < 32) : init key = .error .indexError := by
  unfold init
  rw [getC_ok, Res.bind_ok]
  have e1 : pyUpto key 16 = key.take 16 := pyUpto_nat key 16
  have e2 : pyFrom key 16 = key.drop 16 := pyFrom_nat key 16
  rw [e1, e2]
  have short : ∀ (k : Bytes × Bytes) (n : Nat), n < 32 → k.1.length < 16 →
      keyStep ((List.range 32).map fun i => Spec.Kuz.C (i + 1)) k n = .error .indexError := by
    intro k n hn hk
    unfold keyStep
    rw [pyGet_nat _ n (by simpa using hn)]
    simp only [Res.bind_ok]
    rw [cipherS_short _ (by rw [addXor_length]; omega), Res.bind_error]
  have r8 : List.range 8 = 0 :: 1 :: List.range' 2 6 := rfl
  have hin : (List.range 8).foldlM
      (fun k j => keyStep ((List.range 32).map fun i => Spec.Kuz.C (i + 1)) k (0 * 8 + j))
        (key.take 16, key.drop 16) = .error .indexError := by
    rw [r8, List.foldlM_cons]
    by_cases h16 : key.length < 16
    · rw [short _ _ (by omega) (by simp; omega), Res.bind_error]
    · rw [keyStep_ok _ (by omega) _ (by simp; omega), Res.bind_ok, List.foldlM_cons,
        short _ _ (by omega), Res.bind_error]
      simp only [Spec.Kuz.F, xor_eq, addXor_length, List.length_drop]
      omega
  have r4 : List.range 4 = 0 :: List.range' 1 3 := rfl
  simp only [r4, List.foldlM_cons]
  rw [hin]
  simp only [Res.bind_error]

theorem roundKey_long (key : Bytes) (h : 32 ≤ key.length) (n : Nat) :
    16 ≤ (Spec.Kuz.roundKey key n).length := by
  have := keyPair_long key h (n / 2)
  unfold Spec.Kuz.roundKey
  split
  · omega
  · exact this.2

theorem good_long (key : Bytes) (h : 32 ≤ key.length) :
    GoodKeys ((List.range 10).map (Spec.Kuz.roundKey key)) := by
  constructor
  · simp
  · intro k hk
    simp only [List.mem_map] at hk
    obtain ⟨n, _, rfl⟩ := hk
    exact roundKey_long key h n

/-- The round key number 1 (the second one) is the rest of the key, the others do not depend on the bytes
after the 32nd. -/
theorem roundKey_take (key : Bytes) (h : 32 ≤ key.length) (n : Nat) :
    Spec.Kuz.roundKey (key.take 32) n = (Spec.Kuz.roundKey key n).take 16 := by
  have hl := keyPair_length (key.take 32) (by simp; omega) (n / 2)
  unfold Spec.Kuz.roundKey
  by_cases h0 : n / 2 = 0
  · rw [h0]
    simp only [Spec.Kuz.keyPair]
    split
    · simp [List.take_take]
    · rw [List.drop_take]
  · obtain ⟨i, hi⟩ := Nat.exists_eq_succ_of_ne_zero h0
    rw [hi, Nat.succ_eq_add_one, keyPair_take key h i] at hl
    rw [hi, Nat.succ_eq_add_one, keyPair_take key h i]
    split
    · rw [List.take_of_length_le (by omega)]
    · rw [List.take_of_length_le (by omega)]

theorem foldl_congr_inv {α β : Type} (f g : α → β → α) (P : α → Prop)
    (h : ∀ x, P x → ∀ n, f x n = g x n ∧ P (g x n)) (l : List β) :
    ∀ x, P x → l.foldl f x = l.foldl g x ∧ P (l.foldl g x) := by
  induction l with
  | nil => intro x hx; exact ⟨rfl, hx⟩
  | cons n l ih =>
    intro x hx
    rw [List.foldl_cons, List.foldl_cons, (h x hx n).1]
    exact ih _ (h x hx n).2

theorem encrypt_take (key b : Bytes) (h : 32 ≤ key.length) (hb : b.length = 16) :
    Spec.Kuz.encrypt key b = Spec.Kuz.encrypt (key.take 32) b := by
  have hr : ∀ n x, x.length = 16 → Spec.Kuz.xor (Spec.Kuz.roundKey key n) x =
      Spec.Kuz.xor (Spec.Kuz.roundKey (key.take 32) n) x := by
    intro n x hx
    rw [xor_eq, xor_eq, roundKey_take key h, addXor_take_left _ _ 16 (by omega)]
  have inv := foldl_congr_inv
    (fun a n => Spec.Kuz.L (Spec.Kuz.S (Spec.Kuz.xor (Spec.Kuz.roundKey key n) a)))
    (fun a n => Spec.Kuz.L (Spec.Kuz.S (Spec.Kuz.xor (Spec.Kuz.roundKey (key.take 32) n) a)))
    (fun x => x.length = 16)
    (fun x hx n => by
      have hl : (Spec.Kuz.xor (Spec.Kuz.roundKey (key.take 32) n) x).length = 16 := by
        rw [← hr n x hx, xor_eq, addXor_length]
        have := roundKey_long key h n
        omega
      constructor
      · rw [hr n x hx]
      · exact L_length _ (by rw [Spec.Kuz.S, List.length_map]; exact hl))
    (List.range 9) b hb
  unfold Spec.Kuz.encrypt
  rw [inv.1, hr 9 _ inv.2]

theorem encrypt_long {ks : List Bytes} (h : GoodKeys ks) (b : Bytes)
    (h0 : (ks.getD 0 []).length = 16) : encrypt ks b = encrypt ks (b.take 16) := by
  unfold encrypt
  have : List.range 9 = 0 :: List.range' 1 8 := rfl
  rw [this, List.foldlM_cons, List.foldlM_cons, pyGet_getD ks 0 [] (by rw [h.1]; omega)]
  simp only [Res.bind_ok]
  rw [addXor_take_right _ _ 16 (by omega)]

theorem decrypt_long {ks : List Bytes} (h : GoodKeys ks) (b : Bytes)
    (h0 : (ks.getD 9 []).length = 16) : decrypt ks b = decrypt ks (b.take 16) := by
  unfold decrypt
  rw [show (9 : Int) = ((9 : Nat) : Int) from rfl, pyGet_getD ks 9 [] (by rw [h.1]; omega)]
  simp only [Res.bind_ok]
  rw [addXor_take_right _ _ 16 (by omega)]

end Kuz

namespace Magma

theorem keyWord_long (key : Bytes) (off : Nat) (h : off + 4 ≤ key.length) :
    keyWord key off = .ok ((key.drop off).take 4) := by
  unfold keyWord
  rw [mapM_ok _ (fun i => (key.drop off).getD i 0)]
  · rw [range_map_getD_le _ _ _ (by simp; omega)]
  · intro i hi
    have hi4 : i < 4 := by simpa using hi
    rw [pyGet_getD key (off + i) 0 (by omega)]
    simp [List.getD]

theorem keyWord_take (key : Bytes) (h : 32 ≤ key.length) (off : Nat) (ho : off + 4 ≤ 32) :
    keyWord key off = keyWord (key.take 32) off := by
  rw [keyWord_long key off (by omega), keyWord_long (key.take 32) off (by simp; omega), List.drop_take,
    List.take_take, Nat.min_eq_left (by omega)]

theorem init_take (key : Bytes) (h : 32 ≤ key.length) : init key = init (key.take 32) := by
  have he : expand key = expand (key.take 32) := by
    unfold expand
    rw [mapM_ok (fun j => keyWord key (j * 4)) (fun j => (key.drop (j * 4)).take 4),
      mapM_ok (fun j => keyWord (key.take 32) (j * 4)) (fun j => (key.drop (j * 4)).take 4)]
    · intro j hj
      have hj8 : j < 8 := by simpa using hj
      rw [← keyWord_take key h _ (by omega), keyWord_long key _ (by omega)]
    · intro j hj
      have hj8 : j < 8 := by simpa using hj
      rw [keyWord_long key _ (by omega)]
  have hf : expandFinal key = expandFinal (key.take 32) := by
    unfold expandFinal
    rw [mapM_ok (fun j => keyWord key (28 - j * 4)) (fun j => (key.drop (28 - j * 4)).take 4),
      mapM_ok (fun j => keyWord (key.take 32) (28 - j * 4)) (fun j => (key.drop (28 - j * 4)).take 4)]
    · intro j hj
      have hj8 : j < 8 := by simpa using hj
      rw [← keyWord_take key h _ (by omega), keyWord_long key _ (by omega)]
    · intro j hj
      have hj8 : j < 8 := by simpa using hj
      rw [keyWord_long key _ (by omega)]
  unfold init
  rw [he, hf]

theorem keyWord_short (key : Bytes) (off : Nat) (h : key.length < off + 4) :
    keyWord key off = .error .indexError := by
  unfold keyWord
  have e : ∀ i : Nat, pyGet key ((off + i : Nat) : Int) = (do
      let b ← pyGet (key.drop off) (i : Int)
      pure (id b) : Res UInt8) := by
    intro i
    by_cases hi : off + i < key.length
    · rw [pyGet_getD key (off + i) 0 hi, pyGet_getD (key.drop off) i 0 (by simp; omega)]
      simp [List.getD]
    · rw [pyGet_out key (off + i) (by omega), pyGet_out (key.drop off) i (by simp; omega), Res.bind_error]
  rw [show (fun i : Nat => pyGet key ((off + i : Nat) : Int)) = fun (i : Nat) => (do
      let b ← pyGet (key.drop off) (i : Int)
      pure (id b) : Res UInt8) from funext e]
  exact mapM_short (key.drop off) 4 (by simp; omega) id

theorem init_short (key : Bytes) (h : key.length < 32) : init key = .error .indexError := by
  have he : expand key = .error .indexError := by
    unfold expand
    have hq : key.length / 4 < 8 := by omega
    have : List.range 8 = List.range (key.length / 4) ++
        (key.length / 4) :: List.range' (key.length / 4 + 1) (7 - key.length / 4) := by
      rw [List.range_eq_range', List.range_eq_range', ← List.range'_succ]
      have := List.range'_append (s := 0) (m := key.length / 4) (n := 7 - key.length / 4 + 1) (step := 1)
      rw [show 0 + 1 * (key.length / 4) = key.length / 4 by omega] at this
      rw [this]
      congr 1; omega
    rw [this]
    refine mapM_error _ (fun j => (key.drop (j * 4)).take 4) _ _ _ _ ?_ ?_
    · intro j hj
      have hj' : j < key.length / 4 := by simpa using hj
      rw [keyWord_long key _ (by omega)]
    · rw [keyWord_short key _ (by omega)]
  unfold init
  rw [he, Res.bind_error]

theorem gPrev_long (k b : Bytes) : gPrev k b = gPrev k (b.take 8) := by
  have e1 : pySlice b 0 4 = pySlice (b.take 8) 0 4 := by
    have h1 : pySlice b 0 4 = _ := pySlice_nat b 0 4
    have h2 : pySlice (b.take 8) 0 4 = _ := pySlice_nat (b.take 8) 0 4
    rw [h1, h2]
    simp [List.take_take]
  have e2 : pySlice b 4 8 = pySlice (b.take 8) 4 8 := by
    have h1 : pySlice b 4 8 = _ := pySlice_nat b 4 8
    have h2 : pySlice (b.take 8) 4 8 = _ := pySlice_nat (b.take 8) 4 8
    rw [h1, h2, List.drop_take, List.take_take, Nat.min_self]
  unfold gPrev gIter
  rw [e1, e2]

theorem encrypt_long (ks : List Bytes) (b : Bytes) :
    encrypt ks b = encrypt ks (b.take 8) := by
  unfold encrypt
  cases pyGet ks 0 with
  | error e => rfl
  | ok k => simp only [Res.bind_ok]; rw [gPrev_long k b]

theorem decrypt_long (ks : List Bytes) (b : Bytes) :
    decrypt ks b = decrypt ks (b.take 8) := by
  unfold decrypt
  cases pyGet ks 31 with
  | error e => rfl
  | ok k => simp only [Res.bind_ok]; rw [gPrev_long k b]

end Magma

/-- C73, Kuznechik. The constructor raises `IndexError` exactly for keys of less than 32 bytes. Otherwise
`encrypt` and `decrypt` raise `IndexError` exactly for blocks of less than 16 bytes, and compute the
cipher of the standard and its inverse for the first 32 bytes of the key and the first 16 bytes of the
block. -/
theorem C73_kuznechik (key : Bytes) :
    (key.length < 32 → Kuz.init key = .error .indexError) ∧
    (32 ≤ key.length → ∃ ks, Kuz.init key = .ok ks ∧ ∀ b : Bytes,
      (b.length < 16 → Kuz.encrypt ks b = .error .indexError ∧ Kuz.decrypt ks b = .error .indexError) ∧
      (16 ≤ b.length → Kuz.encrypt ks b = .ok (Spec.Kuz.encrypt (key.take 32) (b.take 16)) ∧
        ∃ p, Kuz.decrypt ks b = .ok p ∧ p.length = 16 ∧
          Spec.Kuz.encrypt (key.take 32) p = b.take 16)) := by
  refine ⟨Kuz.init_short key, fun h => ⟨_, Kuz.init_long key h, fun b => ⟨fun hb => ?_, fun hb => ?_⟩⟩⟩
  · exact ⟨Kuz.encrypt_short (Kuz.good_long key h) b hb, Kuz.decrypt_short (Kuz.good_long key h) b hb⟩
  · have hg := Kuz.good_long key h
    have h16 : (b.take 16).length = 16 := by simp; omega
    have h0 : (((List.range 10).map (Spec.Kuz.roundKey key)).getD 0 []).length = 16 := by
      show (key.take 16).length = 16
      simp; omega
    have h9 : (((List.range 10).map (Spec.Kuz.roundKey key)).getD 9 []).length = 16 := by
      show (Spec.Kuz.roundKey key 9).length = 16
      have h1 := Kuz.keyPair_length (key.take 32) (by simp; omega) 4
      rw [Kuz.keyPair_take key h 3] at h1
      exact h1.2
    have hd := Kuz.decrypt_ok hg (b.take 16) h16
    refine ⟨?_, _, by rw [Kuz.decrypt_long hg b h9]; exact hd.1, hd.2, ?_⟩
    · rw [Kuz.encrypt_long hg b h0, (Kuz.encrypt_ok hg _ h16).1, Kuz.E_spec, Kuz.encrypt_take key _ h h16]
    · rw [← Kuz.encrypt_take key _ h hd.2, ← Kuz.E_spec, Kuz.E_D hg _ h16]

/-- C73, Magma. The same with blocks of 8 bytes. -/
theorem C73_magma (key : Bytes) :
    (key.length < 32 → Magma.init key = .error .indexError) ∧
    (32 ≤ key.length → ∃ ks, Magma.init key = .ok ks ∧ ∀ b : Bytes,
      (b.length < 8 → Magma.encrypt ks b = .error .indexError ∧ Magma.decrypt ks b = .error .indexError) ∧
      (8 ≤ b.length → Magma.encrypt ks b = .ok (Spec.Magma.encrypt (key.take 32) (b.take 8)) ∧
        ∃ p, Magma.decrypt ks b = .ok p ∧ p.length = 8 ∧
          Spec.Magma.encrypt (key.take 32) p = b.take 8)) := by
  refine ⟨Magma.init_short key, fun h => ?_⟩
  have hk : (key.take 32).length = 32 := by simp; omega
  obtain ⟨ks, h1, hg, _, h4⟩ := Magma.init_ok (key.take 32) hk
  refine ⟨ks, by rw [Magma.init_take key h, h1], fun b => ⟨fun hb => ?_, fun hb => ?_⟩⟩
  · exact ⟨Magma.encrypt_short hg b hb, Magma.decrypt_short hg b hb⟩
  · have h8 : (b.take 8).length = 8 := by simp; omega
    have hd := Magma.decrypt_ok hg (b.take 8) h8
    refine ⟨?_, _, by rw [Magma.decrypt_long ks b]; exact hd.1, hd.2, ?_⟩
    · rw [Magma.encrypt_long ks b, (Magma.encrypt_ok hg _ h8).1, Magma.E_spec ks _ h4 _ h8]
    · rw [← Magma.E_spec ks _ h4 _ hd.2, Magma.E_D ks _ h8]

/-- Cases for C73: a key of 33 bytes with a block of 17 bytes, and a key of 31 bytes. -/
example : (Ex.key ++ [7]).length = 33 ∧ (Ex.count 1 17).length = 17 ∧
    Magma.init (Ex.key ++ [7]) = Magma.init Ex.key ∧ Magma.init (Ex.key.take 31) = .error .indexError := by
  decide +kernel

end Gost
