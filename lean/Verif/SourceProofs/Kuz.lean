import Verif.Source.Memory
import Verif.SourceProofs.NewOid
import Verif.SourceProofs.Utils
import Verif.Model.BlockCipher

/-! The Kuznechik class of gost_34_12_2015.py, as it is written, computes the functions of the model. -/

namespace Gost.Src

namespace Kuz


/-! Tables. -/

theorem table_get {l : List Nat} (hl : l.length = 256) (hb : ∀ n ∈ l, n < 256) (x : UInt8) (h : Heap) :
    getItem (ints l) (.int x.toNat) h = ok (.int (UInt8.ofNat (l.getD x.toNat 0)).toNat) h := by
  have hx : x.toNat < l.length := by rw [hl]; exact x.toNat_lt
  rw [getItem_ints, List.getElem?_eq_getElem hx]
  have := hb _ (List.getElem_mem hx)
  simp only [List.getD_eq_getElem?_getD, List.getElem?_eq_getElem hx, Option.getD_some,
    UInt8.toNat_ofNat']
  rw [Nat.mod_eq_of_lt (by omega)]

theorem g_s : BlockCipher.g_S_BOX_KUZNECHIK = ints sBoxKuznechik := rfl
theorem g_s_rev : BlockCipher.g_S_BOX_REVERSE_KUZNECHIK = ints sBoxReverseKuznechik := rfl
theorem g_gf : BlockCipher.g_GF = .tuple (gfTable.map ints) := rfl

theorem get_s (x : UInt8) (h : Heap) :
    getItem BlockCipher.g_S_BOX_KUZNECHIK (.int x.toNat) h = ok (.int (sKuz x).toNat) h := by
  rw [g_s]
  exact table_get (by decide +kernel) (by decide +kernel) x h

theorem get_s_rev (x : UInt8) (h : Heap) :
    getItem BlockCipher.g_S_BOX_REVERSE_KUZNECHIK (.int x.toNat) h = ok (.int (sKuzRev x).toNat) h := by
  rw [g_s_rev]
  exact table_get (by decide +kernel) (by decide +kernel) x h

theorem get_gf_row (i : Nat) (hi : i < 16) (h : Heap) :
    getItem BlockCipher.g_GF (.int i) h = ok (ints (gfTable.getD i [])) h := by
  rw [g_gf, getItem_tuple, List.getElem?_map]
  have e : i < gfTable.length := by
    have : gfTable.length = 16 := by decide +kernel
    omega
  rw [List.getElem?_eq_getElem e]
  simp [List.getD_eq_getElem?_getD, List.getElem?_eq_getElem e]

theorem get_gf (i : Nat) (hi : i < 16) (x : UInt8) (h : Heap) :
    getItem (ints (gfTable.getD i [])) (.int x.toNat) h = ok (.int (gf i x).toNat) h := by
  have e : i < gfTable.length := by
    have : gfTable.length = 16 := by decide +kernel
    omega
  have h1 : ∀ l ∈ gfTable, l.length = 256 ∧ ∀ n ∈ l, n < 256 := by decide +kernel
  have h2 := h1 _ (List.getElem_mem e)
  have h3 : gfTable.getD i [] = gfTable[i] := by
    simp [List.getD_eq_getElem?_getD, List.getElem?_eq_getElem e]
  rw [h3]
  rw [table_get h2.1 h2.2]
  unfold gf
  rw [h3]

theorem s_ok (L n : Nat) {v : Val} {b : Bytes} {h : Heap} (e : bytesOf v h = some b) :
    Returns (call package L (n + 1) "GOST34122015Kuznechik._cipher_s" [v] h) h (Kuz.cipherS b) := by
  rw [call_succ Fn.GOST34122015Kuznechik._cipher_s]
  py [GOST34122015Kuznechik.m__cipher_s, BlockCipher.g_BLOCK_SIZE_KUZNECHIK]
  generalize hl : forLoop _ _ _ _ _ = o
  have := fill_range (n := 16) hl (fun i => do let x ← pyGet b (i : Int); pure (sKuz x))
    (fun _ env => env "data" = some v ∧ env "result" = some (.ref h.length))
    (by
      rintro acc env hk ⟨i1, i2⟩
      rcases getItem_cases (v := v) (h := h ++ [.bytearray (partly 16 acc)]) (b := b) (by py [e])
        acc.length with ⟨x, hx, hg⟩ | ⟨hx, hg⟩
      · rw [hx]
        py [i1, i2, hg, get_s, setItem_partly hk]
        exact ⟨_, _, rfl, _, rfl, by py [i1, i2]; exact ⟨trivial, trivial⟩, rfl⟩
      · rw [hx]
        py [i1, hg]
        exact ⟨_, rfl, _, rfl⟩)
    (by py []; exact ⟨trivial, trivial⟩)
  unfold Kuz.cipherS
  cases hr : (List.range 16).mapM (fun (i : Nat) => do let x ← pyGet b (i : Int); pure (sKuz x)) with
  | ok r =>
    rw [hr] at this
    obtain ⟨_, _, rfl, env, rfl, ⟨i1, i2⟩, i3, rfl⟩ := this
    py [i2]
    exact .last (Ext.refl _) _
  | error e =>
    rw [hr] at this
    obtain ⟨_, rfl, l, rfl⟩ := this
    py []
    exact ⟨l, rfl⟩

theorem s_rev_ok (L n : Nat) {v : Val} {b : Bytes} {h : Heap} (e : bytesOf v h = some b) :
    Returns (call package L (n + 1) "GOST34122015Kuznechik._cipher_s_reverse" [v] h) h (Kuz.cipherSRev b) := by
  rw [call_succ Fn.GOST34122015Kuznechik._cipher_s_reverse]
  py [GOST34122015Kuznechik.m__cipher_s_reverse, BlockCipher.g_BLOCK_SIZE_KUZNECHIK]
  generalize hl : forLoop _ _ _ _ _ = o
  have := fill_range (n := 16) hl (fun i => do let x ← pyGet b (i : Int); pure (sKuzRev x))
    (fun _ env => env "data" = some v ∧ env "result" = some (.ref h.length))
    (by
      rintro acc env hk ⟨i1, i2⟩
      rcases getItem_cases (v := v) (h := h ++ [.bytearray (partly 16 acc)]) (b := b) (by py [e])
        acc.length with ⟨x, hx, hg⟩ | ⟨hx, hg⟩
      · rw [hx]
        py [i1, i2, hg, get_s_rev, setItem_partly hk]
        exact ⟨_, _, rfl, _, rfl, by py [i1, i2]; exact ⟨trivial, trivial⟩, rfl⟩
      · rw [hx]
        py [i1, hg]
        exact ⟨_, rfl, _, rfl⟩)
    (by py []; exact ⟨trivial, trivial⟩)
  unfold Kuz.cipherSRev
  cases hr : (List.range 16).mapM (fun (i : Nat) => do let x ← pyGet b (i : Int); pure (sKuzRev x)) with
  | ok r =>
    rw [hr] at this
    obtain ⟨_, _, rfl, env, rfl, ⟨i1, i2⟩, i3, rfl⟩ := this
    py [i2]
    exact .last (Ext.refl _) _
  | error e =>
    rw [hr] at this
    obtain ⟨_, rfl, l, rfl⟩ := this
    py []
    exact ⟨l, rfl⟩

/-- The sum of `_cipher_r` over the bytes so far. -/
def sumR (acc : Bytes) : UInt8 :=
  (List.range acc.length).foldl (fun a i => a ^^^ gf i (acc.getD i 0)) 0

theorem foldl_congr {α β : Type} {f g : β → α → β} {l : List α} (h : ∀ b, ∀ a ∈ l, f b a = g b a) (z : β) :
    l.foldl f z = l.foldl g z := by
  induction l generalizing z with
  | nil => rfl
  | cons a l ih =>
    rw [List.foldl_cons, List.foldl_cons, h z a (by simp), ih fun b a ha => h b a (by simp [ha])]

theorem sumR_snoc (acc : Bytes) (x : UInt8) : sumR (acc ++ [x]) = sumR acc ^^^ gf acc.length x := by
  unfold sumR
  rw [List.length_append, List.length_cons, List.length_nil, Nat.zero_add, List.range_succ,
    List.foldl_append]
  simp only [List.foldl_cons, List.foldl_nil]
  congr 1
  · refine foldl_congr ?_ _
    intro b i hi
    rw [List.mem_range] at hi
    simp [List.getD_eq_getElem?_getD, List.getElem?_append_left hi]
  · simp [List.getD_eq_getElem?_getD]

theorem r_ok (L n : Nat) {v : Val} {b : Bytes} {h : Heap} (e : bytesOf v h = some b) :
    Returns (call package L (n + 1) "GOST34122015Kuznechik._cipher_r" [v] h) h (Kuz.cipherR b) := by
  rw [call_succ Fn.GOST34122015Kuznechik._cipher_r]
  py [GOST34122015Kuznechik.m__cipher_r, BlockCipher.g_BLOCK_SIZE_KUZNECHIK]
  generalize hl : forLoop _ _ _ _ _ = o
  have := fill_range (n := 16) hl (fun i => pyGet b ((i : Int) - 1))
    (fun acc env => env "data" = some v ∧ env "result" = some (.ref h.length) ∧
      env "a_0" = some (.int (sumR acc).toNat))
    (by
      rintro acc env hk ⟨i1, i2, i3⟩
      rcases getItem_cases (v := v) (h := h ++ [.bytearray (partly 16 acc)]) (b := b) (by py [e])
        (acc.length - 1) with ⟨x, hx, hg⟩ | ⟨hx, hg⟩
      · rw [hx]
        py [i1, i2, i3, hg, setItem_partly hk, getItem_partly, get_gf_row _ hk, get_gf _ hk]
        refine ⟨_, _, rfl, _, rfl, ?_, rfl⟩
        py [i1, i2, sumR_snoc]
        exact ⟨trivial, trivial, trivial⟩
      · rw [hx]
        py [i1, hg]
        exact ⟨_, rfl, _, rfl⟩)
    (by py []; exact ⟨trivial, trivial, rfl⟩)
  unfold Kuz.cipherR
  cases hr : (List.range 16).mapM (fun (i : Nat) => pyGet b ((i : Int) - 1)) with
  | ok r =>
    rw [hr] at this
    obtain ⟨_, _, rfl, env, rfl, ⟨i1, i2, i3⟩, i4, rfl⟩ := this
    py [i2, i3]
    rw [show setItem (.ref h.length) (.int 0) (.int (sumR r).toNat) (h ++ [.bytearray r]) = _ from
      setItem_last h r 0 (sumR r), if_pos (by omega)]
    py [i2]
    rw [sumR, i4]
    exact .last (Ext.refl _) _
  | error e =>
    rw [hr] at this
    obtain ⟨_, rfl, l, rfl⟩ := this
    py []
    exact ⟨l, rfl⟩

/-- The sum of `_cipher_r_reverse` over the positions `k ≤ i < 16`. -/
def sumRRev (b : Bytes) (k : Nat) : UInt8 :=
  ((List.range 16).reverse.take k).foldl (fun a i => a ^^^ gf i (b.getD i 0)) 0

theorem cipherRRev_long {b : Bytes} (hb : 16 ≤ b.length) :
    Kuz.cipherRRev b = .ok (((List.range 16).map fun i => b.getD ((i + 1) % 16) 0).set 15 (sumRRev b 16)) := by
  have h1 : (List.range 16).mapM (fun (i : Nat) => pyGet b (i : Int)) = Except.ok (b.take 16) := by
    have h2 : ∀ k, k ≤ 16 → (List.range k).mapM (fun (i : Nat) => pyGet b (i : Int)) =
        (Except.ok (b.take k) : Res Bytes) := by
      intro k
      induction k with
      | zero => intro _; rfl
      | succ k ih =>
        intro hk
        obtain ⟨x, hx⟩ := get_some (l := b) (k := k) (by omega)
        rw [List.range_succ, List.mapM_append, ih (by omega), List.mapM_cons, pyGet_nat hx,
          List.take_add_one, hx]
        rfl
    exact h2 16 (Nat.le_refl _)
  have h3 : ∀ i, i < 16 → (b.take 16).getD i 0 = b.getD i 0 := by
    intro i hi
    simp [List.getD_eq_getElem?_getD, hi]
  unfold Kuz.cipherRRev
  rw [h1]
  show Except.ok _ = Except.ok _
  congr 2
  · refine List.map_congr_left fun i hi => ?_
    rw [h3 _ (Nat.mod_lt _ (by decide))]
  · unfold sumRRev
    rw [List.take_of_length_le (l := (List.range 16).reverse) (by simp)]
    refine foldl_congr ?_ _
    intro a i hi
    rw [h3 i (by simpa using hi)]

theorem cipherRRev_short {b : Bytes} (hb : b.length < 16) : Kuz.cipherRRev b = .error .indexError := by
  unfold Kuz.cipherRRev
  have h1 : (List.range 16).mapM (fun (i : Nat) => pyGet b (i : Int)) =
      (Except.error .indexError : Res Bytes) := by
    have h2 : ∀ k, b.length < k → (List.range k).mapM (fun (i : Nat) => pyGet b (i : Int)) =
        (Except.error .indexError : Res Bytes) := by
      intro k
      induction k with
      | zero => intro h; omega
      | succ k ih =>
        intro hk
        rw [List.range_succ, List.mapM_append]
        by_cases h4 : b.length < k
        · rw [ih h4]
          rfl
        · have : k = b.length := by omega
          subst this
          have h5 : pyGet b (b.length : Int) = .error .indexError := by
            have : ¬ ((b.length : Int) < 0) := by omega
            simp [pyGet, this]
          cases h6 : (List.range b.length).mapM (fun (i : Nat) => pyGet b (i : Int)) with
          | ok r =>
            rw [List.mapM_cons, h5]
            rfl
          | error e =>
            have : ∀ (l : List Nat) e, l.mapM (fun (i : Nat) => pyGet b (i : Int)) = .error e →
                e = .indexError := by
              intro l
              induction l with
              | nil => intro e h; cases h
              | cons a l ih2 =>
                intro e h
                rw [List.mapM_cons] at h
                cases h7 : pyGet b (a : Int) with
                | error e' =>
                  rw [h7] at h
                  cases h
                  exact pyGet_error h7
                | ok x =>
                  rw [h7] at h
                  cases h8 : l.mapM (fun (i : Nat) => pyGet b (i : Int)) with
                  | error e' =>
                    change (do let bs ← l.mapM (fun (i : Nat) => pyGet b (i : Int)); pure (x :: bs) : Res _)
                      = .error e at h
                    rw [h8] at h
                    cases h
                    exact ih2 _ h8
                  | ok y =>
                    change (do let bs ← l.mapM (fun (i : Nat) => pyGet b (i : Int)); pure (x :: bs) : Res _)
                      = .error e at h
                    rw [h8] at h
                    cases h
            rw [this _ _ h6]
            rfl
    exact h2 16 hb
  rw [h1]
  rfl

theorem r_rev_ok (L n : Nat) {v : Val} {b : Bytes} {h : Heap} (e : bytesOf v h = some b) :
    Returns (call package L (n + 1) "GOST34122015Kuznechik._cipher_r_reverse" [v] h) h
      (Kuz.cipherRRev b) := by
  rw [call_succ Fn.GOST34122015Kuznechik._cipher_r_reverse]
  py [GOST34122015Kuznechik.m__cipher_r_reverse, BlockCipher.g_BLOCK_SIZE_KUZNECHIK,
    show ((-1 : Int) = 0) = False by decide]
  rw [show pyRange (16 - 1) (-1) (-1) = (List.range 16).reverse.map fun k : Nat => Val.int k from
    pyRange_down 16]
  by_cases hb : 16 ≤ b.length
  · rw [cipherRRev_long hb]
    generalize hl : forLoop _ _ _ _ _ = o
    obtain ⟨env, h', rfl, i1, i2, i3, R, i4, rfl⟩ := for_inv hl (fun k env h' =>
      env "data" = some v ∧ env "result" = some (.ref h.length) ∧
      env "a_15" = some (.int (sumRRev b k).toNat) ∧
      ∃ R, Filled R ((List.range 16).map fun i => b.getD ((i + 1) % 16) 0)
        (fun i => 15 ≤ i + k ∧ i < 15 ∨ k = 16 ∧ i < 16) ∧ h' = h ++ [.bytearray R])
      (by
        rintro k w env _ hw ⟨i1, i2, i3, R, i4, rfl⟩
        obtain ⟨hk, rfl⟩ : k < 16 ∧ w = .int ((15 - k : Nat) : Int) := by
          rcases Nat.lt_or_ge k 16 with h1 | h1
          · refine ⟨h1, ?_⟩
            rw [List.getElem?_map, List.getElem?_reverse (by simpa using h1),
              List.getElem?_range (by simp; omega)] at hw
            cases hw
            simp
          · rw [List.getElem?_eq_none (by simpa using h1)] at hw
            cases hw
        obtain ⟨x, hx⟩ := get_some (l := b) (k := 15 - k) (by omega)
        have hlen : R.length = 16 := by rw [i4.1]; simp
        have hpos : position (((15 - k : Nat) : Int) - 1) R.length = some ((14 + 16 - k) % 16) := by
          unfold position
          rw [hlen]
          by_cases h1 : k = 15
          · subst h1; rfl
          · have : ¬ (((15 - k : Nat) : Int) - 1 < 0) := by omega
            simp only [if_neg this]
            rw [if_pos (by omega)]
            congr 1
            omega
        have hi : 15 - k < 16 := by omega
        refine ⟨_, _, by
          py [i1, i2, i3, e, hx, setItem_any _ _ _ _ hpos, get_gf_row _ hi, get_gf _ hi]
          rfl, ?_⟩
        py [i1, i2]
        refine ⟨trivial, trivial, ?_, _, i4.set ?_ ?_, rfl⟩
        · unfold sumRRev
          rw [List.take_add_one, List.getElem?_reverse (by simpa using hk),
            List.getElem?_range (by simp; omega), List.foldl_append]
          simp [List.getD_eq_getElem?_getD, hx]
        · rw [List.getElem?_map, List.getElem?_range (Nat.mod_lt _ (by decide))]
          simp only [Option.map_some, List.getD_eq_getElem?_getD]
          rw [show ((14 + 16 - k) % 16 + 1) % 16 = 15 - k by omega, hx]
          rfl
        · intro j hj
          omega)
      (by
        py []
        exact ⟨trivial, trivial, rfl, _, Filled.zero 16 _ (by simp) (by intro j; simp), rfl⟩)
    have := i4.eq (by simp; omega)
    subst this
    rw [show ((List.range 16).reverse.map fun k : Nat => Val.int k).length = 16 by simp] at i3
    py [i2, i3]
    rw [show setItem (.ref h.length) (.int 15) (.int (sumRRev b 16).toNat) _ = _ from
      setItem_last h _ 15 (sumRRev b 16), if_pos (by simp)]
    py [i2]
    exact .last (Ext.refl _) _
  · rw [cipherRRev_short (by omega)]
    rw [show (List.range 16).reverse = 15 :: (List.range 15).reverse by decide, List.map_cons, forLoop]
    have hg : getItem v (.int ((15 : Nat) : Int)) (h ++ [Obj.bytearray (List.replicate 16 0)]) =
        fail .index (h ++ [Obj.bytearray (List.replicate 16 0)]) := by
      rw [getItem_bytes (by py [e])]
      py [e]
      rw [List.getElem?_eq_none (by omega)]
    py [hg]
    exact ⟨_, rfl⟩

theorem l_ok (L n : Nat) {v : Val} {b : Bytes} {h : Heap} (e : bytesOf v h = some b) :
    Returns (call package L (n + 2) "GOST34122015Kuznechik._cipher_l" [v] h) h (Kuz.cipherL b) := by
  rw [call_succ Fn.GOST34122015Kuznechik._cipher_l]
  py [GOST34122015Kuznechik.m__cipher_l, BlockCipher.g_BLOCK_SIZE_KUZNECHIK]
  generalize hl : forLoop _ _ _ _ _ = o
  rw [show pyRange 0 16 1 = (List.range 16).map (fun k : Nat => Val.int k) from pyRange_up 16] at hl
  have := for_foldlM (σ := Bytes) _ hl (fun r _ => Kuz.cipherR r)
    (fun k r env h' => Ext h h' ∧ ∃ w, env "result" = some w ∧ bytesOf w h' = some r ∧
      (0 < k → ∃ m, w = .ref m ∧ h.length ≤ m)) (Ext h) (s := b)
    (by
      rintro k i acc env h1 hk ⟨⟨l1, rfl⟩, w, i1, i2, i3⟩
      rcases (r_ok L n i2).cases with ⟨r, m, l, hr, e1, hm, hb⟩ | ⟨x, l, hr, e1⟩
      · rw [hr]
        py [i1, e1]
        refine ⟨_, _, rfl, _, rfl, ((Ext.refl _).add _).add _, ?_⟩
        py []
        refine ⟨_, rfl, hb, fun _ => ⟨_, rfl, ?_⟩⟩
        simp at hm
        omega
      · rw [hr]
        py [i1, e1]
        exact ⟨_, rfl, ((Ext.refl _).add _).add _⟩)
    ⟨(Ext.refl _).add _, by
      py []
      exact ⟨_, rfl, by py [e], by omega⟩⟩
  unfold Kuz.cipherL
  cases hr : (List.range 16).foldlM (fun r _ => Kuz.cipherR r) b with
  | ok r =>
    rw [hr] at this
    obtain ⟨_, h', rfl, env, rfl, i1, w, i2, i3, i4⟩ := this
    obtain ⟨m, rfl, hm⟩ := i4 (by simp)
    py [i2]
    exact .intro i1 hm i3
  | error e =>
    rw [hr] at this
    obtain ⟨_, rfl, l, rfl⟩ := this
    py []
    exact ⟨l, rfl⟩

theorem l_rev_ok (L n : Nat) {v : Val} {b : Bytes} {h : Heap} (e : bytesOf v h = some b) :
    Returns (call package L (n + 2) "GOST34122015Kuznechik._cipher_l_reverse" [v] h) h (Kuz.cipherLRev b) := by
  rw [call_succ Fn.GOST34122015Kuznechik._cipher_l_reverse]
  py [GOST34122015Kuznechik.m__cipher_l_reverse, BlockCipher.g_BLOCK_SIZE_KUZNECHIK]
  generalize hl : forLoop _ _ _ _ _ = o
  rw [show pyRange 0 16 1 = (List.range 16).map (fun k : Nat => Val.int k) from pyRange_up 16] at hl
  have := for_foldlM (σ := Bytes) _ hl (fun r _ => Kuz.cipherRRev r)
    (fun k r env h' => Ext h h' ∧ ∃ w, env "result" = some w ∧ bytesOf w h' = some r ∧
      (0 < k → ∃ m, w = .ref m ∧ h.length ≤ m)) (Ext h) (s := b)
    (by
      rintro k i acc env h1 hk ⟨⟨l1, rfl⟩, w, i1, i2, i3⟩
      rcases (r_rev_ok L n i2).cases with ⟨r, m, l, hr, e1, hm, hb⟩ | ⟨x, l, hr, e1⟩
      · rw [hr]
        py [i1, e1]
        refine ⟨_, _, rfl, _, rfl, ((Ext.refl _).add _).add _, ?_⟩
        py []
        refine ⟨_, rfl, hb, fun _ => ⟨_, rfl, ?_⟩⟩
        simp at hm
        omega
      · rw [hr]
        py [i1, e1]
        exact ⟨_, rfl, ((Ext.refl _).add _).add _⟩)
    ⟨(Ext.refl _).add _, by
      py []
      exact ⟨_, rfl, by py [e], by omega⟩⟩
  unfold Kuz.cipherLRev
  cases hr : (List.range 16).foldlM (fun r _ => Kuz.cipherRRev r) b with
  | ok r =>
    rw [hr] at this
    obtain ⟨_, h', rfl, env, rfl, i1, w, i2, i3, i4⟩ := this
    obtain ⟨m, rfl, hm⟩ := i4 (by simp)
    py [i2]
    exact .intro i1 hm i3
  | error e =>
    rw [hr] at this
    obtain ⟨_, rfl, l, rfl⟩ := this
    py []
    exact ⟨l, rfl⟩

/-! Objects. -/

/-- The cell `self` is a Kuznechik object with the round keys `ks`, the cell `kr` its list. -/
def Rep (self kr : Nat) (h : Heap) (ks : List Bytes) : Prop :=
  ∃ attrs vs, h[self]? = some (.inst "GOST34122015Kuznechik" attrs) ∧
    findAttr "_cipher_iter_key" attrs = some (.ref kr) ∧ h[kr]? = some (.list vs) ∧ BytesList vs h ks


theorem encrypt_ok (L n : Nat) {self kr : Nat} {h : Heap} {ks : List Bytes} (o : Rep self kr h ks) {v : Val}
    {b : Bytes} (e : bytesOf v h = some b) :
    Returns (call package L (n + 3) "GOST34122015Kuznechik.encrypt" [.ref self, v] h) h
      (Kuz.encrypt ks b) := by
  obtain ⟨attrs, vs, o1, o2, o3, o4⟩ := o
  rw [call_succ Fn.GOST34122015Kuznechik.encrypt]
  py [GOST34122015Kuznechik.m_encrypt, e]
  generalize hl : forLoop _ _ _ _ _ = o
  rw [show pyRange 0 9 1 = (List.range 9).map (fun k : Nat => Val.int k) from pyRange_up 9] at hl
  have := for_foldlM (σ := Bytes) _ hl (fun b (i : Nat) => do
      let k ← pyGet ks i
      let b ← Kuz.cipherS (addXor k b)
      Kuz.cipherL b)
    (fun k r env h' => env "self" = some (.ref self) ∧ Ext h h' ∧ ∃ m, env "block" = some (.ref m) ∧
      bytesOf (.ref m) h' = some r ∧ h.length ≤ m) (Ext h) (s := b)
    (by
      rintro k i acc env h1 hk ⟨i0, ⟨l1, rfl⟩, w, i1, i2, i3⟩
      py [i0, o1, o2]
      rw [getItem_list (get_mono o3 _)]
      rcases o4.get i with ⟨w', x, g1, g2, g3⟩ | ⟨g1, g2⟩
      · rw [g1, g2]
        obtain ⟨m, l, e1, hm, hb⟩ := (add_xor_ok L (n + 1) (bytesOf_mono g3 l1) i2).elim
        rcases (s_ok L (n + 1) hb).cases with ⟨b2, m2, l2, hr2, e2, hm2, hb2⟩ | ⟨x2, l2, hr2, e2⟩
        · rcases (l_ok L n hb2).cases with ⟨b3, m3, l3, hr3, e3, hm3, hb3⟩ | ⟨x3, l3, hr3, e3⟩
          · py [i1, e1, e2, e3]
            mdl [hr2, hr3]
            refine ⟨_, _, rfl, _, rfl, ?_⟩
            py [i0]
            refine ⟨trivial, by grow, _, rfl, hb3, ?_⟩
            simp at hm3
            omega
          · py [i1, e1, e2, e3]
            mdl [hr2, hr3]
            exact ⟨_, rfl, by grow⟩
        · py [i1, e1, e2]
          mdl [hr2]
          exact ⟨_, rfl, by grow⟩
      · rw [g1, g2]
        py []
        exact ⟨_, rfl, _, rfl⟩)
    (by py []; exact ⟨trivial, (Ext.refl _).add _, _, rfl, by py [], Nat.le_refl _⟩)
  unfold Kuz.encrypt
  generalize (List.range 9).foldlM (fun b (i : Nat) => do
      let k ← pyGet ks i
      let b ← Kuz.cipherS (addXor k b)
      Kuz.cipherL b) b = res at this
  cases res with
  | ok r =>
    obtain ⟨_, h', rfl, env, rfl, i0, ⟨l1, rfl⟩, m, i1, i2, hm⟩ := this
    py [i0, o1, o2]
    rw [getItem_list (get_mono o3 _)]
    rcases o4.get 9 with ⟨w', x, g1, g2, g3⟩ | ⟨g1, g2⟩
    · rw [g1]
      obtain ⟨m, l, e1, hm, hb⟩ := (add_xor_ok L (n + 1) (bytesOf_mono g3 l1) i2).elim
      py [i1, e1]
      mdl [g2]
      exact .intro (by grow) (by simp at hm; omega) hb
    · rw [g1]
      py []
      mdl [g2]
      exact ⟨_, rfl⟩
  | error e =>
    obtain ⟨_, rfl, l, rfl⟩ := this
    py []
    exact ⟨l, rfl⟩

theorem decrypt_ok (L n : Nat) {self kr : Nat} {h : Heap} {ks : List Bytes} (o : Rep self kr h ks) {v : Val}
    {b : Bytes} (e : bytesOf v h = some b) :
    Returns (call package L (n + 3) "GOST34122015Kuznechik.decrypt" [.ref self, v] h) h
      (Kuz.decrypt ks b) := by
  obtain ⟨attrs, vs, o1, o2, o3, o4⟩ := o
  rw [call_succ Fn.GOST34122015Kuznechik.decrypt]
  unfold Kuz.decrypt
  py [GOST34122015Kuznechik.m_decrypt, e, o1, o2, show ((-1 : Int) = 0) = False by decide]
  rw [getItem_list (get_mono o3 _)]
  rcases o4.get 9 with ⟨w, x, g1, g2, g3⟩ | ⟨g1, g2⟩
  · rw [g1]
    obtain ⟨m, l, e1, hm, hb⟩ := (add_xor_ok L (n + 1) (bytesOf_mono g3 [Obj.bytearray b])
      (bytesOf_last b h)).elim
    py [e1]
    rw [show pyRange 8 (-1) (-1) = (List.range 9).reverse.map fun k : Nat => Val.int k from
      pyRange_down 9]
    generalize hl : forLoop _ _ _ _ _ = o
    have := for_foldlM (σ := Bytes) _ hl (fun b (i : Nat) => do
        let b ← Kuz.cipherLRev b
        let b ← Kuz.cipherSRev b
        let k ← pyGet ks i
        pure (addXor k b))
      (fun k r env h' => env "self" = some (.ref self) ∧ Ext h h' ∧ ∃ m, env "block" = some (.ref m) ∧
        bytesOf (.ref m) h' = some r ∧ h.length ≤ m) (Ext h) (s := addXor x b)
      (by
        rintro k i acc env h1 hk ⟨i0, ⟨l1, rfl⟩, w, i1, i2, i3⟩
        rcases (l_rev_ok L n i2).cases with ⟨b2, m2, l2, hr2, e2, hm2, hb2⟩ | ⟨x2, l2, hr2, e2⟩
        · rcases (s_rev_ok L (n + 1) hb2).cases with ⟨b3, m3, l3, hr3, e3, hm3, hb3⟩ | ⟨x3, l3, hr3, e3⟩
          · py [i0, i1, e2, e3, o1, o2]
            rw [getItem_list (get_mono (get_mono (get_mono o3 _) _) _)]
            rcases o4.get i with ⟨w', x', g1, g2, g3⟩ | ⟨g1, g2⟩
            · rw [g1]
              obtain ⟨m, l, e1, hm, hb⟩ := (add_xor_ok L (n + 1)
                (bytesOf_mono (bytesOf_mono (bytesOf_mono g3 l1) l2) l3) hb3).elim
              py [e1]
              mdl [hr2, hr3, g2]
              refine ⟨_, _, rfl, _, rfl, ?_⟩
              py [i0]
              refine ⟨trivial, by grow, _, rfl, hb, ?_⟩
              simp at hm
              omega
            · rw [g1]
              py []
              mdl [hr2, hr3, g2]
              exact ⟨_, rfl, by grow⟩
          · py [i1, e2, e3]
            mdl [hr2, hr3]
            exact ⟨_, rfl, by grow⟩
        · py [i1, e2]
          mdl [hr2]
          exact ⟨_, rfl, by grow⟩)
      (by
        py []
        refine ⟨trivial, by grow, _, rfl, hb, ?_⟩
        simp at hm
        omega)
    rw [g2, ok_bind]
    generalize (List.range 9).reverse.foldlM (fun b (i : Nat) => do
        let b ← Kuz.cipherLRev b
        let b ← Kuz.cipherSRev b
        let k ← pyGet ks i
        pure (addXor k b)) (addXor x b) = res at this
    cases res with
    | ok r =>
      obtain ⟨_, h', rfl, env, rfl, i0, ⟨l1, rfl⟩, m, i1, i2, hm⟩ := this
      py [i1]
      exact .intro (by grow) hm i2
    | error e =>
      obtain ⟨_, rfl, l, rfl⟩ := this
      py []
      exact ⟨l, rfl⟩
  · rw [g1]
    py []
    mdl [g2]
    exact ⟨_, rfl⟩

theorem block_size_ok (L n : Nat) (v : Val) (h : Heap) :
    call package L (n + 1) "GOST34122015Kuznechik.block_size" [v] h = ok (.int 16) h := by
  rw [call_succ Fn.GOST34122015Kuznechik.block_size]
  py [GOST34122015Kuznechik.m_block_size, BlockCipher.g_BLOCK_SIZE_KUZNECHIK]

theorem key_size_ok (L n : Nat) (v : Val) (h : Heap) :
    call package L (n + 1) "GOST34122015Kuznechik.key_size" [v] h = ok (.int 32) h := by
  rw [call_succ Fn.GOST34122015Kuznechik.key_size]
  py [GOST34122015Kuznechik.m_key_size, BlockCipher.g_KEY_SIZE]

theorem get_c_aux (F : Nat → Res Bytes)
    (hF : ∀ i, F i = Kuz.cipherL ((List.replicate 16 (0 : UInt8)).set 15 (UInt8.ofNat (i + 1))))
    (L n : Nat) {self c : Nat} {h : Heap} {attrs : List (String × Val)}
    (o1 : h[self]? = some (.inst "GOST34122015Kuznechik" attrs))
    (o2 : findAttr "_cipher_c" attrs = some (.ref c)) (o3 : h[c]? = some (.list [])) :
    Agree (call package L (n + 3) "GOST34122015Kuznechik._cipher_get_c" [.ref self] h)
      ((List.range 32).mapM F)
      (fun cs _ h' => Frame [c] h h' ∧ ∃ vs, h'[c]? = some (.list vs) ∧ BytesList vs h' cs)
      (Frame [c] h) := by
  rw [call_succ Fn.GOST34122015Kuznechik._cipher_get_c]
  py [GOST34122015Kuznechik.m__cipher_get_c]
  rw [show pyRange 1 33 1 = (List.range 32).map fun k : Nat => Val.int ((k + 1 : Nat) : Int) from
    pyRange_from 1 32]
  generalize hl : forLoop _ _ _ _ _ = o
  have := for_foldlM (σ := List Bytes) _ hl (fun acc i => do
      let y ← F i
      pure (acc ++ [y]))
    (fun k acc env h' => env "self" = some (.ref self) ∧ Frame [c] h h' ∧
      ∃ vs, h'[c]? = some (.list vs) ∧ BytesList vs h' acc) (Frame [c] h) (s := [])
    (by
      rintro k i acc env h1 hk ⟨i0, i1, vs, i2, i3⟩
      have hself : h1[self]? = some (.inst "GOST34122015Kuznechik" attrs) :=
        i1.get o1 (by simpa using ne_of_get o1 o3 (by simp))
      have hi : i < 32 := by
        have := List.mem_of_getElem? hk
        simpa using this
      have hs : setItem (.ref h1.length) (.int 15) (.int ((i + 1 : Nat) : Int))
          (h1 ++ [Obj.bytearray (List.replicate 16 0)]) =
          ok () (h1 ++ [.bytearray ((List.replicate 16 0).set 15 (UInt8.ofNat (i + 1)))]) := by
        have := setItem_last h1 (List.replicate 16 0) 15 (UInt8.ofNat (i + 1))
        rw [if_pos (by simp), UInt8.toNat_ofNat', Nat.mod_eq_of_lt (by omega)] at this
        exact this
      rw [hF]
      generalize (List.replicate 16 (0 : UInt8)).set 15 (UInt8.ofNat (i + 1)) = B at hs ⊢
      rcases (l_ok L n (bytesOf_last B h1)).cases with
        ⟨b2, m2, l2, hr2, e2, hm2, hb2⟩ | ⟨x2, l2, hr2, e2⟩
      · py [i0, hs, hself, o2, e2, i2]
        mdl [hr2]
        refine ⟨_, _, rfl, _, rfl, ?_, ?_, _, get_set_same _ (by py [i2]), ?_⟩
        · py [i0]
        · exact ((i1.add _).add _).set (by simp) _
        · exact ((i3.mono _).mono _).snoc hb2 |>.set (by py [i2]) (by py [])
      · py [i0, hs, hself, o2, e2, i2]
        mdl [hr2]
        exact ⟨_, rfl, (i1.add _).add _⟩)
    ⟨by py [], .refl _ _, [], o3, .nil _⟩
  rw [mapM_eq_foldlM]
  generalize List.foldlM (m := Res) _ _ _ = res at this
  cases res with
  | ok r =>
    obtain ⟨_, h', rfl, env, rfl, i0, i1, i2⟩ := this
    py []
    exact ⟨_, _, rfl, i1, i2⟩
  | error e =>
    obtain ⟨_, rfl, i1⟩ := this
    py []
    exact ⟨_, rfl, i1⟩

/-- The constants, as a value which is not computed. -/
theorem getC_eq : ∃ F : Nat → Res Bytes,
    (∀ i, F i = Kuz.cipherL ((List.replicate 16 (0 : UInt8)).set 15 (UInt8.ofNat (i + 1)))) ∧
    Kuz.getC = (List.range 32).mapM F :=
  ⟨_, fun _ => rfl, rfl⟩

theorem clear_ok (L n : Nat) {self kr : Nat} {h : Heap} {ks : List Bytes} (o : Rep self kr h ks)
    (hk : ks.length = 10) :
    ∃ v h', call package L (n + 2) "GOST34122015Kuznechik.clear" [.ref self] h = ok v h' ∧
      Frame [kr] h h' ∧ Rep self kr h' (Kuz.clear ks) ∧
      ∃ vs', h'[kr]? = some (.list vs') ∧ ∀ r, Val.ref r ∈ vs' → h.length ≤ r := by
  obtain ⟨attrs, vs, o1, o2, o3, o4⟩ := o
  have hne : self ≠ kr := ne_of_get o1 o3 (by simp)
  rw [call_succ Fn.GOST34122015Kuznechik.clear]
  py [GOST34122015Kuznechik.m_clear]
  generalize hl : forLoop _ _ _ _ _ = o
  obtain ⟨env, h', rfl, i0, i1, vs', i2, i3, i4⟩ := for_range (n := 10) hl (fun k env h' =>
    env "self" = some (.ref self) ∧ Frame [kr] h h' ∧ ∃ vs', h'[kr]? = some (.list vs') ∧
      BytesList vs' h' ((ks.take k).map zeroFill ++ ks.drop k) ∧
      ∀ j r, j < k → vs'[j]? = some (.ref r) → h.length ≤ r)
    (by
      rintro k env h1 hk' ⟨i0, i1, vs', i2, i3, i4⟩
      have hself : h1[self]? = some (.inst "GOST34122015Kuznechik" attrs) :=
        i1.get o1 (by simpa using hne)
      have hlen : k < ((ks.take k).map zeroFill ++ ks.drop k).length := by simp; omega
      obtain ⟨w, hw, hb⟩ := i3.getNat hlen
      have hx : ((ks.take k).map zeroFill ++ ks.drop k)[k] = ks[k] := by
        rw [List.getElem_append_right (by simp; omega)]
        simp [Nat.min_eq_left (show k ≤ ks.length by omega)]
      rw [hx] at hb
      obtain ⟨m, l, e1, hm, hb1⟩ := (zero_fill_ok L n hb).elim
      refine ⟨_, _, by
        py [i0, hself, o2, getItem_listNat i2 hw, e1,
          setItem_list (get_mono i2 l) (show k < vs'.length by rw [i3.length]; exact hlen)]
        rfl, by py [i0], (i1.add l).set (by simp) _, _, get_set_same _ (by py [i2]), ?_, ?_⟩
      · rw [← take_map_set zeroFill (by omega)]
        exact ((i3.mono l).setAt k hb1).set (by py [i2]) (by py [])
      · intro j r hj hr
        by_cases hjk : k = j
        · subst hjk
          rw [List.getElem?_set_self (by rw [i3.length]; exact hlen)] at hr
          cases hr
          exact Nat.le_trans i1.1 hm
        · rw [List.getElem?_set_ne hjk] at hr
          exact i4 j r (by omega) hr)
    ⟨by py [], .refl _ _, vs, o3, by simpa using o4, by omega⟩
  py []
  rw [List.take_of_length_le (by omega), List.drop_of_length_le (by omega), List.append_nil] at i3
  refine ⟨_, _, rfl, i1, ⟨attrs, vs', i1.get o1 (by simpa using hne), o2, i2, i3⟩, vs', i2, ?_⟩
  intro r hr
  obtain ⟨j, hj⟩ := List.getElem?_of_mem hr
  refine i4 j r ?_ hj
  have := i3.length
  simp at this
  have := (List.getElem?_eq_some_iff.mp hj).1
  omega

/-! The key schedule. -/

/-- The inner loop of the key schedule. -/
theorem inner_ok (L n : Nat) {self c i : Nat} {h : Heap} {A : List (String × Val)} {vs : List Val}
    {cs : List Bytes} {env : Env} {w1 w2 : Val} {k1 k2 : Bytes} {o : Out Flow}
    (o1 : h[self]? = some (.inst "GOST34122015Kuznechik" A)) (o2 : findAttr "_cipher_c" A = some (.ref c))
    (o3 : h[c]? = some (.list vs)) (o4 : BytesList vs h cs) (e0 : env "self" = some (.ref self))
    (e1 : env "key_1" = some w1) (e2 : env "key_2" = some w2) (e3 : env "i" = some (.int i))
    (b1 : bytesOf w1 h = some k1) (b2 : bytesOf w2 h = some k2)
    (hl : forLoop "j" (fun env h => execs (ctx L (n + 3))
      [.assign (.name "internal") (.call "Utils.add_xor" [.name "key_1", .index (.attr
        (.name "self") "_cipher_c") (.bin .add (.bin .mul (.name "i") (.int 8)) (.name "j"))]),
       .assign (.name "internal") (.call "GOST34122015Kuznechik._cipher_s" [.name "internal"]),
       .assign (.name "internal") (.call "GOST34122015Kuznechik._cipher_l" [.name "internal"]),
       .assign (.names ["key_1", "key_2"]) (.list [.call "Utils.add_xor" [.name "internal",
         .name "key_2"], .name "key_1"])] env h) (pyRange 0 8 1) env h = o) :
    Agree o ((List.range 8).foldlM (fun k j => Kuz.keyStep cs k (i * 8 + j)) (k1, k2))
      (fun k fl h' => ∃ env', fl = .next env' ∧ Ext h h' ∧ env' "self" = some (.ref self) ∧
        ∃ w1 w2, env' "key_1" = some w1 ∧ env' "key_2" = some w2 ∧ bytesOf w1 h' = some k.1 ∧
          bytesOf w2 h' = some k.2) (Ext h) := by
  rw [show pyRange 0 8 1 = (List.range 8).map (fun k : Nat => Val.int k) from pyRange_up 8] at hl
  have := for_foldlM (σ := Bytes × Bytes) _ hl (fun k j => Kuz.keyStep cs k (i * 8 + j))
    (fun _ k env h' => Ext h h' ∧ env "self" = some (.ref self) ∧ env "i" = some (.int i) ∧
      ∃ w1 w2, env "key_1" = some w1 ∧ env "key_2" = some w2 ∧ bytesOf w1 h' = some k.1 ∧
          bytesOf w2 h' = some k.2) (Ext h) (s := (k1, k2))
    (by
      rintro k j ⟨k1, k2⟩ env h1 hk ⟨⟨l1, rfl⟩, i0, i3, w1, w2, i1, i2, b1, b2⟩
      unfold Kuz.keyStep
      have hj : ((i : Int) * 8 + (j : Int)) = ((i * 8 + j : Nat) : Int) := by omega
      py [i0, i1, i2, i3, o1, o2, hj]
      rw [getItem_list (get_mono o3 _)]
      rcases o4.get (i * 8 + j : Nat) with ⟨w', x, g1, g2, g3⟩ | ⟨g1, g2⟩
      · rw [g1, g2]
        obtain ⟨m, l, e1, hm, hb⟩ := (add_xor_ok L (n + 2) b1 (bytesOf_mono g3 l1)).elim
        rcases (s_ok L (n + 2) hb).cases with ⟨b2', m2, l2, hr2, e2, hm2, hb2⟩ | ⟨x2, l2, hr2, e2⟩
        · rcases (l_ok L (n + 1) hb2).cases with ⟨b3, m3, l3, hr3, e3, hm3, hb3⟩ | ⟨x3, l3, hr3, e3⟩
          · obtain ⟨m4, l4, e4, hm4, hb4⟩ := (add_xor_ok L (n + 2) hb3
              (bytesOf_mono (bytesOf_mono (bytesOf_mono b2 l) l2) l3)).elim
            py [e1, e2, e3, e4, i1, i2]
            mdl [hr2, hr3]
            refine ⟨_, _, rfl, _, rfl, by grow, by py [i0], by py [i3], _, _, by py []; rfl, by py []; rfl, ?_, ?_⟩
            · py [hb4]
            · py [b1]
          · py [e1, e2, e3]
            mdl [hr2, hr3]
            exact ⟨_, rfl, by grow⟩
        · py [e1, e2]
          mdl [hr2]
          exact ⟨_, rfl, by grow⟩
      · rw [g1, g2]
        py []
        exact ⟨_, rfl, _, rfl⟩)
    ⟨Ext.refl _, e0, e3, w1, w2, e1, e2, b1, b2⟩
  exact this.mono (fun k fl h' _ ⟨env', a, i0, i1, i2, i3⟩ => ⟨env', a, i0, i1, i3⟩) fun h a => a


/-- What stays the same during the loops of the key schedule: the object and its constants. -/
structure Sched (me c kr : Nat) (A : List (String × Val)) (vs : List Val) (cs : List Bytes) (h : Heap) : Prop where
  obj : h[me]? = some (.inst "GOST34122015Kuznechik" A)
  attrC : findAttr "_cipher_c" A = some (.ref c)
  attrK : findAttr "_cipher_iter_key" A = some (.ref kr)
  consts : h[c]? = some (.list vs)
  bytes : BytesList vs h cs
  ne : c ≠ kr

theorem Sched.ext {self c kr : Nat} {A : List (String × Val)} {vs : List Val} {cs : List Bytes} {h h' : Heap}
    (s : Sched self c kr A vs cs h) (x : Ext h h') : Sched self c kr A vs cs h' :=
  ⟨x.get s.obj, s.attrC, s.attrK, x.get s.consts, x.bytesList s.bytes, s.ne⟩

/-- `self._cipher_iter_key.append(...)`. -/
theorem Sched.app {self c kr : Nat} {A : List (String × Val)} {vs : List Val} {cs : List Bytes} {h : Heap}
    (s : Sched self c kr A vs cs h) {l : List Val} (hk : h[kr]? = some (.list l)) (l' : List Val) :
    Sched self c kr A vs cs (h.set kr (.list l')) := by
  refine ⟨?_, s.attrC, s.attrK, ?_, s.bytes.set (by py [hk]) (by py []), s.ne⟩
  · rw [get_set_other _ (ne_of_get hk s.obj (by simp))]; exact s.obj
  · rw [get_set_other _ s.ne.symm]; exact s.consts

/-- The outer loop of the key schedule. -/
theorem outer_ok (L n : Nat) {self c kr : Nat} {h : Heap} {A : List (String × Val)} {vs ws : List Val}
    {cs ks : List Bytes} {env : Env} {w1 w2 : Val} {k1 k2 : Bytes} {o : Out Flow}
    (s : Sched self c kr A vs cs h) (e0 : env "self" = some (.ref self))
    (e1 : env "key_1" = some w1) (e2 : env "key_2" = some w2)
    (b1 : bytesOf w1 h = some k1) (b2 : bytesOf w2 h = some k2)
    (hk : h[kr]? = some (.list ws)) (hks : BytesList ws h ks)
    (hl : forLoop "i" (fun env h => execs (ctx L (n + 3))
      [.for_ "j" (.builtin "range" [.int 8])
            [.assign (.name "internal") (.call "Utils.add_xor" [.name "key_1", .index (.attr
                (.name "self") "_cipher_c") (.bin .add (.bin .mul (.name "i") (.int 8)) (.name
                "j"))]),
             .assign (.name "internal") (.call "GOST34122015Kuznechik._cipher_s" [.name
                 "internal"]),
             .assign (.name "internal") (.call "GOST34122015Kuznechik._cipher_l" [.name
                 "internal"]),
             .assign (.names ["key_1", "key_2"]) (.list [.call "Utils.add_xor" [.name "internal",
                 .name "key_2"], .name "key_1"])],
         .expr (.meth (.attr (.name "self") "_cipher_iter_key") "append" [.name "key_1"]),
         .expr (.meth (.attr (.name "self") "_cipher_iter_key") "append" [.name "key_2"])] env h)
      (pyRange 0 4 1) env h = o) :
    Agree o ((List.range 4).foldlM (fun (st : (Bytes × Bytes) × List Bytes) i => do
      let k ← (List.range 8).foldlM (fun k j => Kuz.keyStep cs k (i * 8 + j)) st.1
      pure (k, st.2 ++ [k.1, k.2])) ((k1, k2), ks))
      (fun st fl h' => ∃ env', fl = .next env' ∧ Frame [kr] h h' ∧ env' "self" = some (.ref self) ∧
        Sched self c kr A vs cs h' ∧ ∃ ws, h'[kr]? = some (.list ws) ∧ BytesList ws h' st.2) (Frame [kr] h) := by
  rw [show pyRange 0 4 1 = (List.range 4).map (fun k : Nat => Val.int k) from pyRange_up 4] at hl
  have := for_foldlM (σ := (Bytes × Bytes) × List Bytes) _ hl (fun (st : (Bytes × Bytes) × List Bytes) i => do
      let k ← (List.range 8).foldlM (fun k j => Kuz.keyStep cs k (i * 8 + j)) st.1
      pure (k, st.2 ++ [k.1, k.2]))
    (fun _ st env h' => Frame [kr] h h' ∧ env "self" = some (.ref self) ∧ Sched self c kr A vs cs h' ∧
      (∃ w1 w2, env "key_1" = some w1 ∧ env "key_2" = some w2 ∧ bytesOf w1 h' = some st.1.1 ∧
          bytesOf w2 h' = some st.1.2) ∧
      ∃ ws, h'[kr]? = some (.list ws) ∧ BytesList ws h' st.2) (Frame [kr] h) (s := ((k1, k2), ks))
    (by
      rintro k i ⟨⟨k1, k2⟩, ks⟩ env h1 hk ⟨f, i0, s, ⟨w1, w2, i1, i2, b1, b2⟩, ws, hk, hks⟩
      py []
      generalize hl : forLoop _ _ _ _ _ = o
      have := inner_ok L n (i := i) s.obj s.attrC s.consts s.bytes (by py [i0]) (by py [i1]) (by py [i2])
        (by py []) b1 b2 hl
      generalize (List.range 8).foldlM (fun k j => Kuz.keyStep cs k (i * 8 + j)) (k1, k2) = res at this
      cases res with
      | ok r =>
        obtain ⟨_, h', rfl, env', rfl, x, j0, w1, w2, j1, j2, c1, c2⟩ := this
        have s1 := s.ext x
        have hk1 := x.get hk
        have hks1 := x.bytesList hks
        have s2 := s1.app hk1 (ws ++ [w1])
        have hk2 : (h'.set kr (.list (ws ++ [w1])))[kr]? = some (.list (ws ++ [w1])) :=
          get_set_same _ (by rw [hk1]; rfl)
        have s3 := s2.app hk2 (ws ++ [w1] ++ [w2])
        py [j0, j1, j2, s1.obj, s1.attrK, hk1, s2.obj, hk2]
        mdl []
        refine ⟨_, _, rfl, _, rfl, ?_, j0, s3, ⟨w1, w2, j1, j2, ?_, ?_⟩, _, get_set_same _ (by py [hk1]), ?_⟩
        · exact ((f.trans (x.frame _)).set (by simp) _).set (by simp) _
        · py [hk1, c1]
        · py [hk1, c2]
        · have := (hks1.snoc c1).snoc c2
          rw [List.append_assoc ks] at this
          exact (this.set (by py [hk1]) (by py [])).set (by py [hk1]) (by py [])
      | error e =>
        obtain ⟨_, rfl, x⟩ := this
        py []
        mdl []
        exact ⟨_, rfl, f.trans (x.frame _)⟩)
    ⟨.refl _ _, e0, s, ⟨w1, w2, e1, e2, b1, b2⟩, ws, hk, hks⟩
  exact this.mono (fun k fl h' _ ⟨env', a, i0, i1, i2, i3, i4⟩ => ⟨env', a, i0, i1, i2, i4⟩) fun h a => a

/-- The object with all its attributes: the constants, the round keys, the object identifier. -/
def Full (self kr : Nat) (h : Heap) : Prop :=
  ∃ c o ws cs, h[self]? = some (.inst "GOST34122015Kuznechik"
      [("_cipher_c", .ref c), ("_cipher_iter_key", .ref kr), ("oid", .ref o)]) ∧ c ≠ kr ∧
    h[c]? = some (.list ws) ∧ BytesList ws h cs ∧
    h[o]? = some (.inst "ObjectIdentifier" [("_oid_str", .str "1.2.643.7.1.1.5.2")])

/-- The constructor. -/
theorem init_ok (L n : Nat) {self : Nat} {h : Heap} {v : Val} {key : Bytes}
    (o : h[self]? = some (.inst "GOST34122015Kuznechik" [])) (e : bytesOf v h = some key) :
    Agree (call package L (n + 4) "GOST34122015Kuznechik.__init__" [.ref self, v] h) (Kuz.init key)
      (fun ks _ h' => Frame [self] h h' ∧ ∃ kr, h.length ≤ kr ∧ Rep self kr h' ks ∧ Full self kr h') (Frame [self] h) := by
  have hself : self < h.length := get_lt o
  rw [call_succ Fn.GOST34122015Kuznechik.__init__]
  py [GOST34122015Kuznechik.m___init__, o]
  have hlen : (List.set (h ++ [Obj.list []]) self (Obj.inst "GOST34122015Kuznechik"
    [("_cipher_c", Val.ref (List.length h))])).length = h.length + 1 := by simp
  rw [hlen]
  generalize hH : List.set (_ ++ [Obj.list []]) self _ = H
  have f0 : Frame [self] h H := by
    subst hH
    exact ((((Frame.refl _ _).add _).set (by simp) _).add _).set (by simp) _
  have hc : H[h.length]? = some (.list []) := by
    subst hH
    rw [get_set_other _ (by omega), List.getElem?_append_left (by simp), get_set_other _ (by omega), get_last]
  have hk : H[h.length + 1]? = some (.list []) := by
    subst hH
    rw [get_set_other _ (by omega), ← hlen, get_last]
  have ho : H[self]? = some (.inst "GOST34122015Kuznechik"
      [("_cipher_c", .ref h.length), ("_cipher_iter_key", .ref (h.length + 1))]) := by
    subst hH
    exact get_set_same _ (by py [o])
  have he : bytesOf v H = some key := by
    subst hH
    py [o, e]
  have hHl : H.length = h.length + 2 := by
    subst hH
    simp
  clear hH hlen
  obtain ⟨F, hF, hC⟩ := getC_eq
  have h1 := get_c_aux F hF L n ho (by py []) hc
  unfold Kuz.init
  rw [hC]
  generalize (List.range 32).mapM F = res at h1
  cases res with
  | error x =>
    obtain ⟨h2, e2, f⟩ := h1
    py [e2]
    mdl []
    exact ⟨_, rfl, f0.then f (by simp)⟩
  | ok cs =>
    obtain ⟨_, h2, e2, f, vs, hc2, hcs⟩ := h1
    have ho2 := f.get ho (by simp; omega)
    have hk2 := f.get hk (by simp)
    have he2 := f.bytesOf he (apart_of_noBytes he (by py [List.mem_singleton, forall_eq, hc]))
    have f2 := f0.then f (by simp)
    py [e2, ho2, show arith .floordiv 32 2 = .ok 16 from rfl]
    generalize hH : List.set _ self _ = H3
    generalize hA : [("_cipher_c", Val.ref h.length), ("_cipher_iter_key", Val.ref (h.length + 1)),
      ("oid", Val.ref h2.length)] = A at hH
    have s3 : Sched self h.length (h.length + 1) A vs cs H3 := by
      subst hH
      refine ⟨get_set_same _ (by py [ho2]), by subst hA; py [], by subst hA; py [], ?_, ?_, by omega⟩
      · rw [get_set_other _ (by omega)]; exact get_mono hc2 _
      · exact (hcs.mono _).set (by py [ho2]) (by py [])
    have hk3 : H3[h.length + 1]? = some (.list []) := by
      subst hH
      rw [get_set_other _ (by omega)]; exact get_mono hk2 _
    have he3 : bytesOf v H3 = some key := by
      subst hH
      py [ho2, he2]
    have f3 : Frame [self] h H3 := by
      subst hH
      exact (f2.add _).set (by simp) _
    have hl2 : h.length + 2 ≤ h2.length := by have := f.1; omega
    have hq3 : H3[h2.length]? = some (.inst "ObjectIdentifier" [("_oid_str", .str "1.2.643.7.1.1.5.2")]) := by
      subst hH
      rw [get_set_other _ (by omega)]; exact get_last _ _
    clear hH
    obtain ⟨w1, l1, e4, b1⟩ := getSlice_bytes he3 none (some 16)
    obtain ⟨w2, l2, e5, b2⟩ := getSlice_bytes (bytesOf_mono he3 l1) (some 16) none
    have b1' := bytesOf_mono (bytesOf_mono b1 l2) [Obj.bytearray (List.replicate 16 0)]
    have b2' := bytesOf_mono b2 [Obj.bytearray (List.replicate 16 0)]
    have f4 := ((f3.add l1).add l2).add [Obj.bytearray (List.replicate 16 0)]
    have s4 := s3.ext ((((Ext.refl _).add l1).add l2).add [Obj.bytearray (List.replicate 16 0)])
    have hk4 := get_mono (get_mono (get_mono hk3 l1) l2) [Obj.bytearray (List.replicate 16 0)]
    have hq4 := get_mono (get_mono (get_mono hq3 l1) l2) [Obj.bytearray (List.replicate 16 0)]
    py [e4, e5, show arith .floordiv 32 2 = .ok 16 from rfl]
    generalize H3 ++ l1 ++ l2 ++ [Obj.bytearray (List.replicate 16 0)] = H4 at *
    have s5 := s4.app hk4 ([] ++ [w1])
    have hk5 := get_set_same (.list ([] ++ [w1])) (h := H4) (r := h.length + 1) (by rw [hk4]; rfl)
    py [s4.obj, s4.attrK, hk4, s5.obj, hk5]
    generalize hl : forLoop _ _ _ _ _ = res
    have := outer_ok L n (s5.app hk5 ([] ++ [w1] ++ [w2])) (by py []) (by py []; rfl) (by py []; rfl)
      (by py [hk4, b1']; rfl) (by py [hk4, b2']; rfl) (get_set_same _ (by rw [hk5]; rfl))
      ((((BytesList.nil _).snoc b1').snoc b2').set (by rw [hk4]; rfl) rfl |>.set (by rw [hk5]; rfl) rfl) hl
    have f6 : Frame [self] h ((H4.set (h.length + 1) (.list ([] ++ [w1]))).set (h.length + 1)
        (.list ([] ++ [w1] ++ [w2]))) :=
      (f4.setNew (by omega) _).setNew (by omega) _
    clear hl
    rw [ok_bind]
    rw [show cut none (some 16) key = pyUpto key 16 from rfl,
      show cut (some 16) none key = pyFrom key 16 from rfl, List.nil_append, List.singleton_append] at this
    generalize List.foldlM (m := Res) _ _ _ = R at this ⊢
    cases R with
    | error x =>
      obtain ⟨_, rfl, f7⟩ := this
      py []
      rw [error_bind]
      exact ⟨_, rfl, f6.then f7 (by simp)⟩
    | ok r =>
      obtain ⟨_, h7, rfl, env', rfl, f7, j0, s7, ws, hk7, hks7⟩ := this
      py [j0, s7.obj, key_size_ok, show arith .floordiv 32 2 = .ok 16 from rfl]
      rw [ok_bind]
      have hq7 := f7.get (by rw [get_set_other _ (by omega), get_set_other _ (by omega)]; exact hq4)
        (show h2.length ∉ [h.length + 1] by simp; omega)
      exact ⟨_, _, rfl, (((f6.then f7 (by simp)).add _).add _).add _, h.length + 1, by omega, ⟨A, ws,
        get_mono (get_mono (get_mono s7.obj _) _) _, s7.attrK, get_mono (get_mono (get_mono hk7 _) _) _,
        ((hks7.mono _).mono _).mono _⟩, h.length, h2.length, vs, cs,
        hA ▸ get_mono (get_mono (get_mono s7.obj _) _) _, by omega, get_mono (get_mono (get_mono s7.consts _) _) _,
        ((s7.bytes.mono _).mono _).mono _, get_mono (get_mono (get_mono hq7 _) _) _⟩

end Kuz

end Gost.Src
