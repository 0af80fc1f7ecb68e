import Verif.SourceProofs.NewOid
import Verif.SourceProofs.Utils
import Verif.Model.BlockCipher

/-! The Magma class of gost_34_12_2015.py, as it is written, computes the functions of the model. -/

namespace Gost.Src

namespace Magma

theorem g_s : BlockCipher.g_S_BOX_MAGMA = .tuple (sBoxMagma.map ints) := rfl

theorem get_s_row (i : Nat) (hi : i < 8) (h : Heap) :
    getItem BlockCipher.g_S_BOX_MAGMA (.int i) h = ok (ints (sBoxMagma.getD i [])) h := by
  rw [g_s, getItem_tuple, List.getElem?_map]
  have e : i < sBoxMagma.length := by
    have : sBoxMagma.length = 8 := by decide +kernel
    omega
  rw [List.getElem?_eq_getElem e]
  simp [List.getD_eq_getElem?_getD, List.getElem?_eq_getElem e]

theorem get_s (i : Nat) (hi : i < 8) (x : Nat) (hx : x < 16) (h : Heap) :
    getItem (ints (sBoxMagma.getD i [])) (.int x) h = ok (.int (Magma.sbox i x)) h ∧ Magma.sbox i x < 16 := by
  have e : i < sBoxMagma.length := by
    have : sBoxMagma.length = 8 := by decide +kernel
    omega
  have h1 : ∀ l ∈ sBoxMagma, l.length = 16 ∧ ∀ n ∈ l, n < 16 := by decide +kernel
  have h2 := h1 _ (List.getElem_mem e)
  have h3 : sBoxMagma.getD i [] = sBoxMagma[i] := by
    simp [List.getD_eq_getElem?_getD, List.getElem?_eq_getElem e]
  unfold Magma.sbox
  rw [h3, getItem_ints]
  have h4 : x < sBoxMagma[i].length := by omega
  rw [List.getElem?_eq_getElem h4]
  simp only [List.getD_eq_getElem?_getD, List.getElem?_eq_getElem h4, Option.getD_some]
  exact ⟨trivial, h2.2 _ (List.getElem_mem h4)⟩

/-- A small number as a byte. -/
theorem int_byte {m : Nat} (hm : m < 256) : Val.int (m : Int) = .int (UInt8.ofNat m).toNat := by
  rw [UInt8.toNat_ofNat', Nat.mod_eq_of_lt (by omega)]

theorem or_lt {a b : Nat} (ha : a < 16) (hb : b < 16) : a <<< 4 ||| b < 256 := by
  have h1 : a <<< 4 < 2 ^ 8 := by rw [Nat.shiftLeft_eq]; omega
  exact Nat.or_lt_two_pow h1 (by omega)

theorem t_ok (L n : Nat) {v : Val} {b : Bytes} {h : Heap} (e : bytesOf v h = some b) :
    Returns (call package L (n + 1) "GOST34122015Magma._cipher_t" [v] h) h (Magma.cipherT b) := by
  rw [call_succ Fn.GOST34122015Magma._cipher_t]
  py [GOST34122015Magma.m__cipher_t, e]
  have hH : (h ++ [Obj.bytearray (List.replicate 4 0)] ++ [Obj.bytearray b]) =
      (h ++ [Obj.bytearray (List.replicate 4 0)] ++ [Obj.bytearray b]).set h.length
        (.bytearray (List.replicate 4 0)) := (set_get (by py [])).symm
  rw [hH]
  generalize hG : (h ++ [Obj.bytearray (List.replicate 4 0)] ++ [Obj.bytearray b]) = H
  have hd : bytesOf (.ref (h ++ [Obj.bytearray (List.replicate 4 0)]).length) H = some b := by
    subst hG; py []
  generalize hD : (h ++ [Obj.bytearray (List.replicate 4 0)]).length = D at hd
  have hlt : h.length < H.length := by subst hG; simp
  have hne : Val.ref D ≠ .ref h.length := by simp [← hD]
  have hX : ∀ b, Ext h (H.set h.length (.bytearray b)) := by
    intro b
    subst hG
    exact (((Ext.refl _).add _).add _).set (Nat.le_refl _) _
  clear hH hG hD
  generalize hl : forLoop _ _ _ _ _ = o
  have := fill_at (n := 4) hl (fun i => do
      let b ← pyGet b (i : Int)
      let lo := b.toNat &&& 0x0f
      let hi := (b.toNat &&& 0xf0) >>> 4
      let lo := Magma.sbox ((3 - i) * 2) lo
      let hi := Magma.sbox ((3 - i) * 2 + 1) hi
      pure (UInt8.ofNat ((hi <<< 4) ||| lo)))
    (fun _ env => env "data" = some (.ref D) ∧ env "result" = some (.ref h.length)) (Ext h)
    (by
      rintro acc env hk ⟨i1, i2⟩
      rcases getItem_cases (v := .ref D) (h := H.set h.length (.bytearray (partly 4 acc))) (b := b)
        (by rw [bytesOf_set_ne _ hne]; exact hd) acc.length with ⟨x, hx, hg⟩ | ⟨hx, hg⟩
      · have a1 : arith .mul (3 - (acc.length : Int)) 2 = .ok (((3 - acc.length) * 2 : Nat) : Int) := by
          simp only [arith]; congr 1; omega
        have lo : x.toNat &&& 15 < 16 := Nat.lt_of_le_of_lt Nat.and_le_right (by decide)
        have hi : (x.toNat &&& 240) >>> 4 < 16 := by
          have := x.toNat_lt
          have : x.toNat &&& 240 ≤ 240 := Nat.and_le_right
          rw [Nat.shiftRight_eq_div_pow]
          omega
        obtain ⟨s1, s2⟩ := get_s ((3 - acc.length) * 2) (by omega) _ lo (H.set h.length (.bytearray (partly 4 acc)))
        obtain ⟨s3, s4⟩ := get_s ((3 - acc.length) * 2 + 1) (by omega) _ hi
          (H.set h.length (.bytearray (partly 4 acc)))
        rw [hx]
        have r1 := get_s_row ((3 - acc.length) * 2) (by omega) (H.set h.length (.bytearray (partly 4 acc)))
        have r2 := get_s_row ((3 - acc.length) * 2 + 1) (by omega) (H.set h.length (.bytearray (partly 4 acc)))
        have a2 : arith .add (((3 - acc.length) * 2 : Nat) : Int) 1 =
          .ok (((3 - acc.length) * 2 + 1 : Nat) : Int) := (rfl)
        py [i1, i2, hg, arith_and_lit, arith_shr_lit, a1, a2, r1, r2, s1, s3, arith_shl_lit, arith_bor_nat,
          int_byte (or_lt s4 s2), setItem_fill hlt hk]
        exact ⟨_, _, rfl, _, rfl, by py [i1, i2]; exact ⟨trivial, trivial⟩, rfl⟩
      · rw [hx]
        py [i1, hg]
        exact ⟨_, rfl, hX _⟩)
    (by py []; exact ⟨trivial, trivial⟩)
  unfold Magma.cipherT
  generalize List.mapM (m := Res) _ _ = res at this ⊢
  cases res with
  | ok r =>
    obtain ⟨_, _, rfl, env, rfl, ⟨i1, i2⟩, i3, rfl⟩ := this
    py [i2]
    exact .intro (hX _) (Nat.le_refl _) (bytesOf_set_same _ hlt)
  | error e =>
    obtain ⟨_, rfl, l, rfl⟩ := this
    py []
    exact ⟨l, rfl⟩

theorem fill_left (k : Nat) (acc : Bytes) (x : UInt8) :
    (List.replicate (k + 1) 0 ++ acc).set k x = List.replicate k 0 ++ x :: acc := by
  rw [List.replicate_succ', List.append_assoc, List.set_append_right _ _ (by simp)]
  simp

theorem add_32_ok (L n : Nat) {v w : Val} {a b : Bytes} {h : Heap} (ea : bytesOf v h = some a)
    (eb : bytesOf w h = some b) :
    Returns (call package L (n + 1) "GOST34122015Magma._cipher_add_32" [v, w] h) h (Magma.add32 a b) := by
  rw [call_succ Fn.GOST34122015Magma._cipher_add_32]
  py [GOST34122015Magma.m__cipher_add_32, ea, eb]
  generalize hG : h ++ [Obj.bytearray a] ++ [Obj.bytearray b] = H
  have ea : bytesOf (.ref h.length) H = some a := by subst hG; py []
  have eb : bytesOf (.ref (h ++ [Obj.bytearray a]).length) H = some b := by subst hG; py []
  have hX : Ext h H := by subst hG; exact ((Ext.refl _).add _).add _
  generalize (h ++ [Obj.bytearray a]).length = D at *
  have hd : ((-1 : Int) = 0) = False := by decide
  rw [show pyRange 3 (-1) (-1) = (List.range 4).reverse.map fun k : Nat => Val.int k from pyRange_down 4]
  generalize hl : forLoop _ _ _ _ _ = o
  have := for_foldlM (σ := Nat × Bytes) _ hl (fun (st : Nat × Bytes) (i : Nat) => do
      let x ← pyGet a (i : Int)
      let y ← pyGet b (i : Int)
      let internal := x.toNat + y.toNat + (st.1 >>> 8)
      pure (internal, UInt8.ofNat (internal &&& 0xff) :: st.2))
    (fun k st env h' => env "op_a" = some (.ref h.length) ∧ env "op_b" = some (.ref D) ∧
      env "result" = some (.ref H.length) ∧ env "internal" = some (.int st.1) ∧ st.2.length = k ∧
      h' = H ++ [.bytearray (List.replicate (4 - k) 0 ++ st.2)]) (Ext h) (s := (0, []))
    (by
      rintro k i ⟨m, acc⟩ env _ hk ⟨i1, i2, i3, i4, i5, rfl⟩
      obtain ⟨hk, rfl⟩ : k < 4 ∧ i = 3 - k := by
        rcases Nat.lt_or_ge k 4 with h1 | h1
        · refine ⟨h1, ?_⟩
          rw [List.getElem?_reverse (by simpa using h1), List.getElem?_range (by simp; omega)] at hk
          cases hk
          simp
        · rw [List.getElem?_eq_none (by simpa using h1)] at hk
          cases hk
      simp only at i4 i5
      rcases getItem_cases (bytesOf_mono ea [.bytearray (List.replicate (4 - k) 0 ++ acc)]) (3 - k : Nat) with
        ⟨x, hx, hg⟩ | ⟨hx, hg⟩
      · rcases getItem_cases (bytesOf_mono eb [.bytearray (List.replicate (4 - k) 0 ++ acc)]) (3 - k : Nat) with
          ⟨y, hy, hg'⟩ | ⟨hy, hg'⟩
        · have hs : (x.toNat + y.toNat + m >>> 8) &&& 255 < 256 := Nat.lt_of_le_of_lt Nat.and_le_right (by decide)
          have hc : 3 - k < (List.replicate (4 - k) 0 ++ acc).length := by simp; omega
          have hf : (List.replicate (4 - k) (0 : UInt8) ++ acc).set (3 - k)
              (UInt8.ofNat (x.toNat + y.toNat + m >>> 8 &&& 255)) = List.replicate (3 - k) (0 : UInt8) ++
              UInt8.ofNat (x.toNat + y.toNat + m >>> 8 &&& 255) :: acc := by
            rw [show 4 - k = 3 - k + 1 by omega, fill_left]
          py [i1, i2, i3, i4, hg, hg', arith_add_nat, arith_shr_lit, arith_and_lit, int_byte hs, hc, hf]
          mdl [hx, hy]
          refine ⟨_, _, rfl, _, rfl, ?_⟩
          py [i1, i2, i3, i5]
          exact ⟨trivial, trivial, trivial, trivial, trivial, by rw [show 4 - (k + 1) = 3 - k by omega]⟩
        · py [i1, i2, i4, hg, hg']
          mdl [hx, hy]
          exact ⟨_, rfl, hX.add _⟩
      · py [i1, i2, i4, hg]
        mdl [hx]
        exact ⟨_, rfl, hX.add _⟩)
    (by py []; exact ⟨trivial, trivial, trivial, rfl, trivial, rfl⟩)
  unfold Magma.add32
  generalize List.foldlM (m := Res) _ _ _ = res at this ⊢
  cases res with
  | ok r =>
    obtain ⟨_, _, rfl, env, rfl, i1, i2, i3, i4, i5, rfl⟩ := this
    py [i3]
    mdl []
    rw [show 4 - (List.range 4).reverse.length = 0 by simp]
    exact .last hX _
  | error e =>
    obtain ⟨_, rfl, l, rfl⟩ := this
    py []
    exact ⟨l, rfl⟩

theorem big_endian (m n : Nat) :
    ((List.range n).map fun k => UInt8.ofNat (m / 256 ^ k % 256)).reverse = intToBytes m n := by
  rw [intToBytes, List.map_reverse]
  refine congrArg List.reverse (List.map_congr_left fun k _ => ?_)
  rw [show ((m : Int) / 256 ^ k % 256) = ((m / 256 ^ k % 256 : Nat) : Int) by simp, Int.toNat_natCast]

theorem toBytes_big {m n : Nat} (hm : m < 256 ^ n) (h : Heap) :
    toBytes m n "big" h = ok (.bytes (intToBytes m n)) h := by
  have h0 : ¬ ((n : Int) < 0) := by omega
  have h2 : ¬ ((m : Int) < 0 ∨ (256 : Int) ^ n ≤ m) := by
    have h1 : ((m : Nat) : Int) < ((256 ^ n : Nat) : Int) := by omega
    rw [Int.natCast_pow] at h1
    rintro (h | h)
    · omega
    · exact Int.not_le.mpr h1 h
  simp only [toBytes, Int.toNat_natCast, if_neg h0, if_neg h2, ↓reduceIte, big_endian]

theorem builtin_pack (x : Int) (C : Ctx) (h : Heap) : applyBuiltin C "pack>I" [.int x] h =
    if 0 ≤ x ∧ x < 2 ^ 32 then toBytes x 4 "big" h else fail .stuck h := (rfl)

/-- `pack('>I', m)`. -/
theorem pack_ok {m : Nat} (hm : m < 2 ^ 32) (C : Ctx) (h : Heap) :
    applyBuiltin C "pack>I" [.int m] h = ok (.bytes (intToBytes m 4)) h := by
  have h1 : (0 : Int) ≤ m ∧ (m : Int) < 2 ^ 32 := by omega
  rw [builtin_pack, if_pos h1]
  exact toBytes_big (n := 4) (Nat.lt_of_lt_of_eq hm (by decide)) h

theorem g_ok (L n : Nat) {v w : Val} {k a : Bytes} {h : Heap} (ek : bytesOf v h = some k)
    (ea : bytesOf w h = some a) :
    Returns (call package L (n + 2) "GOST34122015Magma._cipher_g" [v, w] h) h (Magma.cipherG k a) := by
  rw [call_succ Fn.GOST34122015Magma._cipher_g]
  py [GOST34122015Magma.m__cipher_g, ek, ea]
  generalize hG : h ++ [Obj.bytearray k] ++ [Obj.bytearray a] ++ [Obj.bytearray (List.replicate 4 0)] ++
    [Obj.bytearray (List.replicate 4 0)] = H
  have ek : bytesOf (.ref h.length) H = some k := by subst hG; py []
  have ea : bytesOf (.ref (h ++ [Obj.bytearray k]).length) H = some a := by subst hG; py []
  have hX : Ext h H := by subst hG; exact ((((Ext.refl _).add _).add _).add _).add _
  clear hG
  unfold Magma.cipherG
  rcases (add_32_ok L n ek ea).cases with ⟨b1, m1, l1, hr1, e1, hm1, hb1⟩ | ⟨x1, l1, hr1, e1⟩
  · rcases (t_ok L n hb1).cases with ⟨b2, m2, l2, hr2, e2, hm2, hb2⟩ | ⟨x2, l2, hr2, e2⟩
    · have fin : Returns (fail .index (H ++ l1 ++ l2)) h (.error .indexError) := by
        obtain ⟨l, rfl⟩ := hX
        exact ⟨l ++ l1 ++ l2, by simp [exc]⟩
      rcases getItem_cases hb2 0 with ⟨x0, hx0, hg0⟩ | ⟨hx, hg⟩
      · rcases getItem_cases hb2 1 with ⟨x1, hx1, hg1⟩ | ⟨hx, hg⟩
        · rcases getItem_cases hb2 2 with ⟨x2, hx2, hg2⟩ | ⟨hx, hg⟩
          · rcases getItem_cases hb2 3 with ⟨x3, hx3, hg3⟩ | ⟨hx, hg⟩
            · mdl [hr1, hr2, hx0, hx1, hx2, hx3]
              py [e1, e2, hg0, hg1, hg2, hg3, arith_add_nat, arith_shl_lit, arith_shr_lit, arith_bor_nat, arith_and_lit]
              generalize hm : (_ &&& 4294967295) = m
              have : m < 2 ^ 32 := by
                subst hm
                exact Nat.lt_of_le_of_lt Nat.and_le_right (by decide)
              py [pack_ok this]
              exact .last ((hX.add _).add _) _
            · py [e1, e2, hg0, hg1, hg2, hg, arith_add_nat, arith_shl_lit]
              mdl [hr1, hr2, hx0, hx1, hx2, hx]
              exact fin
          · py [e1, e2, hg0, hg1, hg, arith_add_nat, arith_shl_lit]
            mdl [hr1, hr2, hx0, hx1, hx]
            exact fin
        · py [e1, e2, hg0, hg, arith_shl_lit]
          mdl [hr1, hr2, hx0, hx]
          exact fin
      · py [e1, e2, hg]
        mdl [hr1, hr2, hx]
        exact fin
    · py [e1, e2]
      mdl [hr1, hr2]
      obtain ⟨l, rfl⟩ := hX
      exact ⟨l ++ l1 ++ l2, by simp⟩
  · py [e1]
    mdl [hr1]
    obtain ⟨l, rfl⟩ := hX
    exact ⟨l ++ l1, by simp⟩

/-- `_cipher_g_iter_result`. -/
theorem g_iter_result_ok (L n : Nat) {v w : Val} {a0 a1 : Bytes} {h : Heap} (e0 : bytesOf v h = some a0)
    (e1 : bytesOf w h = some a1) :
    NewBytes (call package L (n + 1) "GOST34122015Magma._cipher_g_iter_result" [v, w] h) h
      (Magma.gIterResult a0 a1) := by
  rw [call_succ Fn.GOST34122015Magma._cipher_g_iter_result]
  py [GOST34122015Magma.m__cipher_g_iter_result]
  have s1 := setSlice_bytes (lo := 0) (hi := 4) (get_last h (.bytearray (List.replicate 8 0))) (bytesOf_mono e1 _)
  rw [set_last] at s1
  have s2 := setSlice_bytes (lo := 4) (hi := 8)
    (get_last h (.bytearray (pySliceAssign (List.replicate 8 0) 0 4 a1))) (bytesOf_mono e0 _)
  rw [set_last] at s2
  py [s1, s2]
  exact .last (Ext.refl _) _

/-- `_cipher_g_iter`. -/
theorem g_iter_ok (L n : Nat) {v w : Val} {k a : Bytes} {h : Heap} (ek : bytesOf v h = some k)
    (ea : bytesOf w h = some a) :
    Agree (call package L (n + 3) "GOST34122015Magma._cipher_g_iter" [v, w] h) (Magma.gIter k a)
      (fun r x h' => Ext h h' ∧ ∃ v0 v1 v2, x = .tuple [v0, v1, v2] ∧ bytesOf v0 h' = some r.1 ∧
        bytesOf v1 h' = some r.2.1 ∧ bytesOf v2 h' = some r.2.2) (Ext h) := by
  rw [call_succ Fn.GOST34122015Magma._cipher_g_iter]
  py [GOST34122015Magma.m__cipher_g_iter, ek, ea]
  generalize hG : h ++ [Obj.bytearray k] ++ [Obj.bytearray a] ++ [Obj.bytearray (List.replicate 4 0)] ++
    [Obj.bytearray (List.replicate 4 0)] ++ [Obj.bytearray (List.replicate 4 0)] = H
  have ek : bytesOf (.ref h.length) H = some k := by subst hG; py []
  have ea : bytesOf (.ref (h ++ [Obj.bytearray k]).length) H = some a := by subst hG; py []
  have hX : Ext h H := by subst hG; exact (((((Ext.refl _).add _).add _).add _).add _).add _
  clear hG
  obtain ⟨w1, l1, s1, b1⟩ := getSlice_bytes ea (some 0) (some 4)
  obtain ⟨w0, l0, s0, b0⟩ := getSlice_bytes (bytesOf_mono ea l1) (some 4) (some 8)
  have ek := bytesOf_mono (bytesOf_mono ek l1) l0
  have b1 := bytesOf_mono b1 l0
  have hX := (hX.add l1).add l0
  py [s1, s0]
  generalize H ++ l1 ++ l0 = H at *
  unfold Magma.gIter
  rcases (g_ok L n ek b0).cases with ⟨g, m1, l2, hr1, e1, hm1, hb1⟩ | ⟨x1, l2, hr1, e1⟩
  · obtain ⟨m2, l3, e2, hm2, hb2⟩ := (add_xor_ok L (n + 1) (bytesOf_mono b1 l2) hb1).elim
    py [e1, e2]
    mdl [show pySlice a 4 8 = cut (some 4) (some 8) a from rfl, hr1]
    exact ⟨_, _, rfl, (hX.add _).add _, _, _, _, rfl, bytesOf_mono (bytesOf_mono b0 _) _,
      bytesOf_mono (bytesOf_mono b1 _) _, hb2⟩
  · py [e1]
    mdl [show pySlice a 4 8 = cut (some 4) (some 8) a from rfl, hr1]
    exact ⟨_, rfl, hX.add _⟩

theorem g_prev_ok (L n : Nat) {v w : Val} {k a : Bytes} {h : Heap} (ek : bytesOf v h = some k)
    (ea : bytesOf w h = some a) :
    Returns (call package L (n + 4) "GOST34122015Magma._cipher_g_prev" [v, w] h) h (Magma.gPrev k a) := by
  rw [call_succ Fn.GOST34122015Magma._cipher_g_prev]
  py [GOST34122015Magma.m__cipher_g_prev]
  have := g_iter_ok L n ek ea
  unfold Magma.gPrev
  generalize Magma.gIter k a = res at this
  cases res with
  | ok r =>
    obtain ⟨r0, r1, r2⟩ := r
    obtain ⟨_, _, e1, ⟨l, rfl⟩, v0, v1, v2, rfl, b0, b1, b2⟩ := this
    obtain ⟨m2, l3, e2, hm2, hb2⟩ := (g_iter_result_ok L (n + 2) b2 b0).elim
    py [e1, e2]
    mdl []
    exact .intro (((Ext.refl _).add _).add _) (by simp at hm2; omega) hb2
  | error x =>
    obtain ⟨_, e1, l, rfl⟩ := this
    py [e1]
    mdl []
    exact ⟨_, rfl⟩

theorem g_fin_ok (L n : Nat) {v w : Val} {k a : Bytes} {h : Heap} (ek : bytesOf v h = some k)
    (ea : bytesOf w h = some a) :
    Returns (call package L (n + 4) "GOST34122015Magma._cipher_g_fin" [v, w] h) h (Magma.gFin k a) := by
  rw [call_succ Fn.GOST34122015Magma._cipher_g_fin]
  py [GOST34122015Magma.m__cipher_g_fin]
  have := g_iter_ok L n ek ea
  unfold Magma.gFin
  generalize Magma.gIter k a = res at this
  cases res with
  | ok r =>
    obtain ⟨r0, r1, r2⟩ := r
    obtain ⟨_, _, e1, ⟨l, rfl⟩, v0, v1, v2, rfl, b0, b1, b2⟩ := this
    obtain ⟨m2, l3, e2, hm2, hb2⟩ := (g_iter_result_ok L (n + 2) b0 b2).elim
    py [e1, e2]
    mdl []
    exact .intro (((Ext.refl _).add _).add _) (by simp at hm2; omega) hb2
  | error x =>
    obtain ⟨_, e1, l, rfl⟩ := this
    py [e1]
    mdl []
    exact ⟨_, rfl⟩

/-- The cell `self` is a Magma object with the round keys `ks`, the cell `kr` its list. -/
def Rep (self kr : Nat) (h : Heap) (ks : List Bytes) : Prop :=
  ∃ attrs vs, h[self]? = some (.inst "GOST34122015Magma" attrs) ∧
    findAttr "_cipher_iter_key" attrs = some (.ref kr) ∧ h[kr]? = some (.list vs) ∧ BytesList vs h ks


theorem encrypt_ok (L n : Nat) {self kr : Nat} {h : Heap} {ks : List Bytes} (o : Rep self kr h ks) {v : Val}
    {b : Bytes} (e : bytesOf v h = some b) :
    Returns (call package L (n + 5) "GOST34122015Magma.encrypt" [.ref self, v] h) h
      (Magma.encrypt ks b) := by
  obtain ⟨attrs, vs, o1, o2, o3, o4⟩ := o
  rw [call_succ Fn.GOST34122015Magma.encrypt]
  py [GOST34122015Magma.m_encrypt, o1, o2]
  unfold Magma.encrypt
  rw [getItem_list (get_mono o3 _)]
  rcases o4.get 0 with ⟨w', x, g1, g2, g3⟩ | ⟨g1, g2⟩
  · rw [g1, g2]
    rcases (g_prev_ok L n (bytesOf_mono g3 [Obj.bytearray (List.replicate 8 0)]) (bytesOf_mono e _)).cases with
      ⟨b1, m1, l1, hr1, e1, hm1, hb1⟩ | ⟨x1, l1, hr1, e1⟩
    · py [e1]
      generalize hl : forLoop _ _ _ _ _ = o
      rw [show pyRange 1 31 1 = (List.range' 1 30).map (fun k : Nat => Val.int k) from rfl] at hl
      have := for_foldlM (σ := Bytes) _ hl (fun r (i : Nat) => do Magma.gPrev (← pyGet ks i) r)
        (fun k r env h' => env "self" = some (.ref self) ∧ Ext h h' ∧ ∃ m, env "result" = some (.ref m) ∧
          bytesOf (.ref m) h' = some r) (Ext h) (s := b1)
        (by
          rintro k i acc env h1 hk ⟨i0, ⟨l1, rfl⟩, w, i1, i2⟩
          py [i0, i1, o1, o2]
          rw [getItem_list (get_mono o3 _)]
          rcases o4.get i with ⟨w', x, g1, g2, g3⟩ | ⟨g1, g2⟩
          · rw [g1, g2]
            rcases (g_prev_ok L n (bytesOf_mono g3 _) i2).cases with
              ⟨b1, m1, l1, hr1, e1, hm1, hb1⟩ | ⟨x1, l1, hr1, e1⟩
            · py [i1, e1]
              mdl [hr1]
              refine ⟨_, _, rfl, _, rfl, ?_⟩
              py [i0]
              exact ⟨trivial, by grow, _, rfl, hb1⟩
            · py [i1, e1]
              mdl [hr1]
              exact ⟨_, rfl, by grow⟩
          · rw [g1, g2]
            py []
            exact ⟨_, rfl, _, rfl⟩)
        (by py []; exact ⟨trivial, by grow, _, rfl, hb1⟩)
      rw [ok_bind, hr1, ok_bind]
      generalize List.foldlM (m := Res) _ _ _ = res at this ⊢
      cases res with
      | error x =>
        obtain ⟨_, rfl, l, rfl⟩ := this
        py []
        mdl []
        exact ⟨_, rfl⟩
      | ok r =>
        obtain ⟨_, _, rfl, env, rfl, i0, ⟨l, rfl⟩, m, i1, i2⟩ := this
        py [i0, i1, o1, o2]
        rw [ok_bind]
        rw [getItem_list (get_mono o3 _)]
        rcases o4.get 31 with ⟨w', x, g1, g2, g3⟩ | ⟨g1, g2⟩
        · rw [g1, g2]
          rcases (g_fin_ok L n (bytesOf_mono g3 _) i2).cases with
            ⟨b1, m1, l1, hr1, e1, hm1, hb1⟩ | ⟨x1, l1, hr1, e1⟩
          · py [i1, e1]
            mdl [hr1]
            exact .intro (by grow) (by rw [List.length_append] at hm1; omega) hb1
          · py [i1, e1]
            mdl [hr1]
            exact ⟨_, by rw [List.append_assoc]⟩
        · rw [g1, g2]
          py []
          exact ⟨_, rfl⟩
    · py [e1]
      mdl [hr1]
      exact ⟨_, by rw [List.append_assoc]⟩
  · rw [g1, g2]
    py []
    exact ⟨_, rfl⟩

theorem decrypt_ok (L n : Nat) {self kr : Nat} {h : Heap} {ks : List Bytes} (o : Rep self kr h ks) {v : Val}
    {b : Bytes} (e : bytesOf v h = some b) :
    Returns (call package L (n + 5) "GOST34122015Magma.decrypt" [.ref self, v] h) h
      (Magma.decrypt ks b) := by
  obtain ⟨attrs, vs, o1, o2, o3, o4⟩ := o
  rw [call_succ Fn.GOST34122015Magma.decrypt]
  py [GOST34122015Magma.m_decrypt, o1, o2, show ((-1 : Int) = 0) = False by decide]
  unfold Magma.decrypt
  rw [getItem_list (get_mono o3 _)]
  rcases o4.get 31 with ⟨w', x, g1, g2, g3⟩ | ⟨g1, g2⟩
  · rw [g1, g2]
    rcases (g_prev_ok L n (bytesOf_mono g3 [Obj.bytearray (List.replicate 8 0)]) (bytesOf_mono e _)).cases with
      ⟨b1, m1, l1, hr1, e1, hm1, hb1⟩ | ⟨x1, l1, hr1, e1⟩
    · py [e1]
      generalize hl : forLoop _ _ _ _ _ = o
      rw [show pyRange 30 0 (-1) = ((List.range' 1 30).reverse).map (fun k : Nat => Val.int k) from rfl] at hl
      have := for_foldlM (σ := Bytes) _ hl (fun r (i : Nat) => do Magma.gPrev (← pyGet ks i) r)
        (fun k r env h' => env "self" = some (.ref self) ∧ Ext h h' ∧ ∃ m, env "result" = some (.ref m) ∧
          bytesOf (.ref m) h' = some r) (Ext h) (s := b1)
        (by
          rintro k i acc env h1 hk ⟨i0, ⟨l1, rfl⟩, w, i1, i2⟩
          py [i0, i1, o1, o2]
          rw [getItem_list (get_mono o3 _)]
          rcases o4.get i with ⟨w', x, g1, g2, g3⟩ | ⟨g1, g2⟩
          · rw [g1, g2]
            rcases (g_prev_ok L n (bytesOf_mono g3 _) i2).cases with
              ⟨b1, m1, l1, hr1, e1, hm1, hb1⟩ | ⟨x1, l1, hr1, e1⟩
            · py [i1, e1]
              mdl [hr1]
              refine ⟨_, _, rfl, _, rfl, ?_⟩
              py [i0]
              exact ⟨trivial, by grow, _, rfl, hb1⟩
            · py [i1, e1]
              mdl [hr1]
              exact ⟨_, rfl, by grow⟩
          · rw [g1, g2]
            py []
            exact ⟨_, rfl, _, rfl⟩)
        (by py []; exact ⟨trivial, by grow, _, rfl, hb1⟩)
      rw [ok_bind, hr1, ok_bind]
      generalize List.foldlM (m := Res) _ _ _ = res at this ⊢
      cases res with
      | error x =>
        obtain ⟨_, rfl, l, rfl⟩ := this
        py []
        mdl []
        exact ⟨_, rfl⟩
      | ok r =>
        obtain ⟨_, _, rfl, env, rfl, i0, ⟨l, rfl⟩, m, i1, i2⟩ := this
        py [i0, i1, o1, o2]
        rw [ok_bind]
        rw [getItem_list (get_mono o3 _)]
        rcases o4.get 0 with ⟨w', x, g1, g2, g3⟩ | ⟨g1, g2⟩
        · rw [g1, g2]
          rcases (g_fin_ok L n (bytesOf_mono g3 _) i2).cases with
            ⟨b1, m1, l1, hr1, e1, hm1, hb1⟩ | ⟨x1, l1, hr1, e1⟩
          · py [i1, e1]
            mdl [hr1]
            exact .intro (by grow) (by rw [List.length_append] at hm1; omega) hb1
          · py [i1, e1]
            mdl [hr1]
            exact ⟨_, by rw [List.append_assoc]⟩
        · rw [g1, g2]
          py []
          exact ⟨_, rfl⟩
    · py [e1]
      mdl [hr1]
      exact ⟨_, by rw [List.append_assoc]⟩
  · rw [g1, g2]
    py []
    exact ⟨_, rfl⟩

theorem block_size_ok (L n : Nat) (v : Val) (h : Heap) :
    call package L (n + 1) "GOST34122015Magma.block_size" [v] h = ok (.int 8) h := by
  rw [call_succ Fn.GOST34122015Magma.block_size]
  py [GOST34122015Magma.m_block_size]

theorem key_size_ok (L n : Nat) (v : Val) (h : Heap) :
    call package L (n + 1) "GOST34122015Magma.key_size" [v] h = ok (.int 32) h := by
  rw [call_succ Fn.GOST34122015Magma.key_size]
  py [GOST34122015Magma.m_key_size]

theorem clear_ok (L n : Nat) {self kr : Nat} {h : Heap} {ks : List Bytes} (o : Rep self kr h ks)
    (hk : ks.length = 32) :
    ∃ v h', call package L (n + 2) "GOST34122015Magma.clear" [.ref self] h = ok v h' ∧
      Frame [kr] h h' ∧ Rep self kr h' (Magma.clear ks) ∧
      ∃ vs', h'[kr]? = some (.list vs') ∧ ∀ r, Val.ref r ∈ vs' → h.length ≤ r := by
  obtain ⟨attrs, vs, o1, o2, o3, o4⟩ := o
  have hne : self ≠ kr := ne_of_get o1 o3 (by simp)
  rw [call_succ Fn.GOST34122015Magma.clear]
  py [GOST34122015Magma.m_clear]
  generalize hl : forLoop _ _ _ _ _ = o
  obtain ⟨env, h', rfl, i0, i1, vs', i2, i3, i4⟩ := for_range (n := 32) hl (fun k env h' =>
    env "self" = some (.ref self) ∧ Frame [kr] h h' ∧ ∃ vs', h'[kr]? = some (.list vs') ∧
      BytesList vs' h' ((ks.take k).map zeroFill ++ ks.drop k) ∧
      ∀ j r, j < k → vs'[j]? = some (.ref r) → h.length ≤ r)
    (by
      rintro k env h1 hk' ⟨i0, i1, vs', i2, i3, i4⟩
      have hself : h1[self]? = some (.inst "GOST34122015Magma" attrs) :=
        i1.get o1 (by simpa using hne)
      have hlen : k < ((ks.take k).map zeroFill ++ ks.drop k).length := by simp; omega
      obtain ⟨w, hw, hb⟩ := i3.getNat hlen
      have hx : ((ks.take k).map zeroFill ++ ks.drop k)[k] = ks[k] := by
        rw [List.getElem_append_right (by simp; omega)]
        simp [Nat.min_eq_left (show k ≤ ks.length by omega)]
      rw [hx] at hb
      obtain ⟨m, l, e1, hm, hb1⟩ := (zero_fill_ok L n hb).elim
      refine ⟨_, _, by
        py [i0, hself, o2, getItem_listNat i2 hw, e1,
          setItem_list (get_mono i2 l) (show k < vs'.length by rw [i3.length]; exact hlen)]
        rfl, by py [i0], (i1.add l).set (by simp) _, _, get_set_same _ (by py [i2]), ?_, ?_⟩
      · rw [← take_map_set zeroFill (by omega)]
        exact ((i3.mono l).setAt k hb1).set (by py [i2]) (by py [])
      · intro j r hj hr
        by_cases hjk : k = j
        · subst hjk
          rw [List.getElem?_set_self (by rw [i3.length]; exact hlen)] at hr
          cases hr
          exact Nat.le_trans i1.1 hm
        · rw [List.getElem?_set_ne hjk] at hr
          exact i4 j r (by omega) hr)
    ⟨by py [], .refl _ _, vs, o3, by simpa using o4, by omega⟩
  py []
  rw [List.take_of_length_le (by omega), List.drop_of_length_le (by omega), List.append_nil] at i3
  refine ⟨_, _, rfl, i1, ⟨attrs, vs', i1.get o1 (by simpa using hne), o2, i2, i3⟩, vs', i2, ?_⟩
  intro r hr
  obtain ⟨j, hj⟩ := List.getElem?_of_mem hr
  refine i4 j r ?_ hj
  have := i3.length
  simp at this
  have := (List.getElem?_eq_some_iff.mp hj).1
  omega

/-- `_expand_iter_key`: eight more keys in the list. -/
theorem expand_ok (L n : Nat) {self kr : Nat} {h : Heap} {A : List (String × Val)} {ws : List Val}
    {ks : List Bytes} {v : Val} {key : Bytes} (o1 : h[self]? = some (.inst "GOST34122015Magma" A))
    (o2 : findAttr "_cipher_iter_key" A = some (.ref kr)) (o3 : h[kr]? = some (.list ws))
    (o4 : BytesList ws h ks) (e : bytesOf v h = some key) :
    Agree (call package L (n + 2) "GOST34122015Magma._expand_iter_key" [.ref self, v] h) (Magma.expand key)
      (fun r _ h' => Frame [kr] h h' ∧ ∃ ws', h'[kr]? = some (.list ws') ∧ BytesList ws' h' (ks ++ r))
      (Frame [kr] h) := by
  have hne : self ≠ kr := ne_of_get o1 o3 (by simp)
  have hv : Apart [kr] v := apart_of_noBytes e (by py [List.mem_singleton, forall_eq, o3])
  rw [call_succ Fn.GOST34122015Magma._expand_iter_key]
  py [GOST34122015Magma.m__expand_iter_key]
  rw [show pyRange 0 8 1 = (List.range 8).map (fun k : Nat => Val.int k) from pyRange_up 8]
  generalize hl : forLoop _ _ _ _ _ = o
  have := for_foldlM (σ := List Bytes) _ hl (fun acc j => do
      let y ← Magma.keyWord key (j * 4); pure (acc ++ [y]))
    (fun k acc env h' => env "self" = some (.ref self) ∧ env "key" = some v ∧ Frame [kr] h h' ∧
      (0 < k → ∃ m x, env "iter_key" = some (.ref m) ∧ bytesOf (.ref m) h' = some x) ∧
      ∃ ws', h'[kr]? = some (.list ws') ∧ BytesList ws' h' (ks ++ acc)) (Frame [kr] h) (s := [])
    (by
      rintro k j acc env h1 hk ⟨i1, i2, f, -, ws', i3, i4⟩
      have hj : j < 8 := by
        have := List.mem_of_getElem? hk
        simpa using this
      have hself : h1[self]? = some (.inst "GOST34122015Magma" A) := f.get o1 (by simpa using hne)
      have hkey := f.bytesOf e hv
      py []
      generalize hl : forLoop _ _ _ _ _ = o
      have := fill_range (n := 4) hl (fun i => pyGet key ((j * 4 + i : Nat) : Int))
        (fun _ env => env "self" = some (.ref self) ∧ env "key" = some v ∧ env "j" = some (.int j) ∧
          env "iter_key" = some (.ref h1.length))
        (by
          rintro acc env hk ⟨i1, i2, i3, i4⟩
          have hoff : ((j : Int) * 4 + (acc.length : Int)) = ((j * 4 + acc.length : Nat) : Int) := by omega
          rcases getItem_cases (v := v) (h := h1 ++ [.bytearray (partly 4 acc)]) (b := key) (by py [hkey])
            (j * 4 + acc.length : Nat) with ⟨x, hx, hg⟩ | ⟨hx, hg⟩
          · rw [hx]
            py [i1, i2, i3, i4, hoff, hg, setItem_partly hk]
            exact ⟨_, _, rfl, _, rfl, by py [i1, i2, i3, i4]; exact ⟨trivial, trivial, trivial, trivial⟩, rfl⟩
          · rw [hx]
            py [i1, i2, i3, i4, hoff, hg]
            exact ⟨_, rfl, _, rfl⟩)
        (by py [i1, i2]; exact ⟨trivial, trivial, trivial, trivial⟩)
      unfold Magma.keyWord
      generalize List.mapM (m := Res) _ _ = res at this ⊢
      cases res with
      | error x =>
        obtain ⟨_, rfl, l, rfl⟩ := this
        py []
        mdl []
        exact ⟨_, rfl, f.add _⟩
      | ok r =>
        obtain ⟨_, _, rfl, env', rfl, ⟨i1, i2, -, i5⟩, i6, rfl⟩ := this
        py [i1, i5, hself, o2, i3]
        mdl []
        refine ⟨_, _, rfl, _, rfl, i1, i2, (f.add _).set (by simp) _, fun _ => ⟨_, r, i5, ?_⟩, _,
          get_set_same _ (by py [i3]), ?_⟩
        · rw [bytesOf_set _ (by py [i3]) (by py [])]
          exact bytesOf_last _ _
        · rw [← List.append_assoc]
          exact ((i4.mono _).snoc (bytesOf_last _ _)).set (by py [i3]) (by py []))
    (by py []; exact ⟨trivial, trivial, (Frame.refl _ _).add _, by omega, _, get_mono o3 _, by simpa using o4.mono _⟩)
  rw [← mapM_eq_foldlM] at this
  unfold Magma.expand
  generalize List.mapM (m := Res) _ _ = res at this ⊢
  cases res with
  | error x =>
    obtain ⟨_, rfl, f⟩ := this
    py []
    exact ⟨_, rfl, f⟩
  | ok r =>
    obtain ⟨_, h2, rfl, env, rfl, i1, i2, f, i5, ws', i3, i4⟩ := this
    obtain ⟨m, x, i6, i7⟩ := i5 (by simp)
    obtain ⟨m1, l1, e1, -, -⟩ := (zero_fill_ok L n i7).elim
    obtain ⟨m2, l2, e2, -, -⟩ := (zero_fill_ok L n (bytesOf_mono (f.bytesOf e hv) l1)).elim
    py [i2, i6, e1, e2]
    exact ⟨_, _, rfl, (f.add _).add _, ws', get_mono (get_mono i3 _) _, (i4.mono _).mono _⟩

/-- `_expand_iter_key_final`: eight more keys in the list. -/
theorem expandFinal_ok (L n : Nat) {self kr : Nat} {h : Heap} {A : List (String × Val)} {ws : List Val}
    {ks : List Bytes} {v : Val} {key : Bytes} (o1 : h[self]? = some (.inst "GOST34122015Magma" A))
    (o2 : findAttr "_cipher_iter_key" A = some (.ref kr)) (o3 : h[kr]? = some (.list ws))
    (o4 : BytesList ws h ks) (e : bytesOf v h = some key) :
    Agree (call package L (n + 2) "GOST34122015Magma._expand_iter_key_final" [.ref self, v] h) (Magma.expandFinal key)
      (fun r _ h' => Frame [kr] h h' ∧ ∃ ws', h'[kr]? = some (.list ws') ∧ BytesList ws' h' (ks ++ r))
      (Frame [kr] h) := by
  have hne : self ≠ kr := ne_of_get o1 o3 (by simp)
  have hv : Apart [kr] v := apart_of_noBytes e (by py [List.mem_singleton, forall_eq, o3])
  rw [call_succ Fn.GOST34122015Magma._expand_iter_key_final]
  py [GOST34122015Magma.m__expand_iter_key_final]
  rw [show pyRange 0 8 1 = (List.range 8).map (fun k : Nat => Val.int k) from pyRange_up 8]
  generalize hl : forLoop _ _ _ _ _ = o
  have := for_foldlM (σ := List Bytes) _ hl (fun acc j => do
      let y ← Magma.keyWord key (28 - j * 4); pure (acc ++ [y]))
    (fun k acc env h' => env "self" = some (.ref self) ∧ env "key" = some v ∧ Frame [kr] h h' ∧
      (0 < k → ∃ m x, env "iter_key" = some (.ref m) ∧ bytesOf (.ref m) h' = some x) ∧
      ∃ ws', h'[kr]? = some (.list ws') ∧ BytesList ws' h' (ks ++ acc)) (Frame [kr] h) (s := [])
    (by
      rintro k j acc env h1 hk ⟨i1, i2, f, -, ws', i3, i4⟩
      have hj : j < 8 := by
        have := List.mem_of_getElem? hk
        simpa using this
      have hself : h1[self]? = some (.inst "GOST34122015Magma" A) := f.get o1 (by simpa using hne)
      have hkey := f.bytesOf e hv
      py []
      generalize hl : forLoop _ _ _ _ _ = o
      have := fill_range (n := 4) hl (fun i => pyGet key ((28 - j * 4 + i : Nat) : Int))
        (fun _ env => env "self" = some (.ref self) ∧ env "key" = some v ∧ env "j" = some (.int j) ∧
          env "iter_key" = some (.ref h1.length))
        (by
          rintro acc env hk ⟨i1, i2, i3, i4⟩
          have hoff : (28 - (j : Int) * 4 + (acc.length : Int)) = ((28 - j * 4 + acc.length : Nat) : Int) := by omega
          rcases getItem_cases (v := v) (h := h1 ++ [.bytearray (partly 4 acc)]) (b := key) (by py [hkey])
            (28 - j * 4 + acc.length : Nat) with ⟨x, hx, hg⟩ | ⟨hx, hg⟩
          · rw [hx]
            py [i1, i2, i3, i4, hoff, hg, setItem_partly hk]
            exact ⟨_, _, rfl, _, rfl, by py [i1, i2, i3, i4]; exact ⟨trivial, trivial, trivial, trivial⟩, rfl⟩
          · rw [hx]
            py [i1, i2, i3, i4, hoff, hg]
            exact ⟨_, rfl, _, rfl⟩)
        (by py [i1, i2]; exact ⟨trivial, trivial, trivial, trivial⟩)
      unfold Magma.keyWord
      generalize List.mapM (m := Res) _ _ = res at this ⊢
      cases res with
      | error x =>
        obtain ⟨_, rfl, l, rfl⟩ := this
        py []
        mdl []
        exact ⟨_, rfl, f.add _⟩
      | ok r =>
        obtain ⟨_, _, rfl, env', rfl, ⟨i1, i2, -, i5⟩, i6, rfl⟩ := this
        py [i1, i5, hself, o2, i3]
        mdl []
        refine ⟨_, _, rfl, _, rfl, i1, i2, (f.add _).set (by simp) _, fun _ => ⟨_, r, i5, ?_⟩, _,
          get_set_same _ (by py [i3]), ?_⟩
        · rw [bytesOf_set _ (by py [i3]) (by py [])]
          exact bytesOf_last _ _
        · rw [← List.append_assoc]
          exact ((i4.mono _).snoc (bytesOf_last _ _)).set (by py [i3]) (by py []))
    (by py []; exact ⟨trivial, trivial, .refl _ _, by omega, _, o3, by simpa using o4⟩)
  rw [← mapM_eq_foldlM] at this
  unfold Magma.expandFinal
  generalize List.mapM (m := Res) _ _ = res at this ⊢
  cases res with
  | error x =>
    obtain ⟨_, rfl, f⟩ := this
    py []
    exact ⟨_, rfl, f⟩
  | ok r =>
    obtain ⟨_, h2, rfl, env, rfl, i1, i2, f, i5, ws', i3, i4⟩ := this
    obtain ⟨m, x, i6, i7⟩ := i5 (by simp)
    obtain ⟨m1, l1, e1, -, -⟩ := (zero_fill_ok L n i7).elim
    obtain ⟨m2, l2, e2, -, -⟩ := (zero_fill_ok L n (bytesOf_mono (f.bytesOf e hv) l1)).elim
    py [i2, i6, e1, e2]
    exact ⟨_, _, rfl, (f.add _).add _, ws', get_mono (get_mono i3 _) _, (i4.mono _).mono _⟩

/-- The object with all its attributes: the object identifier, the round keys. -/
def Full (self kr : Nat) (h : Heap) : Prop :=
  ∃ o, h[self]? = some (.inst "GOST34122015Magma" [("oid", .ref o), ("_cipher_iter_key", .ref kr)]) ∧
    h[o]? = some (.inst "ObjectIdentifier" [("_oid_str", .str "1.2.643.7.1.1.5.1")])

/-- The constructor. -/
theorem init_ok (L n : Nat) {self : Nat} {h : Heap} {v : Val} {key : Bytes}
    (o : h[self]? = some (.inst "GOST34122015Magma" [])) (e : bytesOf v h = some key) :
    Agree (call package L (n + 3) "GOST34122015Magma.__init__" [.ref self, v] h) (Magma.init key)
      (fun ks _ h' => Frame [self] h h' ∧ ∃ kr, h.length ≤ kr ∧ Rep self kr h' ks ∧ Full self kr h') (Frame [self] h) := by
  have hself : self < h.length := get_lt o
  rw [call_succ Fn.GOST34122015Magma.__init__]
  py [GOST34122015Magma.m___init__, o]
  generalize hK : (List.set (h ++ [Obj.inst "ObjectIdentifier" [("_oid_str", Val.str "1.2.643.7.1.1.5.1")]]) self
    (Obj.inst "GOST34122015Magma" [("oid", Val.ref (List.length h))])).length = kr
  have hlen : kr = h.length + 1 := by rw [← hK]; simp
  generalize hA : [("oid", Val.ref h.length), ("_cipher_iter_key", Val.ref kr)] = A
  generalize hH : List.set (_ ++ [Obj.list []]) self _ = H
  have f0 : Frame [self] h H := by
    subst hH
    exact ((((Frame.refl _ _).add _).set (by simp) _).add _).set (by simp) _
  have hk : H[kr]? = some (.list []) := by
    subst hH
    rw [get_set_other _ (by omega), ← hK, get_last]
  have ho : H[self]? = some (.inst "GOST34122015Magma" A) := by
    subst hH
    exact get_set_same _ (by py [o])
  have hA' : findAttr "_cipher_iter_key" A = some (.ref kr) := by subst hA; py []
  have he : bytesOf v H = some key := by
    subst hH
    py [o, e]
  have hq : H[h.length]? = some (.inst "ObjectIdentifier" [("_oid_str", .str "1.2.643.7.1.1.5.1")]) := by
    subst hH
    rw [get_set_other _ (by omega), List.getElem?_append_left (by simp), get_set_other _ (by omega), get_last]
  clear hH hK
  have hne : self ≠ kr := by omega
  have step : ∀ {h1 : Heap} {ws : List Val} {ks : List Bytes}, Frame [kr] H h1 → h1[kr]? = some (.list ws) →
      BytesList ws h1 ks → h1[self]? = some (.inst "GOST34122015Magma" A) ∧ bytesOf v h1 = some key ∧
      Frame [self] h h1 := fun f1 hw _ =>
    ⟨f1.get ho (by simpa using hne), f1.bytesOf he (apart_of_noBytes he (by py [List.mem_singleton, forall_eq, hk])),
      f0.then f1 (by simp; omega)⟩
  have fin : ∀ {h1 h2 : Heap}, Frame [kr] H h1 → Frame [kr] h1 h2 → Frame [self] h h2 := fun f1 f2 =>
    f0.then (f1.trans f2) (by simp; omega)
  unfold Magma.init
  have s1 := expand_ok L n ho hA' hk (BytesList.nil _) he
  cases hr : Magma.expand key with
  | error x =>
    rw [hr] at s1
    obtain ⟨_, e1, f1⟩ := s1
    py [e1]
    mdl []
    exact ⟨_, rfl, fin (.refl _ _) f1⟩
  | ok ks =>
    rw [hr] at s1
    obtain ⟨_, h1, e1, f1, ws1, hk1, b1⟩ := s1
    obtain ⟨ho1, he1, -⟩ := step f1 hk1 b1
    have s2 := expand_ok L n ho1 hA' hk1 b1 he1
    rw [hr] at s2
    obtain ⟨_, h2, e2, f2, ws2, hk2, b2⟩ := s2
    have f2 := f1.trans f2
    obtain ⟨ho2, he2, -⟩ := step f2 hk2 b2
    have s3 := expand_ok L n ho2 hA' hk2 b2 he2
    rw [hr] at s3
    obtain ⟨_, h3, e3, f3, ws3, hk3, b3⟩ := s3
    have f3 := f2.trans f3
    obtain ⟨ho3, he3, -⟩ := step f3 hk3 b3
    have s4 := expandFinal_ok L n ho3 hA' hk3 b3 he3
    cases hr4 : Magma.expandFinal key with
    | error x =>
      rw [hr4] at s4
      obtain ⟨_, e4, f4⟩ := s4
      py [e1, e2, e3, e4, ho1, ho2, ho3]
      mdl []
      exact ⟨_, rfl, fin f3 f4⟩
    | ok ls =>
      rw [hr4] at s4
      obtain ⟨_, h4, e4, f4, ws4, hk4, b4⟩ := s4
      obtain ⟨ho4, he4, f5⟩ := step (f3.trans f4) hk4 b4
      obtain ⟨m, l, e5, -, -⟩ := (zero_fill_ok L (n + 1) he4).elim
      py [e1, e2, e3, e4, e5, ho1, ho2, ho3]
      mdl []
      refine ⟨_, _, rfl, f5.add _, kr, by omega, ⟨A, ws4, get_mono ho4 _, hA', get_mono hk4 _, ?_⟩, h.length,
        hA ▸ get_mono ho4 _, get_mono ((f3.trans f4).get hq (by simp; omega)) _⟩
      rw [List.nil_append] at b4
      exact b4.mono _

end Magma

end Gost.Src
