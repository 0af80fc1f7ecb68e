import Verif.Model.Streebog
import Verif.Spec.Streebog
import Verif.Proofs.Bytes
import Verif.Proofs.Blocks
import Verif.Proofs.StreebogTables

/-! The compression function of the model against the specification of Streebog. -/

namespace Gost
namespace Hash
open Spec Spec.Streebog

/-! ### Little-endian numbers -/

theorem leBytes_length (n x : Nat) : (leBytes n x).length = n := by
  induction n generalizing x with
  | zero => rfl
  | succ n ih => simp [leBytes, ih]

theorem leBytes_succ (n x : Nat) :
    leBytes (n + 1) x = leBytes n x ++ [UInt8.ofNat (x / 256 ^ n % 256)] := by
  induction n generalizing x with
  | zero => simp [leBytes]
  | succ n ih =>
    rw [leBytes, ih (x / 256), leBytes, List.cons_append, Nat.div_div_eq_div_mul, Nat.pow_succ,
      Nat.mul_comm (256 ^ n) 256]

theorem toBytes8le_eq (x : Nat) : toBytes8le x = leBytes 8 x := by
  simp only [leBytes_succ]
  simp [toBytes8le, List.range_succ, leBytes]

theorem leNat_append (a b : Bytes) : leNat (a ++ b) = leNat a + 256 ^ a.length * leNat b := by
  induction a with
  | nil => simp [leNat]
  | cons x a ih =>
    simp only [List.cons_append, leNat, ih, List.length_cons, Nat.pow_succ]
    rw [Nat.mul_add, ← Nat.mul_assoc, Nat.mul_comm 256 (256 ^ a.length), Nat.add_assoc]

theorem leNat_take_succ (a : Bytes) (n : Nat) (h : n < a.length) :
    leNat (a.take (n + 1)) = leNat (a.take n) + 256 ^ n * (a.getD n 0).toNat := by
  have hx : a.getD n 0 = a[n] := by simp [List.getD, h]
  rw [List.take_succ_eq_append_getElem h, leNat_append, List.length_take_of_le (Nat.le_of_lt h),
    hx]
  simp [leNat]

theorem leNat_zeros (n : Nat) : leNat (List.replicate n 0) = 0 := by
  induction n with
  | zero => rfl
  | succ n ih => simp [List.replicate_succ, leNat, ih]

theorem leBytes_zero (n : Nat) : leBytes n 0 = List.replicate n 0 := by
  induction n with
  | zero => rfl
  | succ n ih => simp [List.replicate_succ, leBytes, ih]

/-- Disjoint addition is exclusive or. -/
theorem add_eq_xor (k a y : Nat) (h : a < 2 ^ k) : a + 2 ^ k * y = a ^^^ (2 ^ k * y) := by
  apply Nat.eq_of_testBit_eq
  intro j
  rw [Nat.add_comm, Nat.testBit_two_pow_mul_add _ h, Nat.testBit_xor, Nat.testBit_two_pow_mul]
  by_cases hj : j < k
  · simp [hj, Nat.not_le_of_lt hj]
  · have h1 : a.testBit j = false :=
      Nat.testBit_lt_two_pow (Nat.lt_of_lt_of_le h (Nat.pow_le_pow_right (by omega) (by omega)))
    simp [hj, h1, Nat.le_of_not_lt hj]

/-! ### 512-bit addition -/

/-- The loop of `_hash_add_512`. -/
def addStep (a b : Bytes) (st : Nat × Bytes) (i : Nat) : Nat × Bytes :=
  let c := (a.getD i 0).toNat + (b.getD i 0).toNat + (st.1 >>> 8)
  (c, st.2 ++ [UInt8.ofNat (c &&& 0xff)])

theorem addLoop (a b : Bytes) (n : Nat) (ha : n ≤ a.length) (hb : n ≤ b.length) :
    ((List.range n).foldl (addStep a b) (0, [])).1 / 256 =
        (leNat (a.take n) + leNat (b.take n)) / 256 ^ n ∧
      ((List.range n).foldl (addStep a b) (0, [])).2 =
        leBytes n (leNat (a.take n) + leNat (b.take n)) := by
  induction n with
  | zero => simp [leBytes, leNat]
  | succ n ih =>
    obtain ⟨h1, h2⟩ := ih (by omega) (by omega)
    rw [List.range_succ, List.foldl_append, List.foldl_cons, List.foldl_nil]
    generalize (List.range n).foldl (addStep a b) (0, []) = st at h1 h2
    rw [leNat_take_succ a n ha, leNat_take_succ b n hb]
    generalize leNat (a.take n) = x at h1 h2 ⊢
    generalize leNat (b.take n) = y at h1 h2 ⊢
    obtain ⟨u, hu⟩ : ∃ u, u = (a.getD n 0).toNat := ⟨_, rfl⟩
    obtain ⟨v, hv⟩ : ∃ v, v = (b.getD n 0).toNat := ⟨_, rfl⟩
    rw [← hu, ← hv]
    have he : x + 256 ^ n * u + (y + 256 ^ n * v) = x + y + 256 ^ n * (u + v) := by
      rw [Nat.mul_add]; omega
    have hd : (x + y + 256 ^ n * (u + v)) / 256 ^ n = st.1 / 256 + (u + v) := by
      rw [Nat.add_mul_div_left _ _ (Nat.pow_pos (by omega)), h1]
    have hm : leBytes n (x + y + 256 ^ n * (u + v)) = leBytes n (x + y) := by
      rw [← leBytes_mod, Nat.add_mul_mod_self_left, leBytes_mod]
    have hand : ∀ c : Nat, c &&& 0xff = c % 256 := fun c => Nat.and_two_pow_sub_one_eq_mod c 8
    have hsh : st.1 >>> 8 = st.1 / 256 := Nat.shiftRight_eq_div_pow st.1 8
    have hc : (addStep a b st n).1 = u + v + st.1 / 256 := by
      simp only [addStep]
      rw [hsh, ← hu, ← hv]
    rw [he]
    refine ⟨?_, ?_⟩
    · rw [hc, Nat.pow_succ, ← Nat.div_div_eq_div_mul, hd, Nat.add_comm]
    · rw [leBytes_succ, hm, hd, ← h2]
      simp only [addStep]
      rw [← hu, ← hv, hand, hsh, Nat.add_comm (st.1 / 256)]

theorem add512_eq (a b : Bytes) (ha : a.length = 64) (hb : b.length = 64) :
    add512 a b = leBytes 64 (leNat a + leNat b) := by
  have := (addLoop a b 64 (by omega) (by omega)).2
  rw [List.take_of_length_le (by omega), List.take_of_length_le (by omega)] at this
  rw [← this]
  rfl

/-! ### LPS -/

theorem lSum_xor (a b n : Nat) : lSum (a ^^^ b) n = lSum a n ^^^ lSum b n := by
  induction n with
  | zero => simp [lSum]
  | succ n ih =>
    simp only [lSum, ih, Nat.testBit_xor]
    generalize A.getD (63 - n) 0 = r
    generalize lSum a n = x
    generalize lSum b n = y
    cases a.testBit n <;> cases b.testBit n <;> simp [Nat.xor_assoc]
    · rw [← Nat.xor_assoc, ← Nat.xor_assoc, Nat.xor_comm x r]
    · rw [← Nat.xor_assoc x r y, Nat.xor_comm x r, Nat.xor_assoc r x y, ← Nat.xor_assoc r r,
        Nat.xor_self, Nat.zero_xor]

theorem l_xor (a b : Nat) : l (a ^^^ b) = l a ^^^ l b := lSum_xor a b 64

theorem tEntry_eq (i : Nat) (hi : i < 8) (b : UInt8) :
    tEntry i b = l ((pi b).toNat * 256 ^ i) := by
  have h := tTable_rows ⟨i, hi⟩
  unfold tEntry
  simp only at h
  rw [h]
  have hb : b.toNat < 256 := UInt8.toNat_lt b
  simp [List.getD, hb]

theorem leNat8 (b0 b1 b2 b3 b4 b5 b6 b7 : UInt8) :
    leNat [b0, b1, b2, b3, b4, b5, b6, b7] =
      b0.toNat * 256 ^ 0 ^^^ b1.toNat * 256 ^ 1 ^^^ b2.toNat * 256 ^ 2 ^^^ b3.toNat * 256 ^ 3 ^^^
      b4.toNat * 256 ^ 4 ^^^ b5.toNat * 256 ^ 5 ^^^ b6.toNat * 256 ^ 6 ^^^ b7.toNat * 256 ^ 7 := by
  have e : ∀ (b : UInt8) (w : Bytes), leNat (b :: w) = b.toNat ^^^ leNat w * 256 := by
    intro b w
    rw [leNat, add_eq_xor 8 _ _ (UInt8.toNat_lt b), Nat.mul_comm]
  have m : ∀ x y k : Nat, (x ^^^ y) * 256 ^ k = x * 256 ^ k ^^^ y * 256 ^ k := by
    intro x y k
    have : 256 ^ k = 2 ^ (8 * k) := by rw [Nat.pow_mul]
    rw [this, ← Nat.shiftLeft_eq, ← Nat.shiftLeft_eq, ← Nat.shiftLeft_eq, Nat.shiftLeft_xor_distrib]
  have m1 : ∀ x y : Nat, (x ^^^ y) * 256 = x * 256 ^^^ y * 256 := fun x y => m x y 1
  have z : leNat [] * 256 = 0 := rfl
  simp only [e, m1, z, Nat.xor_zero, Nat.mul_assoc]
  simp [Nat.xor_assoc]

theorem range64_word : ∀ j : Fin 8, ((List.range 64).drop (8 * j.val)).take 8 =
    [8 * j.val + 0, 8 * j.val + 1, 8 * j.val + 2, 8 * j.val + 3, 8 * j.val + 4, 8 * j.val + 5,
      8 * j.val + 6, 8 * j.val + 7] := by decide

theorem tau_word : ∀ j i : Fin 8, tau (8 * j.val + i.val) = 8 * i.val + j.val := by decide

theorem P_length (a : Bytes) : (P a).length = 64 := by simp [P]

/-- One 64-bit word of `_hash_lps`. -/
theorem lpsWord_eq (d : Bytes) (hd : d.length = 64) (j : Nat) (hj : j < 8) :
    lpsWord d j = l (leNat (((P (S d)).drop (8 * j)).take 8)) := by
  have hr := range64_word ⟨j, hj⟩
  have ht := tau_word ⟨j, hj⟩
  simp only at hr ht
  have hw : ((P (S d)).drop (8 * j)).take 8 =
      [pi (d.getD (0 + j) 0), pi (d.getD (8 + j) 0), pi (d.getD (16 + j) 0), pi (d.getD (24 + j) 0),
        pi (d.getD (32 + j) 0), pi (d.getD (40 + j) 0), pi (d.getD (48 + j) 0),
        pi (d.getD (56 + j) 0)] := by
    have hg : ∀ i : Nat, i < 64 → (S d).getD i 0 = pi (d.getD i 0) := by
      intro i hi
      simp [S, List.getD, hd, hi]
    unfold P
    rw [← List.map_drop, ← List.map_take, hr]
    simp only [List.map_cons, List.map_nil]
    have h0 := ht 0; have h1 := ht 1; have h2 := ht 2; have h3 := ht 3
    have h4 := ht 4; have h5 := ht 5; have h6 := ht 6; have h7 := ht 7
    simp only [Fin.isValue, Fin.val_zero, Fin.val_one, Fin.val_two,
      show ((3 : Fin 8) : Nat) = 3 from rfl, show ((4 : Fin 8) : Nat) = 4 from rfl,
      show ((5 : Fin 8) : Nat) = 5 from rfl, show ((6 : Fin 8) : Nat) = 6 from rfl,
      show ((7 : Fin 8) : Nat) = 7 from rfl] at h0 h1 h2 h3 h4 h5 h6 h7
    rw [h0, h1, h2, h3, h4, h5, h6, h7]
    rw [hg _ (by omega), hg _ (by omega), hg _ (by omega), hg _ (by omega), hg _ (by omega),
      hg _ (by omega), hg _ (by omega), hg _ (by omega)]
  rw [hw, leNat8]
  simp only [l_xor]
  unfold lpsWord
  rw [tEntry_eq 0 (by omega), tEntry_eq 1 (by omega), tEntry_eq 2 (by omega),
    tEntry_eq 3 (by omega), tEntry_eq 4 (by omega), tEntry_eq 5 (by omega),
    tEntry_eq 6 (by omega), tEntry_eq 7 (by omega)]

theorem lps_eq (d : Bytes) (hd : d.length = 64) : lps d = LPS d := by
  unfold lps LPS L blocks
  rw [P_length, List.flatMap_map]
  show (List.range 8).flatMap _ = (List.range 8).flatMap _
  rw [List.flatMap_def, List.flatMap_def]
  congr 1
  apply List.map_congr_left
  intro j hj
  rw [toBytes8le_eq, lpsWord_eq d hd j (List.mem_range.1 hj)]

theorem LPS_length (a : Bytes) : (LPS a).length = 64 := by
  unfold LPS L blocks
  rw [P_length, List.flatMap_map]
  simp [List.range_succ]

theorem lps_length (data : Bytes) : (lps data).length = 64 := by
  simp [lps, toBytes8le, List.range_succ]

/-! ### The compression function -/

theorem xor_eq (a b : Bytes) : Streebog.xor a b = addXor a b := rfl

theorem C_length (i : Nat) : (C i).length = 64 := leBytes_length 64 _

theorem cConst_fin : ∀ i : Fin 12, cConst i = C (i.val + 1) := by decide +kernel

theorem cConst_eq (i : Nat) (hi : i < 12) : cConst i = C (i + 1) := cConst_fin ⟨i, hi⟩

theorem xor_length {a b : Bytes} {n : Nat} (ha : a.length = n) (hb : b.length = n) :
    (addXor a b).length = n := by simp [addXor, ha, hb]

theorem roundKey_length (K : Bytes) (hK : K.length = 64) (n : Nat) :
    (roundKey K n).length = 64 := by
  cases n with
  | zero => exact hK
  | succ n => exact LPS_length _

theorem rounds_length (K m : Bytes) (hm : m.length = 64) (n : Nat) :
    (rounds K m n).length = 64 := by
  cases n with
  | zero => exact hm
  | succ n => exact LPS_length _

def eStep (st : Bytes × Bytes) (i : Nat) : Bytes × Bytes :=
  let internal := lps st.2
  let k := getKey st.1 i
  (k, addXor internal k)

theorem eLoop (K m : Bytes) (hK : K.length = 64) (hm : m.length = 64) (n : Nat) (hn : n ≤ 12) :
    (List.range n).foldl eStep (K, addXor K m) =
      (roundKey K n, addXor (roundKey K n) (rounds K m n)) := by
  induction n with
  | zero => rfl
  | succ n ih =>
    rw [List.range_succ, List.foldl_append, ih (by omega), List.foldl_cons, List.foldl_nil]
    have hk := roundKey_length K hK n
    have hr := rounds_length K m hm n
    have h1 : lps (addXor (roundKey K n) (rounds K m n)) = rounds K m (n + 1) := by
      rw [lps_eq _ (xor_length hk hr)]; rfl
    have h2 : getKey (roundKey K n) n = roundKey K (n + 1) := by
      unfold getKey
      rw [cConst_eq n (by omega), lps_eq _ (xor_length hk (C_length _))]; rfl
    unfold eStep
    simp only [h1, h2]
    rw [addXor_comm]

theorem hashE_eq (K m : Bytes) (hK : K.length = 64) (hm : m.length = 64) :
    hashE K m = E K m := by
  have := eLoop K m hK hm 12 (Nat.le_refl 12)
  have h : hashE K m = ((List.range 12).foldl eStep (K, addXor K m)).2 := rfl
  rw [h, this]
  rfl

theorem E_length (K m : Bytes) (hK : K.length = 64) (hm : m.length = 64) :
    (E K m).length = 64 := xor_length (roundKey_length K hK 12) (rounds_length K m hm 12)

theorem hashG_eq (N : Nat) (h m : Bytes) (hh : h.length = 64) (hm : m.length = 64) :
    hashG h (leBytes 64 N) m = g N h m := by
  have hN := leBytes_length 64 N
  have hk : lps (addXor (leBytes 64 N) h) = LPS (Streebog.xor h (leBytes 64 N)) := by
    rw [lps_eq _ (xor_length hN hh), addXor_comm, xor_eq]
  unfold hashG g
  simp only
  rw [hk, hashE_eq _ _ (LPS_length _) hm]
  rfl

theorem g_length (N : Nat) (h m : Bytes) (hh : h.length = 64) (hm : m.length = 64) :
    (g N h m).length = 64 :=
  xor_length (xor_length (E_length _ _ (LPS_length _) hm) hh) hm

end Hash
end Gost
