import Verif.Proofs.Bytes
import Verif.Model.BlockCipher
import Verif.Spec.Magma

/-! Magma: the model computes the functions of the specification, and decryption inverts
encryption. -/

namespace Gost
open Spec (beNat beBytes)

namespace Magma

/-! ### Four-byte words -/

theorem exists4 (l : Bytes) (h : 4 ≤ l.length) :
    ∃ a b c d r, l = a :: b :: c :: d :: r := by
  rcases l with _ | ⟨a, _ | ⟨b, _ | ⟨c, _ | ⟨d, r⟩⟩⟩⟩
  all_goals first
    | (exfalso; simp at h; done)
    | exact ⟨_, _, _, _, _, rfl⟩

theorem exists4' (l : Bytes) (h : l.length = 4) : ∃ a b c d, l = [a, b, c, d] := by
  obtain ⟨a, b, c, d, r, rfl⟩ := exists4 l (by omega)
  cases r with
  | nil => exact ⟨a, b, c, d, rfl⟩
  | cons => simp at h

theorem beNat4 (a b c d : UInt8) :
    beNat [a, b, c, d] = a.toNat * 16777216 + b.toNat * 65536 + c.toNat * 256 + d.toNat := by
  simp [beNat]; omega

theorem beBytes4 (x : Nat) : beBytes 4 x =
    [UInt8.ofNat (x / 16777216 % 256), UInt8.ofNat (x / 65536 % 256), UInt8.ofNat (x / 256 % 256),
      UInt8.ofNat (x % 256)] := by
  simp [beBytes]

theorem add32_ok (a b : Bytes) (ha : 4 ≤ a.length) (hb : b.length = 4) :
    add32 a b = .ok (beBytes 4 ((beNat b + beNat (a.take 4)) % 2 ^ 32)) := by
  obtain ⟨a0, a1, a2, a3, r, rfl⟩ := exists4 a ha
  obtain ⟨b0, b1, b2, b3, rfl⟩ := exists4' b hb
  have h1 : add32 (a0 :: a1 :: a2 :: a3 :: r) [b0, b1, b2, b3] = .ok [
      UInt8.ofNat ((a0.toNat + b0.toNat + ((a1.toNat + b1.toNat + ((a2.toNat + b2.toNat +
        ((a3.toNat + b3.toNat + (0 >>> 8)) >>> 8)) >>> 8)) >>> 8)) &&& 0xff),
      UInt8.ofNat ((a1.toNat + b1.toNat + ((a2.toNat + b2.toNat +
        ((a3.toNat + b3.toNat + (0 >>> 8)) >>> 8)) >>> 8)) &&& 0xff),
      UInt8.ofNat ((a2.toNat + b2.toNat + ((a3.toNat + b3.toNat + (0 >>> 8)) >>> 8)) &&& 0xff),
      UInt8.ofNat ((a3.toNat + b3.toNat + (0 >>> 8)) &&& 0xff)] := by
    have hr : (List.range 4).reverse = [3, 2, 1, 0] := rfl
    unfold add32
    rw [hr]
    simp [pyGet]
  rw [h1]
  simp only [List.take_succ_cons, List.take_zero]
  rw [beNat4, beNat4]
  simp only [Nat.shiftRight_eq_div_pow,
    show (0xff : Nat) = 2 ^ 8 - 1 from rfl, Nat.and_two_pow_sub_one_eq_mod]
  simp only [Nat.reducePow, Nat.reduceDiv, Nat.add_zero]
  have := a0.toNat_lt; have := a1.toNat_lt; have := a2.toNat_lt; have := a3.toNat_lt
  have := b0.toNat_lt; have := b1.toNat_lt; have := b2.toNat_lt; have := b3.toNat_lt
  generalize hc3 : a3.toNat + b3.toNat = c3
  generalize hq3 : c3 / 256 = q3
  generalize hc2 : a2.toNat + b2.toNat + q3 = c2
  generalize hq2 : c2 / 256 = q2
  generalize hc1 : a1.toNat + b1.toNat + q2 = c1
  generalize hq1 : c1 / 256 = q1
  generalize hc0 : a0.toNat + b0.toNat + q1 = c0
  have e : (b0.toNat * 16777216 + b1.toNat * 65536 + b2.toNat * 256 + b3.toNat +
      (a0.toNat * 16777216 + a1.toNat * 65536 + a2.toNat * 256 + a3.toNat)) % 4294967296 =
      c0 % 256 * 16777216 + c1 % 256 * 65536 + c2 % 256 * 256 + c3 % 256 := by
    have e3 : c3 = 256 * q3 + c3 % 256 := by omega
    have e2 : c2 = 256 * q2 + c2 % 256 := by omega
    have e1 : c1 = 256 * q1 + c1 % 256 := by omega
    have e0 : c0 = 256 * (c0 / 256) + c0 % 256 := by omega
    generalize c0 / 256 = q0 at *
    have l3 : c3 % 256 < 256 := Nat.mod_lt _ (by decide)
    have l2 : c2 % 256 < 256 := Nat.mod_lt _ (by decide)
    have l1 : c1 % 256 < 256 := Nat.mod_lt _ (by decide)
    have l0 : c0 % 256 < 256 := Nat.mod_lt _ (by decide)
    generalize c3 % 256 = r3 at *
    generalize c2 % 256 = r2 at *
    generalize c1 % 256 = r1 at *
    generalize c0 % 256 = r0 at *
    have tot : b0.toNat * 16777216 + b1.toNat * 65536 + b2.toNat * 256 + b3.toNat +
      (a0.toNat * 16777216 + a1.toNat * 65536 + a2.toNat * 256 + a3.toNat) =
      4294967296 * q0 + (r0 * 16777216 + r1 * 65536 + r2 * 256 + r3) := by omega
    rw [tot, Nat.mul_add_mod, Nat.mod_eq_of_lt]
    omega
  rw [e, beBytes4]
  have l3 : c3 % 256 < 256 := Nat.mod_lt _ (by decide)
  have l2 : c2 % 256 < 256 := Nat.mod_lt _ (by decide)
  have l1 : c1 % 256 < 256 := Nat.mod_lt _ (by decide)
  have l0 : c0 % 256 < 256 := Nat.mod_lt _ (by decide)
  clear e hc0 hq1 hc1 hq2 hc2 hq3 hc3
  generalize c3 % 256 = r3 at *
  generalize c2 % 256 = r2 at *
  generalize c1 % 256 = r1 at *
  generalize c0 % 256 = r0 at *
  congr 2
  · congr 1; omega
  congr 1
  · congr 1; omega
  congr 1
  · congr 1; omega
  congr 1
  congr 1; omega

/-! ### The S-boxes -/

theorem sbox_eq : sbox = Spec.Magma.pi := by
  funext i x
  unfold sbox Spec.Magma.pi
  rw [show sBoxMagma = Spec.Magma.piTables from by decide +kernel]

theorem pi_lt_fin : ∀ i : Fin 8, ∀ x : Fin 16, Spec.Magma.pi i x < 16 := by decide +kernel

theorem pi_lt (i x : Nat) (hi : i < 8) (hx : x < 16) : Spec.Magma.pi i x < 16 :=
  pi_lt_fin ⟨i, hi⟩ ⟨x, hx⟩

theorem tSum_lt (a n : Nat) (hn : n ≤ 8) : Spec.Magma.tSum a n < 16 ^ n := by
  induction n with
  | zero => simp [Spec.Magma.tSum]
  | succ n ih =>
    have h1 := ih (by omega)
    have h2 := pi_lt n (a / 16 ^ n % 16) (by omega) (Nat.mod_lt _ (by decide))
    unfold Spec.Magma.tSum
    generalize Spec.Magma.pi n (a / 16 ^ n % 16) = q at *
    rw [Nat.pow_succ]
    have : q * 16 ^ n ≤ 15 * 16 ^ n := Nat.mul_le_mul_right _ (by omega)
    omega

theorem t_lt (a : Nat) : Spec.Magma.t a < 2 ^ 32 := tSum_lt a 8 (Nat.le_refl 8)

theorem nib_or (hi lo : Nat) (hlo : lo < 16) : (hi <<< 4) ||| lo = hi * 16 + lo := by
  rw [← Nat.shiftLeft_add_eq_or_of_lt (show lo < 2 ^ 4 by simpa using hlo), Nat.shiftLeft_eq]

theorem and_0f (n : Nat) : n &&& 0x0f = n % 16 := Nat.and_two_pow_sub_one_eq_mod n 4

theorem and_f0_fin : ∀ n : Fin 256, (n.val &&& 0xf0) >>> 4 = n.val / 16 := by decide +kernel

theorem and_f0 (b : UInt8) : (b.toNat &&& 0xf0) >>> 4 = b.toNat / 16 :=
  and_f0_fin ⟨b.toNat, b.toNat_lt⟩

theorem cipherT_ok (d : Bytes) (h : d.length = 4) :
    cipherT d = .ok (beBytes 4 (Spec.Magma.t (beNat d))) := by
  obtain ⟨b0, b1, b2, b3, rfl⟩ := exists4' d h
  have h1 : cipherT [b0, b1, b2, b3] = .ok [
      UInt8.ofNat ((sbox 7 ((b0.toNat &&& 0xf0) >>> 4) <<< 4) ||| sbox 6 (b0.toNat &&& 0x0f)),
      UInt8.ofNat ((sbox 5 ((b1.toNat &&& 0xf0) >>> 4) <<< 4) ||| sbox 4 (b1.toNat &&& 0x0f)),
      UInt8.ofNat ((sbox 3 ((b2.toNat &&& 0xf0) >>> 4) <<< 4) ||| sbox 2 (b2.toNat &&& 0x0f)),
      UInt8.ofNat ((sbox 1 ((b3.toNat &&& 0xf0) >>> 4) <<< 4) ||| sbox 0 (b3.toNat &&& 0x0f))] := by
    have hr : List.range 4 = [0, 1, 2, 3] := rfl
    unfold cipherT
    rw [hr]
    generalize sbox = s
    simp [pyGet]
  rw [h1, sbox_eq]
  simp only [and_f0, and_0f]
  have hb0 := b0.toNat_lt; have hb1 := b1.toNat_lt; have hb2 := b2.toNat_lt; have hb3 := b3.toNat_lt
  rw [nib_or _ _ (pi_lt 6 _ (by decide) (by omega)), nib_or _ _ (pi_lt 4 _ (by decide) (by omega)),
    nib_or _ _ (pi_lt 2 _ (by decide) (by omega)), nib_or _ _ (pi_lt 0 _ (by decide) (by omega))]
  have e : Spec.Magma.t (beNat [b0, b1, b2, b3]) =
      Spec.Magma.pi 0 (b3.toNat % 16) + Spec.Magma.pi 1 (b3.toNat / 16) * 16
      + Spec.Magma.pi 2 (b2.toNat % 16) * 256 + Spec.Magma.pi 3 (b2.toNat / 16) * 4096
      + Spec.Magma.pi 4 (b1.toNat % 16) * 65536 + Spec.Magma.pi 5 (b1.toNat / 16) * 1048576
      + Spec.Magma.pi 6 (b0.toNat % 16) * 16777216 + Spec.Magma.pi 7 (b0.toNat / 16) * 268435456 := by
    unfold Spec.Magma.t
    rw [beNat4]
    simp only [Spec.Magma.tSum]
    generalize hN : b0.toNat * 16777216 + b1.toNat * 65536 + b2.toNat * 256 + b3.toNat = N
    have e0 : N / 16 ^ 0 % 16 = b3.toNat % 16 := by omega
    have e1 : N / 16 ^ 1 % 16 = b3.toNat / 16 := by omega
    have e2 : N / 16 ^ 2 % 16 = b2.toNat % 16 := by omega
    have e3 : N / 16 ^ 3 % 16 = b2.toNat / 16 := by omega
    have e4 : N / 16 ^ 4 % 16 = b1.toNat % 16 := by omega
    have e5 : N / 16 ^ 5 % 16 = b1.toNat / 16 := by omega
    have e6 : N / 16 ^ 6 % 16 = b0.toNat % 16 := by omega
    have e7 : N / 16 ^ 7 % 16 = b0.toNat / 16 := by omega
    rw [e0, e1, e2, e3, e4, e5, e6, e7]
    clear e0 e1 e2 e3 e4 e5 e6 e7 hN
    generalize Spec.Magma.pi 0 (b3.toNat % 16) = q0
    generalize Spec.Magma.pi 1 (b3.toNat / 16) = q1
    generalize Spec.Magma.pi 2 (b2.toNat % 16) = q2
    generalize Spec.Magma.pi 3 (b2.toNat / 16) = q3
    generalize Spec.Magma.pi 4 (b1.toNat % 16) = q4
    generalize Spec.Magma.pi 5 (b1.toNat / 16) = q5
    generalize Spec.Magma.pi 6 (b0.toNat % 16) = q6
    generalize Spec.Magma.pi 7 (b0.toNat / 16) = q7
    omega
  rw [e, beBytes4]
  have p0 := pi_lt 0 (b3.toNat % 16) (by decide) (by omega)
  have p1 := pi_lt 1 (b3.toNat / 16) (by decide) (by omega)
  have p2 := pi_lt 2 (b2.toNat % 16) (by decide) (by omega)
  have p3 := pi_lt 3 (b2.toNat / 16) (by decide) (by omega)
  have p4 := pi_lt 4 (b1.toNat % 16) (by decide) (by omega)
  have p5 := pi_lt 5 (b1.toNat / 16) (by decide) (by omega)
  have p6 := pi_lt 6 (b0.toNat % 16) (by decide) (by omega)
  have p7 := pi_lt 7 (b0.toNat / 16) (by decide) (by omega)
  generalize Spec.Magma.pi 0 (b3.toNat % 16) = q0 at *
  generalize Spec.Magma.pi 1 (b3.toNat / 16) = q1 at *
  generalize Spec.Magma.pi 2 (b2.toNat % 16) = q2 at *
  generalize Spec.Magma.pi 3 (b2.toNat / 16) = q3 at *
  generalize Spec.Magma.pi 4 (b1.toNat % 16) = q4 at *
  generalize Spec.Magma.pi 5 (b1.toNat / 16) = q5 at *
  generalize Spec.Magma.pi 6 (b0.toNat % 16) = q6 at *
  generalize Spec.Magma.pi 7 (b0.toNat / 16) = q7 at *
  congr 2
  · congr 1; omega
  congr 1
  · congr 1; omega
  congr 1
  · congr 1; omega
  congr 1
  congr 1; omega

/-! ### The round function -/

theorem rotl_eq (x : Nat) (hx : x < 2 ^ 32) :
    ((x <<< 11) ||| (x >>> 21)) &&& 0xffffffff = Spec.Magma.rotl11 x := by
  have h1 : x >>> 21 < 2 ^ 11 := by rw [Nat.shiftRight_eq_div_pow]; omega
  rw [← Nat.shiftLeft_add_eq_or_of_lt h1, show (0xffffffff : Nat) = 2 ^ 32 - 1 from rfl,
    Nat.and_two_pow_sub_one_eq_mod, Nat.shiftLeft_eq, Nat.shiftRight_eq_div_pow]
  unfold Spec.Magma.rotl11
  omega

theorem cipherG_ok (k a : Bytes) (hk : 4 ≤ k.length) (ha : a.length = 4) :
    cipherG k a = .ok (beBytes 4 (Spec.Magma.g (beNat (k.take 4)) (beNat a))) := by
  unfold cipherG
  rw [add32_ok k a hk ha, Res.bind_ok, cipherT_ok _ (by simp), Res.bind_ok, beNat_beBytes]
  rw [show 256 ^ 4 = 2 ^ 32 from rfl, Nat.mod_mod]
  unfold Spec.Magma.g
  have ht := t_lt ((beNat a + beNat (k.take 4)) % 2 ^ 32)
  generalize Spec.Magma.t ((beNat a + beNat (k.take 4)) % 2 ^ 32) = x at *
  rw [beBytes4]
  simp only [show (0 : Int) = ((0 : Nat) : Int) from rfl, show (1 : Int) = ((1 : Nat) : Int) from rfl,
    show (2 : Int) = ((2 : Nat) : Int) from rfl, show (3 : Int) = ((3 : Nat) : Int) from rfl]
  rw [pyGet_nat _ 0 (by simp), pyGet_nat _ 1 (by simp), pyGet_nat _ 2 (by simp), pyGet_nat _ 3 (by simp)]
  simp only [Res.bind_ok, List.getElem_cons_zero, List.getElem_cons_succ, Res.pure_eq]
  have hm : ∀ y, (UInt8.ofNat (y % 256)).toNat = y % 256 := fun y =>
    UInt8.toNat_ofNat_of_lt' (Nat.mod_lt _ (by decide))
  simp only [hm]
  have hx : ((((x / 16777216 % 256) <<< 8) + x / 65536 % 256) <<< 8 + x / 256 % 256) <<< 8 + x % 256
      = x := by
    simp only [Nat.shiftLeft_eq]; omega
  rw [hx, rotl_eq x ht, intToBytes_nat]

/-- The round function on bytes. -/
def gB (k a : Bytes) : Bytes := beBytes 4 (Spec.Magma.g (beNat (k.take 4)) (beNat a))

@[simp] theorem gB_length (k a : Bytes) : (gB k a).length = 4 := by simp [gB]

/-- One Feistel step on bytes. -/
def G (k b : Bytes) : Bytes := b.drop 4 ++ addXor (b.take 4) (gB k (b.drop 4))

/-- Exchange of the halves. -/
def sw (b : Bytes) : Bytes := b.drop 4 ++ b.take 4

theorem gIterResult_eq (a0 a1 : Bytes) (h0 : a0.length = 4) (h1 : a1.length = 4) :
    gIterResult a0 a1 = a1 ++ a0 := by
  obtain ⟨x0, x1, x2, x3, rfl⟩ := exists4' a0 h0
  obtain ⟨y0, y1, y2, y3, rfl⟩ := exists4' a1 h1
  rfl

theorem gIter_ok (k b : Bytes) (hk : 4 ≤ k.length) (hb : b.length = 8) :
    gIter k b = .ok (b.drop 4, b.take 4, addXor (b.take 4) (gB k (b.drop 4))) := by
  unfold gIter
  have e1 : pySlice b 0 4 = b.take 4 := pySlice_zero b 4
  have e2 : pySlice b 4 8 = b.drop 4 := by
    have := pySlice_nat b 4 8
    rw [show ((4 : Nat) : Int) = 4 from rfl, show ((8 : Nat) : Int) = 8 from rfl] at this
    rw [this, List.take_of_length_le (by simp [hb])]
  rw [e1, e2]
  simp only [cipherG_ok k (b.drop 4) hk (by simp [hb]), Res.bind_ok, Res.pure_eq]
  rw [gB]

theorem G_length (k b : Bytes) (hb : b.length = 8) : (G k b).length = 8 := by
  simp [G, hb]

theorem sw_length (b : Bytes) : (sw b).length = b.length := by
  simp [sw]; omega

theorem sw_sw (b : Bytes) (hb : b.length = 8) : sw (sw b) = b := by
  unfold sw
  have h1 : (b.drop 4).length = 4 := by simp [hb]
  rw [List.drop_left' h1, List.take_left' h1, List.take_append_drop]

theorem G_take (k b : Bytes) (hb : b.length = 8) : (G k b).take 4 = b.drop 4 := by
  have h1 : (b.drop 4).length = 4 := by simp [hb]
  unfold G
  exact List.take_left' h1

theorem G_drop (k b : Bytes) (hb : b.length = 8) :
    (G k b).drop 4 = addXor (b.take 4) (gB k (b.drop 4)) := by
  have h1 : (b.drop 4).length = 4 := by simp [hb]
  unfold G
  exact List.drop_left' h1

theorem G_sw_G (k b : Bytes) (hb : b.length = 8) : G k (sw (G k b)) = sw b := by
  have hG := G_length k b hb
  have h1 : ((G k b).drop 4).length = 4 := by simp [hG]
  have e1 : (sw (G k b)).take 4 = (G k b).drop 4 := List.take_left' h1
  have e2 : (sw (G k b)).drop 4 = (G k b).take 4 := List.drop_left' h1
  rw [show G k (sw (G k b)) = (sw (G k b)).drop 4 ++
    addXor ((sw (G k b)).take 4) (gB k ((sw (G k b)).drop 4)) from rfl]
  rw [e1, e2, G_take k b hb, G_drop k b hb, addXor_comm (addXor _ _), addXor_comm (b.take 4),
    addXor_cancel _ _ (by simp [hb])]
  rfl

theorem gPrev_ok (k b : Bytes) (hk : 4 ≤ k.length) (hb : b.length = 8) :
    gPrev k b = .ok (G k b) := by
  unfold gPrev
  rw [gIter_ok k b hk hb]
  simp only [Res.bind_ok, Res.pure_eq]
  rw [gIterResult_eq _ _ (by simp [hb]) (by simp [hb])]
  rfl

theorem gFin_ok (k b : Bytes) (hk : 4 ≤ k.length) (hb : b.length = 8) :
    gFin k b = .ok (sw (G k b)) := by
  unfold gFin
  rw [gIter_ok k b hk hb]
  simp only [Res.bind_ok, Res.pure_eq]
  rw [gIterResult_eq _ _ (by simp [hb]) (by simp [hb])]
  unfold sw
  rw [G_take k b hb, G_drop k b hb]

/-! ### Rounds, for any list of 32 round keys of at least four bytes -/

/-- 32 keys of at least four bytes (after `clear` the keys are longer). -/
def GoodKeys (ks : List Bytes) : Prop := ks.length = 32 ∧ ∀ k ∈ ks, 4 ≤ k.length

theorem GoodKeys.get {ks : List Bytes} (h : GoodKeys ks) (i : Nat) (hi : i < 32) :
    4 ≤ (ks.getD i []).length := by
  have : i < ks.length := by rw [h.1]; exact hi
  simp only [List.getD, List.getElem?_eq_getElem this, Option.getD_some]
  exact h.2 _ (List.getElem_mem this)

/-- The Feistel steps with the round keys whose numbers are listed. -/
def steps (ks : List Bytes) (l : List Nat) (b : Bytes) : Bytes :=
  l.foldl (fun b n => G (ks.getD n []) b) b

/-- Pure encryption with a list of 32 round keys. -/
def E (ks : List Bytes) (b : Bytes) : Bytes := sw (steps ks (List.range 32) b)

/-- Pure decryption with a list of 32 round keys. -/
def D (ks : List Bytes) (b : Bytes) : Bytes := sw (steps ks (List.range 32).reverse b)

theorem steps_length (ks : List Bytes) (l : List Nat) (b : Bytes) (hb : b.length = 8) :
    (steps ks l b).length = 8 := by
  unfold steps
  induction l generalizing b with
  | nil => exact hb
  | cons n l ih => exact ih _ (G_length _ _ hb)

theorem steps_ok {ks : List Bytes} (h : GoodKeys ks) (l : List Nat) (hl : ∀ n ∈ l, n < 32)
    (b : Bytes) (hb : b.length = 8) :
    l.foldlM (fun r (i : Nat) => do gPrev (← pyGet ks i) r) b = .ok (steps ks l b) := by
  have := foldlM_ok (fun r (i : Nat) => do gPrev (← pyGet ks i) r)
    (fun b n => G (ks.getD n []) b) (fun b => b.length = 8) l b hb
    (by
      intro b hb i hi
      have hi' := hl i hi
      refine ⟨?_, G_length _ _ hb⟩
      rw [pyGet_getD ks i [] (by rw [h.1]; exact hi'), Res.bind_ok, gPrev_ok _ _ (h.get i hi') hb])
  exact this.1

theorem range32 : List.range 32 = 0 :: (List.range' 1 30 ++ [31]) := by decide

theorem range32_reverse : (List.range 32).reverse = 31 :: ((List.range' 1 30).reverse ++ [0]) := by
  decide

theorem steps_cons (ks : List Bytes) (n : Nat) (l : List Nat) (b : Bytes) :
    steps ks (n :: l) b = steps ks l (G (ks.getD n []) b) := by
  simp only [steps, List.foldl_cons]

theorem steps_nil (ks : List Bytes) (b : Bytes) : steps ks [] b = b := by
  simp only [steps, List.foldl_nil]

theorem steps_append (ks : List Bytes) (l₁ l₂ : List Nat) (b : Bytes) :
    steps ks (l₁ ++ l₂) b = steps ks l₂ (steps ks l₁ b) := by
  simp [steps]

theorem encrypt_ok {ks : List Bytes} (h : GoodKeys ks) (b : Bytes) (hb : b.length = 8) :
    encrypt ks b = .ok (E ks b) ∧ (E ks b).length = 8 := by
  refine ⟨?_, by rw [E, sw_length, steps_length _ _ _ hb]⟩
  unfold encrypt
  rw [show (0 : Int) = ((0 : Nat) : Int) from rfl, show (31 : Int) = ((31 : Nat) : Int) from rfl,
    pyGet_getD ks 0 [] (by rw [h.1]; omega), Res.bind_ok, gPrev_ok _ _ (h.get 0 (by omega)) hb,
    Res.bind_ok, steps_ok h _ (by intro n hn; simp [List.mem_range'_1] at hn; omega) _ (G_length _ _ hb),
    Res.bind_ok, pyGet_getD ks 31 [] (by rw [h.1]; omega), Res.bind_ok,
    gFin_ok _ _ (h.get 31 (by omega)) (steps_length _ _ _ (G_length _ _ hb))]
  unfold E
  rw [range32]
  rw [steps_cons, steps_append, steps_cons, steps_nil]

theorem decrypt_ok {ks : List Bytes} (h : GoodKeys ks) (b : Bytes) (hb : b.length = 8) :
    decrypt ks b = .ok (D ks b) ∧ (D ks b).length = 8 := by
  refine ⟨?_, by rw [D, sw_length, steps_length _ _ _ hb]⟩
  unfold decrypt
  rw [show (0 : Int) = ((0 : Nat) : Int) from rfl, show (31 : Int) = ((31 : Nat) : Int) from rfl,
    pyGet_getD ks 31 [] (by rw [h.1]; omega), Res.bind_ok, gPrev_ok _ _ (h.get 31 (by omega)) hb,
    Res.bind_ok,
    steps_ok h _ (by intro n hn; simp [List.mem_range'_1] at hn; omega) _ (G_length _ _ hb),
    Res.bind_ok, pyGet_getD ks 0 [] (by rw [h.1]; omega), Res.bind_ok,
    gFin_ok _ _ (h.get 0 (by omega)) (steps_length _ _ _ (G_length _ _ hb))]
  unfold D
  rw [range32_reverse]
  rw [steps_cons, steps_append, steps_cons, steps_nil]

theorem steps_inverse (ks : List Bytes) (l : List Nat) (b : Bytes) (hb : b.length = 8) :
    steps ks l.reverse (sw (steps ks l b)) = sw b := by
  induction l generalizing b with
  | nil => rfl
  | cons n l ih =>
    rw [List.reverse_cons, steps_append]
    rw [steps_cons, steps_cons, steps_nil, ih _ (G_length _ _ hb)]
    exact G_sw_G _ _ hb

theorem D_E (ks : List Bytes) (b : Bytes) (hb : b.length = 8) : D ks (E ks b) = b := by
  unfold D E
  rw [steps_inverse ks _ b hb, sw_sw b hb]

theorem E_D (ks : List Bytes) (b : Bytes) (hb : b.length = 8) : E ks (D ks b) = b := by
  unfold D E
  have := steps_inverse ks (List.range 32).reverse b hb
  rw [List.reverse_reverse] at this
  rw [this, sw_sw b hb]

theorem add32_short (a b : Bytes) (ha : 4 ≤ a.length) (hb : b.length < 4) :
    add32 a b = .error .indexError := by
  obtain ⟨a0, a1, a2, a3, r, rfl⟩ := exists4 a ha
  have hr : (List.range 4).reverse = [3, 2, 1, 0] := rfl
  unfold add32
  rw [hr, List.foldlM_cons, pyGet_nat _ 3 (by simp), Res.bind_ok, pyGet_out b 3 (by omega)]
  simp only [Res.bind_error]

theorem gPrev_short (k b : Bytes) (hk : 4 ≤ k.length) (hb : b.length < 8) :
    gPrev k b = .error .indexError := by
  have e2 : pySlice b 4 8 = (b.drop 4).take 4 := by
    have := pySlice_nat b 4 8
    simpa using this
  have hg : cipherG k ((b.drop 4).take 4) = .error .indexError := by
    unfold cipherG
    rw [add32_short _ _ hk (by simp; omega), Res.bind_error]
  unfold gPrev gIter
  rw [e2]
  simp only [hg, Res.bind_error]

theorem encrypt_short {ks : List Bytes} (h : GoodKeys ks) (b : Bytes) (hb : b.length < 8) :
    encrypt ks b = .error .indexError := by
  unfold encrypt
  rw [show (0 : Int) = ((0 : Nat) : Int) from rfl, pyGet_getD ks 0 [] (by rw [h.1]; omega),
    Res.bind_ok, gPrev_short _ _ (h.get 0 (by omega)) hb, Res.bind_error]

theorem decrypt_short {ks : List Bytes} (h : GoodKeys ks) (b : Bytes) (hb : b.length < 8) :
    decrypt ks b = .error .indexError := by
  unfold decrypt
  rw [show (31 : Int) = ((31 : Nat) : Int) from rfl, pyGet_getD ks 31 [] (by rw [h.1]; omega),
    Res.bind_ok, gPrev_short _ _ (h.get 31 (by omega)) hb, Res.bind_error]

/-! ### Key schedule -/

theorem keyWord_ok (key : Bytes) (h : key.length = 32) (off : Nat) (ho : off + 4 ≤ 32) :
    keyWord key off = .ok ((key.drop off).take 4) := by
  unfold keyWord
  rw [mapM_ok _ (fun i => (key.drop off).getD i 0)]
  · rw [range_map_getD_le _ _ _ (by simp; omega)]
  · intro i hi
    have hi4 : i < 4 := by simpa using hi
    rw [pyGet_getD key (off + i) 0 (by omega)]
    simp [List.getD]

theorem init_ok (key : Bytes) (h : key.length = 32) :
    ∃ ks, init key = .ok ks ∧ GoodKeys ks ∧ (∀ k ∈ ks, k.length = 4) ∧
      ∀ n, n < 32 → beNat ((ks.getD n []).take 4) = Spec.Magma.subkey key n := by
  have he : expand key = .ok ((List.range 8).map fun j => (key.drop (4 * j)).take 4) := by
    unfold expand
    apply mapM_ok
    intro j hj
    have hj8 : j < 8 := by simpa using hj
    rw [keyWord_ok key h (j * 4) (by omega), Nat.mul_comm]
  have hf : expandFinal key = .ok ((List.range 8).map fun j => (key.drop (4 * (7 - j))).take 4) := by
    unfold expandFinal
    apply mapM_ok
    intro j hj
    have hj8 : j < 8 := by simpa using hj
    rw [keyWord_ok key h (28 - j * 4) (by omega), show 28 - j * 4 = 4 * (7 - j) by omega]
  refine ⟨(List.range 32).map fun n => (key.drop (4 * (if n < 24 then n % 8 else 7 - n % 8))).take 4,
    ?_, ⟨by simp, ?_⟩, ?_, ?_⟩
  · unfold init
    rw [he, hf]
    simp only [Res.bind_ok, Res.pure_eq]
    rfl
  · intro k hk
    simp only [List.mem_map, List.mem_range] at hk
    obtain ⟨n, hn, rfl⟩ := hk
    simp only [List.length_take, List.length_drop, h]
    split <;> omega
  · intro k hk
    simp only [List.mem_map, List.mem_range] at hk
    obtain ⟨n, hn, rfl⟩ := hk
    simp only [List.length_take, List.length_drop, h]
    split <;> omega
  · intro n hn
    have : ((List.range 32).map fun n =>
        (key.drop (4 * (if n < 24 then n % 8 else 7 - n % 8))).take 4).getD n [] =
        (key.drop (4 * (if n < 24 then n % 8 else 7 - n % 8))).take 4 := by
      simp [List.getD, hn]
    rw [this]
    unfold Spec.Magma.subkey Spec.Magma.keyWord
    rw [List.take_take]
    split <;> rfl

/-- The pair of words of a block. -/
def words (b : Bytes) : Nat × Nat := (beNat (b.take 4), beNat (b.drop 4))

theorem g_lt (k a : Nat) : Spec.Magma.g k a < 2 ^ 32 := by
  have := t_lt ((a + k) % 2 ^ 32)
  unfold Spec.Magma.g Spec.Magma.rotl11
  generalize Spec.Magma.t ((a + k) % 2 ^ 32) = x at *
  omega

theorem words_G (k b : Bytes) (hb : b.length = 8) :
    words (G k b) = Spec.Magma.G (beNat (k.take 4)) (words b) := by
  unfold words
  rw [G_take k b hb, G_drop k b hb]
  unfold Spec.Magma.G
  simp only [Prod.mk.injEq, true_and]
  have h4 : (b.take 4).length = 4 := by simp [hb]
  have hlt : beNat (b.take 4) < 2 ^ 32 := by
    have := beNat_lt (b.take 4)
    rw [h4] at this; exact this
  have hg := g_lt (beNat (k.take 4)) (beNat (b.drop 4))
  conv => lhs; rw [← beBytes_beNat' 4 (b.take 4) h4]
  unfold gB
  rw [beBytes_xor, beNat_beBytes, Nat.xor_comm, Nat.mod_eq_of_lt]
  exact Nat.xor_lt_two_pow hg hlt

theorem words_steps (ks : List Bytes) (key : Bytes)
    (hk : ∀ n, n < 32 → beNat ((ks.getD n []).take 4) = Spec.Magma.subkey key n)
    (l : List Nat) (hl : ∀ n ∈ l, n < 32) (b : Bytes) (hb : b.length = 8) :
    words (steps ks l b) = l.foldl (fun a n => Spec.Magma.G (Spec.Magma.subkey key n) a) (words b) := by
  induction l generalizing b with
  | nil => rfl
  | cons n l ih =>
    rw [steps_cons, List.foldl_cons, ih (fun m hm => hl m (by simp [hm])) _ (G_length _ _ hb), words_G _ _ hb,
      hk n (hl n (by simp))]

theorem E_spec (ks : List Bytes) (key : Bytes)
    (hk : ∀ n, n < 32 → beNat ((ks.getD n []).take 4) = Spec.Magma.subkey key n)
    (b : Bytes) (hb : b.length = 8) : E ks b = Spec.Magma.encrypt key b := by
  have hw := words_steps ks key hk (List.range 32) (by intro n hn; simpa using hn) b hb
  have hl := steps_length ks (List.range 32) b hb
  unfold E Spec.Magma.encrypt
  have : (beNat (b.take 4), beNat (b.drop 4)) = words b := rfl
  rw [this, ← hw]
  unfold sw words
  simp only []
  rw [beBytes_beNat' 4 _ (by simp [hl]), beBytes_beNat' 4 _ (by simp [hl])]

theorem clear_good {ks : List Bytes} (h : GoodKeys ks) : GoodKeys (clear ks) := by
  constructor
  · simp [clear, h.1]
  · intro k hk
    simp only [clear, List.mem_map] at hk
    obtain ⟨k', hk', rfl⟩ := hk
    have := h.2 k' hk'
    simp [zeroFill, slashX00]
    omega

end Magma
end Gost
