import Verif.Proofs.Basic
import Verif.Spec.Bytes

/-! Conversions between byte strings and numbers. -/

namespace Gost
open Spec (beNat beBytes leNat leBytes)

theorem beNat_lt (l : Bytes) : beNat l < 256 ^ l.length := by
  induction l with
  | nil => simp [beNat]
  | cons b l ih =>
    have hb := b.toNat_lt
    have h1 : b.toNat * 256 ^ l.length ≤ 255 * 256 ^ l.length := Nat.mul_le_mul_right _ (by omega)
    simp only [beNat, List.length_cons, Nat.pow_succ]
    omega

theorem foldl_bytes (l : Bytes) (a : Nat) :
    l.foldl (fun acc b => acc * 256 + b.toNat) a = a * 256 ^ l.length + beNat l := by
  induction l generalizing a with
  | nil => simp [beNat]
  | cons b l ih =>
    simp only [List.foldl_cons, ih, beNat, List.length_cons, Nat.pow_succ, Nat.add_mul]
    rw [Nat.mul_assoc, Nat.mul_comm 256 (256 ^ l.length), Nat.add_assoc]

theorem bytesToInt_eq (l : Bytes) : bytesToInt l = beNat l := by
  unfold bytesToInt
  rw [foldl_bytes]; simp

@[simp] theorem beBytes_length (n x : Nat) : (beBytes n x).length = n := by
  induction n with
  | zero => rfl
  | succ n ih => simp [beBytes, ih]

theorem beBytes_mod (n m x : Nat) (h : n ≤ m) : beBytes n (x % 256 ^ m) = beBytes n x := by
  induction n with
  | zero => rfl
  | succ n ih =>
    simp only [beBytes]
    rw [ih (by omega)]
    congr 2
    have : 256 ^ m = 256 ^ n * 256 ^ (m - n) := by rw [← Nat.pow_add]; congr 1; omega
    rw [this, Nat.mod_mul_right_div_self]
    have h2 : 256 ^ (m - n) = 256 * 256 ^ (m - n - 1) := by
      rw [← Nat.pow_add_one']; congr 1; omega
    rw [h2, Nat.mod_mul_right_mod]

theorem beNat_beBytes (n x : Nat) : beNat (beBytes n x) = x % 256 ^ n := by
  induction n with
  | zero => simp [beBytes, beNat, Nat.mod_one]
  | succ n ih =>
    simp only [beBytes, beNat, beBytes_length, ih]
    rw [UInt8.toNat_ofNat_of_lt' (Nat.mod_lt _ (by decide)), Nat.pow_succ, Nat.mod_mul,
      Nat.mul_comm, Nat.add_comm]

theorem beBytes_beNat (l : Bytes) : beBytes l.length (beNat l) = l := by
  induction l with
  | nil => rfl
  | cons b l ih =>
    have hl := beNat_lt l
    simp only [beBytes, List.length_cons, beNat]
    congr 1
    · rw [Nat.mul_comm, Nat.mul_add_div (Nat.pow_pos (by decide)), Nat.div_eq_of_lt hl, Nat.add_zero,
        Nat.mod_eq_of_lt b.toNat_lt]
      simp
    · rw [← beBytes_mod l.length l.length _ (Nat.le_refl _), Nat.mul_add_mod_self_right,
        Nat.mod_eq_of_lt hl, ih]

theorem beBytes_beNat' (n : Nat) (l : Bytes) (h : l.length = n) : beBytes n (beNat l) = l := by
  subst h; exact beBytes_beNat l

theorem beNat_inj (a b : Bytes) (hl : a.length = b.length) (h : beNat a = beNat b) : a = b := by
  rw [← beBytes_beNat a, hl, h, beBytes_beNat]

theorem beNat_append (a b : Bytes) : beNat (a ++ b) = beNat a * 256 ^ b.length + beNat b := by
  induction a with
  | nil => simp [beNat]
  | cons x a ih =>
    simp only [List.cons_append, beNat, ih, List.length_append, Nat.pow_add, Nat.add_mul,
      Nat.mul_assoc, Nat.add_assoc]

theorem beBytes_append (m n x : Nat) : beBytes (m + n) x = beBytes m (x / 256 ^ n) ++ beBytes n x := by
  induction m with
  | zero => simp [beBytes]
  | succ m ih =>
    rw [show m + 1 + n = (m + n) + 1 by omega]
    simp only [beBytes, List.cons_append, ih]
    congr 2
    rw [Nat.div_div_eq_div_mul, ← Nat.pow_add, Nat.add_comm n m]

/-- `int_to_bytearray` keeps the lowest digits of the number modulo `256^n`. -/
theorem intToBytes_eq (v : Int) (n : Nat) :
    intToBytes v n = beBytes n (v % ((256 ^ n : Nat) : Int)).toNat := by
  have gen : ∀ m, m ≤ n → (List.range m).reverse.map (fun pos =>
      UInt8.ofNat ((v / (256 : Int) ^ pos) % 256).toNat) =
      beBytes m (v % ((256 ^ n : Nat) : Int)).toNat := by
    intro m
    induction m with
    | zero => intro _; rfl
    | succ m ih =>
      intro h
      rw [List.range_succ, List.reverse_append]
      simp only [List.reverse_cons, List.reverse_nil, List.nil_append, List.cons_append,
        List.map_cons, beBytes]
      rw [ih (by omega)]
      congr 2
      have hpos : (0 : Int) < ((256 ^ n : Nat) : Int) := by
        have : 0 < 256 ^ n := Nat.pow_pos (by decide)
        omega
      have h0 : 0 ≤ v % ((256 ^ n : Nat) : Int) := Int.emod_nonneg _ (by omega)
      obtain ⟨w, hw⟩ : ∃ w : Nat, v % ((256 ^ n : Nat) : Int) = w := ⟨_, (Int.toNat_of_nonneg h0).symm⟩
      have hv : v = w + ((256 ^ n : Nat) : Int) * (v / ((256 ^ n : Nat) : Int)) := by
        have := Int.emod_add_mul_ediv v ((256 ^ n : Nat) : Int)
        omega
      rw [hw, Int.toNat_natCast]
      generalize v / ((256 ^ n : Nat) : Int) = q at hv
      have hsplit : ((256 ^ n : Nat) : Int) = (256 : Int) ^ m * (256 * ((256 ^ (n - m - 1) : Nat) : Int)) := by
        have : (256 : Nat) ^ n = 256 ^ m * (256 * 256 ^ (n - m - 1)) := by
          rw [← Nat.pow_succ', ← Nat.pow_add]; congr 1; omega
        rw [this]
        simp only [Int.natCast_mul, Int.natCast_pow]
        rfl
      rw [hv, hsplit, Int.mul_assoc, Int.add_mul_ediv_left _ _ (Int.ne_of_gt (Int.pow_pos (by decide))),
        Int.mul_assoc, Int.add_mul_emod_self_left]
      have e : ((w : Int) / 256 ^ m) % 256 = ((w / 256 ^ m % 256 : Nat) : Int) := by
        simp only [Int.natCast_emod, Int.natCast_ediv, Int.natCast_pow]
        rfl
      rw [e, Int.toNat_natCast]
  exact gen n (Nat.le_refl n)

theorem intToBytes_nat (v n : Nat) : intToBytes (v : Int) n = beBytes n v := by
  rw [intToBytes_eq]
  have : ((v : Int) % ((256 ^ n : Nat) : Int)).toNat = v % 256 ^ n := by
    rw [← Int.natCast_emod, Int.toNat_natCast]
  rw [this, beBytes_mod n n v (Nat.le_refl _)]

@[simp] theorem intToBytes_length (v : Int) (n : Nat) : (intToBytes v n).length = n := by
  simp [intToBytes]

theorem UInt8_ofNat_xor (a b : Nat) : UInt8.ofNat a ^^^ UInt8.ofNat b = UInt8.ofNat (a ^^^ b) := by
  apply UInt8.toNat_inj.mp
  simp [UInt8.toNat_xor, UInt8.toNat_ofNat']

theorem ofNat_mod (a : Nat) : UInt8.ofNat (a % 256) = UInt8.ofNat a := by
  apply UInt8.toNat_inj.mp
  simp [UInt8.toNat_ofNat']

theorem beBytes_xor (n x y : Nat) : addXor (beBytes n x) (beBytes n y) = beBytes n (x ^^^ y) := by
  induction n with
  | zero => rfl
  | succ n ih =>
    simp only [beBytes, addXor_cons, ih, UInt8_ofNat_xor]
    congr 2
    rw [show (256 : Nat) = 2 ^ 8 from rfl, ← Nat.xor_mod_two_pow, ← Nat.pow_mul,
      ← Nat.shiftRight_eq_div_pow, ← Nat.shiftRight_eq_div_pow, ← Nat.shiftRight_eq_div_pow,
      Nat.shiftRight_xor_distrib]

@[simp] theorem leBytes_length (n x : Nat) : (leBytes n x).length = n := by
  induction n generalizing x with
  | zero => rfl
  | succ n ih => simp [leBytes, ih]

theorem leNat_lt (l : Bytes) : leNat l < 256 ^ l.length := by
  induction l with
  | nil => simp [leNat]
  | cons b l ih =>
    have hb := b.toNat_lt
    simp only [leNat, List.length_cons, Nat.pow_succ]
    omega

theorem leNat_leBytes (n x : Nat) : leNat (leBytes n x) = x % 256 ^ n := by
  induction n generalizing x with
  | zero => simp [leBytes, leNat, Nat.mod_one]
  | succ n ih =>
    simp only [leBytes, leNat, ih]
    rw [UInt8.toNat_ofNat_of_lt' (Nat.mod_lt _ (by decide)), Nat.pow_succ', Nat.mod_mul]

theorem leBytes_leNat (l : Bytes) : leBytes l.length (leNat l) = l := by
  induction l with
  | nil => rfl
  | cons b l ih =>
    have hb := b.toNat_lt
    simp only [leBytes, List.length_cons, leNat]
    congr 1
    · rw [Nat.add_mul_mod_self_left, Nat.mod_eq_of_lt hb]; simp
    · rw [Nat.add_mul_div_left _ _ (by decide), Nat.div_eq_of_lt hb, Nat.zero_add, ih]

theorem leNat_inj (a b : Bytes) (hl : a.length = b.length) (h : leNat a = leNat b) : a = b := by
  rw [← leBytes_leNat a, hl, h, leBytes_leNat]

theorem leBytes_mod (n x : Nat) : leBytes n (x % 256 ^ n) = leBytes n x := by
  apply leNat_inj
  · simp
  · simp [leNat_leBytes]

theorem beNat_zeros (n : Nat) : beNat (List.replicate n 0) = 0 := by
  induction n with
  | zero => rfl
  | succ n ih => simp [List.replicate_succ, beNat, ih]

theorem beBytes_zero (n : Nat) : beBytes n 0 = List.replicate n 0 := by
  induction n with
  | zero => rfl
  | succ n ih => simp [List.replicate_succ, beBytes, ih]

end Gost
