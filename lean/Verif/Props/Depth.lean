import Verif.Model.Depth
import Verif.Proofs.Invert
import Mathlib.Data.Nat.Fib.Basic
import Mathlib.Tactic.NormNum.NatFib

/-! Property C79: the recursion of `_invert` stays below Python's default limit of 1000 nested calls
for moduli of 512 bits. -/

namespace Gost.Sig

theorem gcdexLim_sound (L : Nat) : ∀ v n r, gcdexLim L v n = some r → gcdex v n = r := by
  induction L with
  | zero => intro v n r h; cases h
  | succ L ih =>
    intro v n r h
    rw [gcdexLim] at h
    by_cases hn : n = 0
    · rw [if_pos hn] at h
      cases h
      subst hn
      exact gcdex_zero v
    · rw [if_neg hn] at h
      cases hr : gcdexLim L n (v.fmod n) with
      | none => rw [hr] at h; cases h
      | some r' =>
        obtain ⟨g, x, y⟩ := r'
        rw [hr] at h
        cases h
        rw [gcdex_ne v n hn, ih _ _ _ hr]

theorem gcdexLim_zero (L : Nat) (v : Int) : gcdexLim (L + 1) v 0 = some (v, 1, 0) := by
  rw [gcdexLim, if_pos rfl]

theorem gcdexLim_isSome (L : Nat) (v n : Int) (h : n ≠ 0) :
    (gcdexLim (L + 1) v n).isSome = (gcdexLim L n (v.fmod n)).isSome := by
  rw [gcdexLim, if_neg h]
  cases gcdexLim L n (v.fmod n) <;> rfl

theorem gcdexLim_nat (L v n : Nat) (h : n ≠ 0) :
    (gcdexLim (L + 1) v n).isSome = (gcdexLim L (n : Int) ((v % n : Nat) : Int)).isSome := by
  rw [gcdexLim_isSome L v n (by exact_mod_cast h), Int.fmod_eq_emod_of_nonneg _ (by omega)]
  rfl

/-- Lamé's bound: numbers below a Fibonacci number need no more calls than its index tells. -/
theorem gcdexLim_lame (k : Nat) : ∀ a b : Nat, b < a → a < Nat.fib (k + 3) →
    (gcdexLim (k + 1) a b).isSome = true := by
  induction k using Nat.strong_induction_on with
  | _ k ih =>
    intro a b hb ha
    by_cases h0 : b = 0
    · subst h0
      rw [show ((0 : Nat) : Int) = 0 from rfl, gcdexLim_zero]
      rfl
    · match k, ih, ha with
      | 0, _, ha =>
        have : Nat.fib 3 = 2 := rfl
        rw [Nat.zero_add, this] at ha
        omega
      | k + 1, ih, ha =>
        rw [gcdexLim_nat _ _ _ h0]
        have hm := Nat.mod_lt a (Nat.pos_of_ne_zero h0)
        by_cases hf : b < Nat.fib (k + 3)
        · exact ih k (by omega) b (a % b) hm hf
        · have hfib : Nat.fib (k + 1 + 3) = Nat.fib (k + 2) + Nat.fib (k + 3) := Nat.fib_add_two
          have hle : a % b < Nat.fib (k + 2) := by
            have h1 : a % b = (a - b) % b := (Nat.mod_eq_sub_mod hb.le)
            have h2 := Nat.mod_le (a - b) b
            omega
          by_cases hz : a % b = 0
          · rw [hz, show ((0 : Nat) : Int) = 0 from rfl, gcdexLim_zero]
            rfl
          · rw [gcdexLim_nat _ _ _ hz]
            match k, ih, hle with
            | 0, _, hle =>
              have : Nat.fib 2 = 1 := rfl
              rw [Nat.zero_add, this] at hle
              omega
            | k + 1, ih, hle =>
              exact ih k (by omega) (a % b) _ (Nat.mod_lt _ (Nat.pos_of_ne_zero hz)) hle

theorem gcdexLim_some (k : Nat) (v : Int) (n : Nat) (hn : 0 < n) (hk : n < Nat.fib (k + 3)) :
    gcdexLim (k + 2) v n = some (gcdex v n) := by
  have h : (gcdexLim (k + 2) v n).isSome = true := by
    rw [gcdexLim_isSome _ _ _ (by omega)]
    have h1 := Int.fmod_nonneg_of_pos v (show (0 : Int) < n by omega)
    have h2 := Int.fmod_lt_of_pos v (show (0 : Int) < n by omega)
    have h3 := gcdexLim_lame k n (v.fmod n).toNat (by omega) hk
    rwa [Int.toNat_of_nonneg h1] at h3
  obtain ⟨r, hr⟩ := Option.isSome_iff_exists.1 h
  rw [hr, gcdexLim_sound _ _ _ _ hr]

theorem gcdexLim_mono (L : Nat) : ∀ v n r, gcdexLim L v n = some r → gcdexLim (L + 1) v n = some r := by
  induction L with
  | zero => intro v n r h; cases h
  | succ L ih =>
    intro v n r h
    rw [gcdexLim] at h ⊢
    by_cases hn : n = 0
    · rwa [if_pos hn] at h ⊢
    · rw [if_neg hn] at h ⊢
      cases hr : gcdexLim L n (v.fmod n) with
      | none => rw [hr] at h; cases h
      | some r' => rw [hr] at h; rwa [ih _ _ _ hr]

theorem gcdexLim_le {L M : Nat} (h : L ≤ M) {v n : Int} {r} (hr : gcdexLim L v n = some r) :
    gcdexLim M v n = some r := by
  induction h with
  | refl => exact hr
  | step _ ih => exact gcdexLim_mono _ _ _ _ ih

/-- Neighbouring Fibonacci numbers need every call the bound allows. -/
theorem gcdexLim_fib (k : Nat) : gcdexLim k (Nat.fib (k + 2) : Nat) (Nat.fib (k + 1) : Nat) = none := by
  induction k with
  | zero => rfl
  | succ k ih =>
    cases h : gcdexLim (k + 1) (Nat.fib (k + 1 + 2) : Nat) (Nat.fib (k + 1 + 1) : Nat) with
    | none => rfl
    | some r =>
      exfalso
      have h1 := congrArg Option.isSome h
      rw [gcdexLim_nat _ _ _ (Nat.fib_pos.2 (by omega)).ne'] at h1
      have hfib : Nat.fib (k + 1 + 2) = Nat.fib (k + 1) + Nat.fib (k + 2) := Nat.fib_add_two
      rw [hfib, Nat.add_mod_right] at h1
      match k, ih, h1 with
      | 0, _, h1 => cases h1
      | k + 1, ih, h1 =>
        rw [Nat.mod_eq_of_lt (Nat.fib_lt_fib_succ (by omega)), ih] at h1
        cases h1

/-- C79: for every value and every modulus up to `2^512`, `_invert` needs at most 739 nested calls of
`gcdex`, and the result is that of unlimited recursion; for moduli up to `2^256` at most 370. -/
theorem C79_enough (value nMod : Int) (h0 : 0 < nMod) :
    (nMod ≤ 2 ^ 512 → ∀ L, 739 ≤ L → invertLim L value nMod = some (invert value nMod)) ∧
    (nMod ≤ 2 ^ 256 → ∀ L, 370 ≤ L → invertLim L value nMod = some (invert value nMod)) := by
  obtain ⟨n, rfl⟩ := Int.eq_ofNat_of_zero_le h0.le
  have key : ∀ k, n < Nat.fib (k + 3) → ∀ L, k + 2 ≤ L → invertLim L value n = some (invert value n) := by
    intro k hk L hL
    rw [invertLim, gcdexLim_le hL (gcdexLim_some k value n (by omega) hk)]
    rfl
  constructor
  · intro h
    refine key 737 (lt_of_le_of_lt (b := 2 ^ 512) (by exact_mod_cast h) ?_)
    rw [show 512 = 256 + 256 from rfl, pow_add]
    norm_num
  · intro h
    refine key 368 (lt_of_le_of_lt (b := 2 ^ 256) (by exact_mod_cast h) ?_)
    norm_num

/-- C79: the bounds are attained, and no limit is enough for all moduli: for every number of calls
there are a value and a modulus which need more, the modulus being a Fibonacci number. -/
theorem C79_not_enough (L : Nat) (hL : 1 < L) :
    ∃ value nMod : Int, 0 < value ∧ value < nMod ∧ nMod = Nat.fib (L + 1) ∧ invertLim L value nMod = none := by
  obtain ⟨k, rfl⟩ : ∃ k, L = k + 1 := ⟨L - 1, by omega⟩
  have hlt : Nat.fib (k + 1) < Nat.fib (k + 2) := Nat.fib_lt_fib_succ (by omega)
  have h0 : 0 < Nat.fib (k + 1) := Nat.fib_pos.2 (by omega)
  refine ⟨(Nat.fib (k + 1) : Nat), (Nat.fib (k + 2) : Nat), by exact_mod_cast h0, by exact_mod_cast hlt, rfl, ?_⟩
  have h : gcdexLim (k + 1) (Nat.fib (k + 1) : Nat) (Nat.fib (k + 2) : Nat) = none := by
    rw [← Option.not_isSome_iff_eq_none, gcdexLim_nat _ _ _ (by omega), Nat.mod_eq_of_lt hlt, gcdexLim_fib]
    decide
  rw [invertLim, h]

/-- C79: the numbers of calls in `C79_enough` are the least possible, and Python's default limit of
1000 is met for a modulus of 694 bits. -/
theorem C79_limits :
    (∃ value nMod : Int, 0 < nMod ∧ nMod ≤ 2 ^ 512 ∧ invertLim 738 value nMod = none) ∧
    (∃ value nMod : Int, 0 < nMod ∧ nMod ≤ 2 ^ 256 ∧ invertLim 369 value nMod = none) ∧
    (∃ value nMod : Int, 0 < nMod ∧ nMod < 2 ^ 694 ∧ invertLim 1000 value nMod = none) := by
  have key : ∀ L, 1 < L → ∀ B : Nat, Nat.fib (L + 1) < B →
      ∃ value nMod : Int, 0 < nMod ∧ nMod < B ∧ invertLim L value nMod = none := by
    intro L hL B hB
    obtain ⟨v, n, h0, h1, h, hn⟩ := C79_not_enough L hL
    exact ⟨v, n, by omega, by rw [h]; exact_mod_cast hB, hn⟩
  refine ⟨?_, ?_, ?_⟩
  · obtain ⟨v, n, h0, h1, h2⟩ := key 738 (by omega) (2 ^ 512) (by
      rw [show 512 = 256 + 256 from rfl, pow_add]; norm_num)
    exact ⟨v, n, h0, by push_cast at h1; exact h1.le, h2⟩
  · obtain ⟨v, n, h0, h1, h2⟩ := key 369 (by omega) (2 ^ 256) (by norm_num)
    exact ⟨v, n, h0, by push_cast at h1; exact h1.le, h2⟩
  · obtain ⟨v, n, h0, h1, h2⟩ := key 1000 (by omega) (2 ^ 694) (by
      rw [show 694 = 256 + (256 + 182) from rfl, pow_add, pow_add]; norm_num)
    exact ⟨v, n, h0, by push_cast at h1; exact h1, h2⟩

/-- A concrete call: the inverse of 5 modulo 8 needs six calls. -/
example : invertLim 5 5 8 = none ∧ invertLim 6 5 8 = some 5 := by decide

end Gost.Sig
