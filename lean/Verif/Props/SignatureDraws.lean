import Verif.Props.SignatureCompromise
import Verif.Props.CurveCheck
import Mathlib.Data.Fintype.BigOperators
import Mathlib.Logic.Equiv.Basic

/-! Property C120: the random value which `sign` draws is not biased, and neither is the signature. -/

namespace Gost.Sig
open Spec (beNat beBytes)

/-- A table of `F + 1` draws of `n` bytes as a source of random bytes. The string of bytes number x is the one which
writes x; so each string of `n` bytes stands for exactly one number below 256^n. -/
def draws (n F : Nat) (ρ : Fin (F + 1) → Fin (256 ^ n)) (i : Nat) : Bytes :=
  if h : i < F + 1 then beBytes n (ρ ⟨i, h⟩) else []

/-- The numbers below 256^n and the strings of n bytes. -/
theorem draws_string (n : Nat) (b : Bytes) (h : b.length = n) : ∃ x : Fin (256 ^ n), beBytes n x = b ∧ beNat b = x := by
  subst h
  exact ⟨⟨beNat b, beNat_lt b⟩, beBytes_beNat b, rfl⟩

theorem getRandK_some {s : Sig} : ∀ (F : Nat) (rand : Nat → Bytes) (b : Bytes), s.getRandK F rand = some b ↔
    ∃ i, i ≤ F ∧ b = rand i ∧ (beNat (rand i) : Int) < s.q ∧ ∀ j, j < i → s.q ≤ (beNat (rand j) : Int)
  | 0, rand, b => by
    unfold getRandK
    rw [bytesToInt_eq]
    split
    · next h =>
      constructor
      · rintro e
        cases e
        exact ⟨0, Nat.le_refl _, rfl, h, fun j hj => absurd hj (Nat.not_lt_zero _)⟩
      · rintro ⟨i, hi, rfl, -, -⟩
        rw [Nat.le_zero.1 hi]
    · next h =>
      constructor
      · rintro e
        cases e
      · rintro ⟨i, hi, rfl, h', -⟩
        rw [Nat.le_zero.1 hi] at h'
        exact absurd h' h
  | F + 1, rand, b => by
    unfold getRandK
    rw [bytesToInt_eq]
    split
    · next h =>
      constructor
      · rintro e
        cases e
        exact ⟨0, Nat.zero_le _, rfl, h, fun j hj => absurd hj (Nat.not_lt_zero _)⟩
      · rintro ⟨i, hi, rfl, -, h'⟩
        cases i with
        | zero => rfl
        | succ i => have := h' 0 (Nat.succ_pos _); omega
    · next h =>
      rw [getRandK_some F]
      constructor
      · rintro ⟨i, hi, rfl, h1, h2⟩
        refine ⟨i + 1, by omega, rfl, h1, fun j hj => ?_⟩
        cases j with
        | zero => omega
        | succ j => exact h2 j (by omega)
      · rintro ⟨i, hi, rfl, h1, h2⟩
        cases i with
        | zero => exact absurd h1 h
        | succ i => exact ⟨i, by omega, rfl, h1, fun j hj => h2 (j + 1) (by omega)⟩

theorem getRandK_none {s : Sig} (F : Nat) (rand : Nat → Bytes) : s.getRandK F rand = none ↔
    ∀ i, i ≤ F → s.q ≤ (beNat (rand i) : Int) := by
  constructor
  · intro h i hi
    by_contra hc
    have hex : ∃ i, i ≤ F ∧ (beNat (rand i) : Int) < s.q := ⟨i, hi, by omega⟩
    classical
    have h1 := Nat.find_spec hex
    have h2 : ∀ j, j < Nat.find hex → s.q ≤ (beNat (rand j) : Int) := fun j hj => by
      have := Nat.find_min hex hj
      by_contra hc
      exact this ⟨by omega, by omega⟩
    have := (getRandK_some F rand (rand (Nat.find hex))).2 ⟨_, h1.1, rfl, h1.2, h2⟩
    rw [h] at this
    cases this
  · intro h
    cases e : s.getRandK F rand with
    | none => rfl
    | some b =>
      obtain ⟨i, hi, -, h1, -⟩ := (getRandK_some F rand b).1 e
      have := h i hi
      omega

/-- The tables of draws for which `_get_rand_k` returns the string of number x. -/
def tables (s : Sig) (F : Nat) (x : Fin (256 ^ s.size)) : Finset (Fin (F + 1) → Fin (256 ^ s.size)) :=
  Finset.univ.filter fun ρ => s.getRandK F (draws s.size F ρ) = some (beBytes s.size x)

theorem mem_tables {s : Sig} {F : Nat} {x : Fin (256 ^ s.size)} {ρ : Fin (F + 1) → Fin (256 ^ s.size)} :
    ρ ∈ tables s F x ↔ ∃ i, ρ i = x ∧ ((x : Nat) : Int) < s.q ∧ ∀ j, j < i → s.q ≤ ((ρ j : Nat) : Int) := by
  have val : ∀ y : Fin (256 ^ s.size), beNat (beBytes s.size y) = y := fun y => by
    rw [beNat_beBytes, Nat.mod_eq_of_lt y.2]
  unfold tables
  rw [Finset.mem_filter, getRandK_some]
  simp only [Finset.mem_univ, true_and]
  constructor
  · rintro ⟨i, hi, e, h1, h2⟩
    have hi' : i < F + 1 := by omega
    refine ⟨⟨i, hi'⟩, ?_, ?_, ?_⟩
    · unfold draws at e
      rw [dif_pos hi'] at e
      have := congrArg beNat e
      rw [val, val] at this
      exact (Fin.ext this).symm
    · rw [← e, val] at h1
      exact h1
    · intro j hj
      have := h2 j hj
      unfold draws at this
      rwa [dif_pos j.2, val] at this
  · rintro ⟨i, rfl, h1, h2⟩
    refine ⟨i, by omega, ?_, ?_, ?_⟩
    · unfold draws
      rw [dif_pos i.2]
    · unfold draws
      rw [dif_pos i.2, val]
      exact h1
    · intro j hj
      have hj' : j < F + 1 := by omega
      unfold draws
      rw [dif_pos hj', val]
      exact h2 ⟨j, hj'⟩ hj

/-- C120: for every number of draws, each value below q is drawn for the same number of tables: there is no bias. -/
theorem C120_uniform (s : Sig) (F : Nat) (x y : Fin (256 ^ s.size)) (hx : ((x : Nat) : Int) < s.q)
    (hy : ((y : Nat) : Int) < s.q) : (tables s F x).card = (tables s F y).card := by
  have low : ∀ z, ((Equiv.swap x y z : Fin (256 ^ s.size)) : Nat) < s.q ↔ ((z : Nat) : Int) < s.q := by
    intro z
    rcases em (z = x) with rfl | hzx
    · rw [Equiv.swap_apply_left]; exact ⟨fun _ => hx, fun _ => hy⟩
    · by_cases hzy : z = y
      · subst hzy; rw [Equiv.swap_apply_right]; exact ⟨fun _ => hy, fun _ => hx⟩
      · rw [Equiv.swap_apply_of_ne_of_ne hzx hzy]
  refine Finset.card_bij (fun ρ _ i => Equiv.swap x y (ρ i)) ?_ ?_ ?_
  · intro ρ h
    obtain ⟨i, e, h1, h2⟩ := mem_tables.1 h
    refine mem_tables.2 ⟨i, by rw [e, Equiv.swap_apply_left], hy, fun j hj => ?_⟩
    have := h2 j hj
    have := low (ρ j)
    omega
  · intro ρ _ ρ' _ e
    funext i
    exact (Equiv.swap x y).injective (congrFun e i)
  · intro ρ h
    obtain ⟨i, e, h1, h2⟩ := mem_tables.1 h
    refine ⟨fun i => Equiv.swap x y (ρ i), mem_tables.2 ⟨i, by rw [e, Equiv.swap_apply_right], hx, fun j hj => ?_⟩, ?_⟩
    · have := h2 j hj
      have := low (ρ j)
      omega
    · funext i
      simp

/-- The tables of draws for which `_get_rand_k` finds nothing. -/
def failing (s : Sig) (F : Nat) : Finset (Fin (F + 1) → Fin (256 ^ s.size)) :=
  Finset.univ.filter fun ρ => s.getRandK F (draws s.size F ρ) = none

theorem mem_failing {s : Sig} {F : Nat} {ρ : Fin (F + 1) → Fin (256 ^ s.size)} :
    ρ ∈ failing s F ↔ ∀ i, s.q ≤ ((ρ i : Nat) : Int) := by
  have val : ∀ y : Fin (256 ^ s.size), beNat (beBytes s.size y) = y := fun y => by
    rw [beNat_beBytes, Nat.mod_eq_of_lt y.2]
  unfold failing
  rw [Finset.mem_filter, getRandK_none]
  simp only [Finset.mem_univ, true_and]
  constructor
  · intro h i
    have := h i (by omega)
    unfold draws at this
    rwa [dif_pos i.2, val] at this
  · intro h i hi
    have hi' : i < F + 1 := by omega
    unfold draws
    rw [dif_pos hi', val]
    exact h ⟨i, hi'⟩

/-- C120: of the 256^size strings q are taken; so all of n draws are refused for exactly (256^size - q)^n of the tables,
and each value is drawn for (256^(size n) - (256^size - q)^n) / q of them. -/
theorem C120_count (s : Sig) (q : Nat) (hq : s.q = q) (hqs : q ≤ 256 ^ s.size) (F : Nat) (x : Fin (256 ^ s.size))
    (hx : (x : Nat) < q) :
    (failing s F).card = (256 ^ s.size - q) ^ (F + 1) ∧
      q * (tables s F x).card + (256 ^ s.size - q) ^ (F + 1) = (256 ^ s.size) ^ (F + 1) := by
  have hf : (failing s F).card = (256 ^ s.size - q) ^ (F + 1) := by
    have e : failing s F = Fintype.piFinset fun _ : Fin (F + 1) =>
        (Finset.univ.filter fun y : Fin (256 ^ s.size) => q ≤ (y : Nat)) := by
      ext ρ
      rw [mem_failing, Fintype.mem_piFinset]
      simp only [Finset.mem_filter, Finset.mem_univ, true_and, hq]
      exact forall_congr' fun i => Int.ofNat_le
    have c : (Finset.univ.filter fun y : Fin (256 ^ s.size) => q ≤ (y : Nat)).card = 256 ^ s.size - q := by
      have h1 := Finset.card_filter_add_card_filter_not (s := (Finset.univ : Finset (Fin (256 ^ s.size))))
        (fun y => (y : Nat) < q)
      have h2 : (Finset.univ.filter fun y : Fin (256 ^ s.size) => (y : Nat) < q).card = q := by
        rw [Fin.card_filter_val_lt]
        exact Nat.min_eq_right hqs
      simp only [not_lt, Finset.card_univ, Fintype.card_fin] at h1
      omega
    rw [e, Fintype.card_piFinset]
    simp [c]
  refine ⟨hf, ?_⟩
  have hsum : (Finset.univ : Finset (Fin (F + 1) → Fin (256 ^ s.size))).card =
      (failing s F).card + ∑ y ∈ Finset.univ.filter fun y : Fin (256 ^ s.size) => (y : Nat) < q, (tables s F y).card := by
    have hu : (Finset.univ : Finset (Fin (F + 1) → Fin (256 ^ s.size))) = failing s F ∪
        (Finset.univ.filter fun y : Fin (256 ^ s.size) => (y : Nat) < q).biUnion (tables s F) := by
      ext ρ
      simp only [Finset.mem_univ, Finset.mem_union, Finset.mem_biUnion, true_iff]
      cases e : s.getRandK F (draws s.size F ρ) with
      | none => exact Or.inl (Finset.mem_filter.2 ⟨Finset.mem_univ _, e⟩)
      | some b =>
        obtain ⟨i, hi, hb, h1, -⟩ := (getRandK_some F _ b).1 e
        have hi' : i < F + 1 := by omega
        unfold draws at hb h1
        rw [dif_pos hi'] at hb h1
        rw [beNat_beBytes, Nat.mod_eq_of_lt (ρ ⟨i, hi'⟩).2, hq] at h1
        refine Or.inr ⟨ρ ⟨i, hi'⟩, Finset.mem_filter.2 ⟨Finset.mem_univ _, by omega⟩,
          Finset.mem_filter.2 ⟨Finset.mem_univ _, ?_⟩⟩
        rw [e, hb]
    conv => lhs; rw [hu]
    rw [Finset.card_union_of_disjoint, Finset.card_biUnion]
    · intro y _ z _ hyz
      rw [Function.onFun, Finset.disjoint_left]
      intro ρ h1 h2
      have h1 := (Finset.mem_filter.1 h1).2
      have h2 := (Finset.mem_filter.1 h2).2
      rw [h1] at h2
      have := congrArg beNat (Option.some.inj h2)
      rw [beNat_beBytes, beNat_beBytes, Nat.mod_eq_of_lt y.2, Nat.mod_eq_of_lt z.2] at this
      exact hyz (Fin.ext this)
    · rw [Finset.disjoint_left]
      intro ρ h1 h2
      obtain ⟨y, -, h2⟩ := Finset.mem_biUnion.1 h2
      have h1 := (Finset.mem_filter.1 h1).2
      have h2 := (Finset.mem_filter.1 h2).2
      rw [h1] at h2
      cases h2
  have hall : ∑ y ∈ Finset.univ.filter fun y : Fin (256 ^ s.size) => (y : Nat) < q, (tables s F y).card =
      q * (tables s F x).card := by
    rw [Finset.sum_congr rfl fun y hy => C120_uniform s F y x (by
      have := (Finset.mem_filter.1 hy).2
      rw [hq]
      omega) (by rw [hq]; omega), Finset.sum_const, Fin.card_filter_val_lt, Nat.min_eq_right hqs, smul_eq_mul]
  rw [hall, hf] at hsum
  rw [Finset.card_univ, Fintype.card_pi] at hsum
  simp only [Fintype.card_fin, Finset.prod_const, Finset.card_univ] at hsum
  omega

/-- C120: on every object which `new` returns at least one string of 16 is taken (of 4 with 256 bits), so that n draws are
all refused for at most (15/16)^n of the tables. -/
theorem C120_share (mode : Int) (c : CurveParams) (s : Sig) (h : new mode c = .ok s) (F : Nat) :
    256 ^ s.size ≤ 16 * s.q ∧ (failing s F).card * 16 ^ (F + 1) ≤ 15 ^ (F + 1) * (256 ^ s.size) ^ (F + 1) := by
  have ha : Acceptable s := by
    by_cases hE : Edwards (given mode c)
    · exact ((C45_accepted_edwards mode c hE s).1 h).2.2
    · obtain ⟨-, rfl, h2⟩ := (C45_accepted_partial mode c hE s).1 h
      exact h2
  obtain ⟨-, -, -, hr⟩ := ha
  obtain ⟨q, hq, h1, h2⟩ : ∃ q : Nat, s.q = q ∧ 256 ^ s.size ≤ 16 * q ∧ q ≤ 256 ^ s.size := by
    have conv : ∀ a b : Nat, (2 : Int) ^ a ≤ s.q → s.q ≤ 2 ^ b → ∃ q : Nat, s.q = q ∧ 2 ^ a ≤ q ∧ q ≤ 2 ^ b := by
      intro a b h1 h2
      have h0 : 0 ≤ s.q := Int.le_trans (by positivity) h1
      obtain ⟨q, hq⟩ := Int.eq_ofNat_of_zero_le h0
      rw [hq] at h1 h2 ⊢
      exact ⟨q, rfl, by exact_mod_cast h1, by exact_mod_cast h2⟩
    rcases hr with ⟨hs, h1, h2⟩ | ⟨hs, h1, h2⟩
    · obtain ⟨q, e, a, b⟩ := conv 254 256 h1 h2
      refine ⟨q, e, ?_, ?_⟩
      · rw [hs, show 256 ^ 32 = 4 * 2 ^ 254 by decide +kernel]
        omega
      · rw [hs, show 256 ^ 32 = 2 ^ 256 by decide +kernel]
        exact b
    · obtain ⟨q, e, a, b⟩ := conv 508 512 h1 h2
      refine ⟨q, e, ?_, ?_⟩
      · rw [hs, show 256 ^ 64 = 16 * 2 ^ 508 by decide +kernel]
        exact Nat.mul_le_mul_left _ a
      · rw [hs, show 256 ^ 64 = 2 ^ 512 by decide +kernel]
        exact b
  have hpos : 0 < 256 ^ s.size := Nat.pow_pos (by decide)
  refine ⟨by rw [hq]; exact_mod_cast h1, ?_⟩
  rw [(C120_count s q hq h2 F ⟨0, hpos⟩ (by show 0 < q; omega)).1, ← Nat.mul_pow, ← Nat.mul_pow]
  exact Nat.pow_le_pow_left (by omega) _

/-- The tables of draws for which `sign` returns a given signature. -/
def signing (s : Sig) (F : Nat) (sk dgv rkv : PyVal) (sig : Bytes) : Finset (Fin (F + 1) → Fin (256 ^ s.size)) := by
  classical exact Finset.univ.filter fun ρ => s.sign F (draws s.size F ρ) sk dgv rkv = some (.ok sig)

/-- Two random values of `size` bytes with which the same digest gets the same signature are equal. -/
theorem sign_random_inj {s : Sig} {p q : Nat} [Fact p.Prime] {P : (curve s p).Point} (hg : Good s p q P)
    {sk dgv : PyVal} {d dg : Bytes} (hd : sk.data? = some d) (hdg : dgv.data? = some dg) {F F' : Nat} {rand rand' : Nat → Bytes}
    {r r' sig : Bytes} (hr : r ≠ []) (hr' : r' ≠ []) (hl : r.length = r'.length)
    (h : s.sign F rand sk dgv (.bytes r) = some (.ok sig)) (h' : s.sign F' rand' sk dgv (.bytes r') = some (.ok sig)) :
    r = r' := by
  obtain ⟨k, e, -, f⟩ := C118_signature hg hd hdg h
  obtain ⟨k', e', -, f'⟩ := C118_signature hg hd hdg h'
  have hk : k = r := by
    rcases e with ⟨e, -⟩ | ⟨e, -⟩
    · cases e; rfl
    · cases e; exact absurd rfl hr
  have hk' : k' = r' := by
    rcases e' with ⟨e, -⟩ | ⟨e, -⟩
    · cases e; rfl
    · cases e; exact absurd rfl hr'
  subst hk hk'
  have low : ∀ {F rand r}, r ≠ [] → s.sign F rand sk dgv (.bytes r) = some (.ok sig) → beNat r < q := by
    intro F rand r hr h
    obtain ⟨d', dg', rk, h1, l1, h2, l2, h3, h4, -⟩ := sign_ok h
    rcases h3 with ⟨h3, -⟩ | ⟨h3, -⟩
    · cases h3
      rw [hg.hq] at h4
      omega
    · cases h3
      exact absurd rfl hr
  have := (ZMod.natCast_eq_natCast_iff _ _ _).1 (f.trans f'.symm)
  unfold Nat.ModEq at this
  rw [Nat.mod_eq_of_lt (low hr h), Nat.mod_eq_of_lt (low hr' h')] at this
  exact beNat_inj _ _ hl this

/-- C120: without a random value given, all signatures of a digest which `sign` can return are returned for the same
number of tables of draws, whatever the number of draws is. -/
theorem C120_signature {s : Sig} {p q : Nat} [Fact p.Prime] {P : (curve s p).Point} (hg : Good s p q P)
    {sk dgv rkv : PyVal} {d dg : Bytes} (hd : sk.data? = some d) (hdg : dgv.data? = some dg) (hrk : rkv.data? = some [])
    (F : Nat) {r r' sig sig' : Bytes} (hr : r.length = s.size) (hr' : r'.length = s.size) {rand rand' : Nat → Bytes}
    (h : s.sign F rand sk dgv (.bytes r) = some (.ok sig)) (h' : s.sign F rand' sk dgv (.bytes r') = some (.ok sig')) :
    0 < (signing s F sk dgv rkv sig).card ∧
      (signing s F sk dgv rkv sig).card = (signing s F sk dgv rkv sig').card ∧
      q * (signing s F sk dgv rkv sig).card + (256 ^ s.size - q) ^ (F + 1) = (256 ^ s.size) ^ (F + 1) := by
  have size : 0 < s.size := by
    rcases Nat.eq_zero_or_pos s.size with h | h
    · have := hg.qsize
      rw [h] at this
      have := hg.qodd
      omega
    · exact h
  have main : ∀ {r sig : Bytes} {rand : Nat → Bytes}, r.length = s.size →
      s.sign F rand sk dgv (.bytes r) = some (.ok sig) → ∃ x : Fin (256 ^ s.size), (x : Nat) < q ∧
        signing s F sk dgv rkv sig = tables s F x := by
    intro r sig rand hr h
    have hne : r ≠ [] := by rintro rfl; simp at hr; omega
    obtain ⟨x, e1, e2⟩ := draws_string s.size r hr
    obtain ⟨d', dg', rk, h1, l1, h2, l2, h3, h4, h5⟩ := sign_ok h
    rw [hd] at h1
    cases h1
    rw [hdg] at h2
    cases h2
    have hk : rk = r := by
      rcases h3 with ⟨h3, -⟩ | ⟨h3, -⟩
      · cases h3; rfl
      · cases h3; exact absurd rfl hne
    subst hk
    rw [hg.hq] at h4
    refine ⟨x, by omega, ?_⟩
    ext ρ
    unfold signing tables
    rw [Finset.mem_filter, Finset.mem_filter, sign_random hd l1 hdg l2 hrk]
    simp only [Finset.mem_univ, true_and]
    rw [e1]
    constructor
    · intro hs
      cases e : s.getRandK F (draws s.size F ρ) with
      | none => rw [e] at hs; cases hs
      | some b =>
        rw [e] at hs
        obtain ⟨i, hi, hb, h6, -⟩ := (getRandK_some F _ b).1 e
        have hbl : b.length = s.size := by
          rw [hb]
          unfold draws
          rw [dif_pos (by omega), beBytes_length]
        have hbne : b ≠ [] := by rintro rfl; simp at hbl; omega
        have : s.sign F rand sk dgv (.bytes b) = some (.ok sig) := by
          rw [sign_explicit hd l1 hdg l2 rfl hbne, if_neg (by rw [hb]; omega)]
          exact hs
        rw [sign_random_inj hg hd hdg hbne hne (by rw [hbl, hr]) this h]
    · intro e
      rw [e]
      exact h5
  obtain ⟨x, hx, ex⟩ := main hr h
  obtain ⟨y, hy, ey⟩ := main hr' h'
  rw [ex, ey]
  refine ⟨?_, C120_uniform s F x y (by rw [hg.hq]; omega) (by rw [hg.hq]; omega), (C120_count s q hg.hq hg.qsize F x hx).2⟩
  refine Finset.card_pos.2 ⟨fun _ => x, mem_tables.2 ⟨0, rfl, by rw [hg.hq]; omega, fun j hj => ?_⟩⟩
  exact absurd hj (Fin.not_lt_zero j)

/-- C120: the value 0 is among those which are drawn, as often as every other one; with it `sign` does not return. -/
theorem C120_zero {s : Sig} {p q : Nat} [Fact p.Prime] {P : (curve s p).Point} (hg : Good s p q P)
    {sk dgv rkv : PyVal} {d dg : Bytes} (hd : sk.data? = some d) (ld : d.length = s.size) (hdg : dgv.data? = some dg)
    (ldg : dg.length = s.size) (hrk : rkv.data? = some []) (F : Nat) (z : Fin (256 ^ s.size)) (hz : (z : Nat) = 0) :
    (∀ ρ ∈ tables s F z, ∀ G, s.sign G (draws s.size F ρ) sk dgv rkv = none) ∧
      ∀ x : Fin (256 ^ s.size), (x : Nat) < q → (tables s F z).card = (tables s F x).card := by
  refine ⟨fun ρ h G => ?_, fun x hx => C120_uniform s F z x ?_ (by rw [hg.hq]; omega)⟩
  · obtain ⟨i, e, h1, h2⟩ := mem_tables.1 h
    cases hs : s.sign G (draws s.size F ρ) sk dgv rkv with
    | none => rfl
    | some o =>
      exfalso
      obtain ⟨j, hj1, r, sg, st⟩ := (C44_sign_random hg hd ld hdg ldg hrk (draws s.size F ρ)).1 ⟨G, o, hs⟩
      have val : ∀ i : Fin (F + 1), beNat (draws s.size F ρ i) = ρ i := fun i => by
        unfold draws
        rw [dif_pos i.2, beNat_beBytes, Nat.mod_eq_of_lt (ρ _).2]
      rcases Nat.lt_trichotomy j i with hlt | rfl | hgt
      · have h3 := h2 ⟨j, by omega⟩ hlt
        have h4 := st.2.1
        rw [val ⟨j, by omega⟩] at h4
        rw [hg.hq] at h3
        omega
      · have h4 := st.1
        rw [val, e] at h4
        omega
      · have h3 := hj1 i hgt
        rw [val, e, hz] at h3
        have := hg.qprime.pos
        omega
  · rw [hg.hq, hz]
    exact_mod_cast hg.qprime.pos

/-- A case: the built-in curve paramSetB, private key 2, digest 1, random value 2. -/
example (F : Nat) (hF : B42.q ≤ 2 ^ F) :
    B42.q * (signing (given 1 Curves.c256B) F (.bytes B42.two) (.bytes B42.one) (.bytes [])
      (beBytes 32 B42.r2 ++ beBytes 32 B42.s2)).card +
      (256 ^ (given 1 Curves.c256B).size - B42.q) ^ (F + 1) = (256 ^ (given 1 Curves.c256B).size) ^ (F + 1) := by
  obtain ⟨-, P, hg, -, -, -, -, f⟩ := C41_example
  have h := (f F hF).2.1
  exact (C120_signature hg (rkv := .bytes []) rfl rfl rfl F rfl rfl h h).2.2

end Gost.Sig
