import Verif.Props.Random
import Verif.Proofs.Kuz
import Verif.Proofs.Magma

/-! Property C118: what a part of the secret state gives away. Round keys and the register of the generator; the
random value of a signature is in `SignatureCompromise`. -/

namespace Gost
open Spec (beNat beBytes randValue randOut randUsed randReg)
open Rand (H)

/-! ### Kuznechik -/

namespace Kuz

/-- One step of the key schedule backwards, written with the step of the standard: exchange, step, exchange. -/
def stepBack (c : Bytes) (a : Bytes × Bytes) : Bytes × Bytes := (Spec.Kuz.F c a.swap).swap

/-- The pair of round keys number `i` taken back to the key, constant by constant. -/
def unwind : Nat → Bytes × Bytes → Bytes × Bytes
  | 0, a => a
  | i + 1, a => unwind i ((List.range 8).foldr (fun j a => stepBack (Spec.Kuz.C (8 * i + j + 1)) a) a)

/-- Both halves of a pair have 16 bytes. -/
def Halves (a : Bytes × Bytes) : Prop := a.1.length = 16 ∧ a.2.length = 16

theorem halves_F {c : Bytes} (hc : c.length = 16) {a : Bytes × Bytes} (h : Halves a) : Halves (Spec.Kuz.F c a) :=
  F_length c a hc h.1 h.2

theorem halves_back {c : Bytes} (hc : c.length = 16) {a : Bytes × Bytes} (h : Halves a) : Halves (stepBack c a) :=
  ⟨(F_length c a.swap hc h.2 h.1).2, (F_length c a.swap hc h.2 h.1).1⟩

theorem lsx_length {c b : Bytes} (hc : c.length = 16) (hb : b.length = 16) :
    (Spec.Kuz.L (Spec.Kuz.S (Spec.Kuz.xor c b))).length = 16 := by
  apply L_length
  simp [Spec.Kuz.S, xor_eq, hc, hb]

theorem back_F {c : Bytes} (hc : c.length = 16) {a : Bytes × Bytes} (h : Halves a) : stepBack c (Spec.Kuz.F c a) = a := by
  obtain ⟨a1, a0⟩ := a
  have := lsx_length hc h.1
  simp only [stepBack, Spec.Kuz.F, Prod.swap]
  rw [xor_eq _ (Spec.Kuz.xor _ _), xor_eq _ a0, addXor_cancel _ _ (by rw [this]; exact Nat.le_of_eq h.2)]

theorem F_back {c : Bytes} (hc : c.length = 16) {a : Bytes × Bytes} (h : Halves a) : Spec.Kuz.F c (stepBack c a) = a := by
  obtain ⟨a1, a0⟩ := a
  have := lsx_length hc h.2
  simp only [stepBack, Spec.Kuz.F, Prod.swap]
  rw [xor_eq _ (Spec.Kuz.xor _ _), xor_eq _ a1, addXor_cancel _ _ (by rw [this]; exact Nat.le_of_eq h.1)]

theorem halves_foldr (i : Nat) (l : List Nat) {a : Bytes × Bytes} (h : Halves a) :
    Halves (l.foldr (fun j a => stepBack (Spec.Kuz.C (8 * i + j + 1)) a) a) := by
  induction l with
  | nil => exact h
  | cons j l ih => exact halves_back (C_length _) ih

theorem foldr_foldl (i : Nat) (l : List Nat) {a : Bytes × Bytes} (h : Halves a) :
    l.foldr (fun j a => stepBack (Spec.Kuz.C (8 * i + j + 1)) a) (l.foldl (fun a j => Spec.Kuz.F (Spec.Kuz.C (8 * i + j + 1)) a) a)
      = a := by
  induction l generalizing a with
  | nil => rfl
  | cons j l ih =>
    rw [List.foldl_cons, List.foldr_cons, ih (halves_F (C_length _) h), back_F (C_length _) h]

theorem foldl_foldr (i : Nat) (l : List Nat) {a : Bytes × Bytes} (h : Halves a) :
    l.foldl (fun a j => Spec.Kuz.F (Spec.Kuz.C (8 * i + j + 1)) a) (l.foldr (fun j a => stepBack (Spec.Kuz.C (8 * i + j + 1)) a) a)
      = a := by
  induction l with
  | nil => rfl
  | cons j l ih =>
    rw [List.foldr_cons, List.foldl_cons, F_back (C_length _) (halves_foldr i l h), ih]

theorem halves_unwind (i : Nat) {a : Bytes × Bytes} (h : Halves a) : Halves (unwind i a) := by
  induction i generalizing a with
  | zero => exact h
  | succ i ih => exact ih (halves_foldr i _ h)

theorem unwind_pair (key : Bytes) (h : key.length = 32) (i : Nat) :
    unwind i (Spec.Kuz.keyPair key i) = (key.take 16, key.drop 16) := by
  induction i with
  | zero => rfl
  | succ i ih =>
    rw [unwind, Spec.Kuz.keyPair, foldr_foldl i _ (keyPair_length key h i), ih]

theorem pair_unwind (i : Nat) {a : Bytes × Bytes} (h : Halves a) :
    Spec.Kuz.keyPair ((unwind i a).1 ++ (unwind i a).2) i = a := by
  induction i generalizing a with
  | zero =>
    rw [Spec.Kuz.keyPair, unwind, List.take_left' h.1, List.drop_left' h.1]
  | succ i ih =>
    rw [Spec.Kuz.keyPair, unwind, ih (halves_foldr i _ h), foldl_foldr i _ h]

theorem roundKey_pair (key : Bytes) (i : Nat) :
    Spec.Kuz.roundKey key (2 * i) = (Spec.Kuz.keyPair key i).1 ∧ Spec.Kuz.roundKey key (2 * i + 1) = (Spec.Kuz.keyPair key i).2 := by
  unfold Spec.Kuz.roundKey
  rw [if_pos (by omega), if_neg (by omega), show 2 * i / 2 = i by omega, show (2 * i + 1) / 2 = i by omega]
  exact ⟨rfl, rfl⟩

/-- C118, Kuznechik: any two neighbouring round keys (numbers 2i and 2i+1, counted from 0) are the whole key, by steps
of the key schedule. -/
theorem C118_kuznechik (key : Bytes) (h : key.length = 32) :
    ∃ ks, init key = .ok ks ∧ ∀ i, i < 5 →
      (unwind i (ks.getD (2 * i) [], ks.getD (2 * i + 1) [])).1 ++ (unwind i (ks.getD (2 * i) [], ks.getD (2 * i + 1) [])).2 = key := by
  refine ⟨_, init_ok key h, fun i hi => ?_⟩
  have g : ∀ n, n < 10 → ((List.range 10).map (Spec.Kuz.roundKey key)).getD n [] = Spec.Kuz.roundKey key n := by
    intro n hn
    simp [List.getD, hn]
  rw [g _ (by omega), g _ (by omega), (roundKey_pair key i).1, (roundKey_pair key i).2]
  rw [show ((Spec.Kuz.keyPair key i).1, (Spec.Kuz.keyPair key i).2) = Spec.Kuz.keyPair key i from rfl, unwind_pair key h,
    List.take_append_drop]

/-- C118, Kuznechik: one round key alone does not limit the key: with any value of its neighbour there is exactly one
key. -/
theorem C118_kuznechik_one (i : Nat) (hi : i < 5) (a b : Bytes) (ha : a.length = 16) (hb : b.length = 16) :
    ∃ key, key.length = 32 ∧ (∃ ks, init key = .ok ks ∧ ks.getD (2 * i) [] = a ∧ ks.getD (2 * i + 1) [] = b) ∧
      ∀ key', key'.length = 32 → (∃ ks, init key' = .ok ks ∧ ks.getD (2 * i) [] = a ∧ ks.getD (2 * i + 1) [] = b) → key' = key := by
  have hh : Halves (a, b) := ⟨ha, hb⟩
  have hu := halves_unwind i hh
  have hl : ((unwind i (a, b)).1 ++ (unwind i (a, b)).2).length = 32 := by rw [List.length_append, hu.1, hu.2]
  refine ⟨_, hl, ⟨_, init_ok _ hl, ?_, ?_⟩, ?_⟩
  · rw [show ((List.range 10).map (Spec.Kuz.roundKey ((unwind i (a, b)).1 ++ (unwind i (a, b)).2))).getD (2 * i) [] =
      Spec.Kuz.roundKey ((unwind i (a, b)).1 ++ (unwind i (a, b)).2) (2 * i) by simp [List.getD, show 2 * i < 10 by omega],
      (roundKey_pair _ i).1, pair_unwind i hh]
  · rw [show ((List.range 10).map (Spec.Kuz.roundKey ((unwind i (a, b)).1 ++ (unwind i (a, b)).2))).getD (2 * i + 1) [] =
      Spec.Kuz.roundKey ((unwind i (a, b)).1 ++ (unwind i (a, b)).2) (2 * i + 1) by simp [List.getD, show 2 * i + 1 < 10 by omega],
      (roundKey_pair _ i).2, pair_unwind i hh]
  · rintro key' hk ⟨ks, e, e1, e2⟩
    obtain ⟨ks', e', f⟩ := C118_kuznechik key' hk
    rw [e] at e'
    cases e'
    have f := f i hi
    rw [e1, e2] at f
    exact f.symm

/-- A case: a key whose third and fourth round keys are the numbers of the bytes and ones. -/
example : ∃ key, key.length = 32 ∧ ∃ ks, init key = .ok ks ∧ ks.getD 2 [] = Ex.count 1 16 ∧ ks.getD 3 [] = List.replicate 16 1 := by
  obtain ⟨key, h, k, -⟩ := C118_kuznechik_one 1 (by decide) (Ex.count 1 16) (List.replicate 16 1) (by decide) (by decide)
  exact ⟨key, h, k⟩

end Kuz

/-! ### Magma -/

namespace Magma

/-- The rounds (counted from 0) in which word `w` of the key is used. -/
def rounds (w : Nat) : List Nat := [w, 8 + w, 16 + w, 31 - w]

theorem keys_words (key : Bytes) (h : key.length = 32) :
    init key = .ok ((List.range 32).map fun n => (key.drop (4 * (if n < 24 then n % 8 else 7 - n % 8))).take 4) := by
  have he : expand key = .ok ((List.range 8).map fun j => (key.drop (4 * j)).take 4) := by
    unfold expand
    apply mapM_ok
    intro j hj
    have hj8 : j < 8 := by simpa using hj
    rw [keyWord_ok key h (j * 4) (by omega), Nat.mul_comm]
  have hf : expandFinal key = .ok ((List.range 8).map fun j => (key.drop (4 * (7 - j))).take 4) := by
    unfold expandFinal
    apply mapM_ok
    intro j hj
    have hj8 : j < 8 := by simpa using hj
    rw [keyWord_ok key h (28 - j * 4) (by omega), show 28 - j * 4 = 4 * (7 - j) by omega]
  unfold init
  rw [he, hf]
  simp only [Res.bind_ok, Res.pure_eq]
  rfl

/-- C118, Magma: word `w` of the key is the round key of each of four rounds, and eight rounds with different words are
the key. -/
theorem C118_magma (key : Bytes) (h : key.length = 32) :
    ∃ ks, init key = .ok ks ∧ (∀ w, w < 8 → ∀ n ∈ rounds w, ks.getD n [] = (key.drop (4 * w)).take 4) ∧
      ∀ f : Nat → Nat, (∀ w, w < 8 → f w ∈ rounds w) → ((List.range 8).map fun w => ks.getD (f w) []).flatten = key := by
  have hw : ∀ w, w < 8 → ∀ n ∈ rounds w,
      ((List.range 32).map fun n => (key.drop (4 * (if n < 24 then n % 8 else 7 - n % 8))).take 4).getD n [] =
        (key.drop (4 * w)).take 4 := by
    intro w hw n hn
    have hn32 : n < 32 ∧ (if n < 24 then n % 8 else 7 - n % 8) = w := by
      simp only [rounds, List.mem_cons, List.not_mem_nil, or_false] at hn
      rcases hn with rfl | rfl | rfl | rfl
      · exact ⟨by omega, by rw [if_pos (by omega)]; omega⟩
      · exact ⟨by omega, by rw [if_pos (by omega)]; omega⟩
      · exact ⟨by omega, by rw [if_pos (by omega)]; omega⟩
      · exact ⟨by omega, by rw [if_neg (by omega)]; omega⟩
    simp only [List.getD, List.getElem?_map, List.getElem?_range hn32.1, Option.map_some, Option.getD_some, hn32.2]
  refine ⟨_, keys_words key h, hw, fun f hf => ?_⟩
  have r8 : List.range 8 = [0, 1, 2, 3, 4, 5, 6, 7] := rfl
  have cut : ∀ n, key.drop n = (key.drop n).take 4 ++ key.drop (n + 4) := by
    intro n
    rw [← List.drop_drop, List.take_append_drop]
  have e : ∀ w, w < 8 → _ := fun w h8 => hw w h8 (f w) (hf w h8)
  rw [r8]
  simp only [List.map_cons, List.map_nil, List.flatten_cons, List.flatten_nil]
  rw [e 0 (by omega), e 1 (by omega), e 2 (by omega), e 3 (by omega), e 4 (by omega), e 5 (by omega), e 6 (by omega),
    e 7 (by omega)]
  have c0 := cut 0
  rw [cut (0 + 4), cut (0 + 4 + 4), cut (0 + 4 + 4 + 4), cut (0 + 4 + 4 + 4 + 4), cut (0 + 4 + 4 + 4 + 4 + 4),
    cut (0 + 4 + 4 + 4 + 4 + 4 + 4), cut (0 + 4 + 4 + 4 + 4 + 4 + 4 + 4), show key.drop (0 + 4 + 4 + 4 + 4 + 4 + 4 + 4 + 4) = [] from List.drop_eq_nil_of_le (by omega)] at c0
  exact c0.symm

/-- A case: the last eight rounds, from the last one. -/
example : ∀ w, w < 8 → 31 - w ∈ rounds w := by
  intro w _
  simp [rounds]

end Magma

/-! ### The generator -/

theorem after_inv (seed : Bytes) (hs : seed.length ≤ 63) (hz : beNat seed ≠ 0) (size n : Nat) :
    ∀ m (s : Rand), (m + n) * randUsed size < 256 ^ (63 - seed.length) →
    Rand.Inv (seedReg seed) seed.length size (m * randUsed size) s →
    Rand.Inv (seedReg seed) seed.length size ((m + n) * randUsed size) (afterRandoms n s) := by
  induction n with
  | zero => intro m s _ hi; exact hi
  | succ n ih =>
    intro m s hm hi
    have hle : m * randUsed size ≤ (m + (n + 1)) * randUsed size := Nat.mul_le_mul_right _ (by omega)
    obtain ⟨s', h1, h2⟩ := Rand.random_ok hi (seedReg_length seed) (by omega) (by
      rw [top_const seed hs _ (by omega)]; exact hz)
    rw [afterRandoms, h1]
    rw [← Nat.succ_mul] at h2
    have := ih (m + 1) s' (by rw [show m + 1 + n = m + (n + 1) by omega]; exact hm) h2
    rwa [show m + 1 + n = m + (n + 1) by omega] at this

/-- C118, the generator: at any time before the counter is used up the register begins with the seed in clear, and the
outputs of all the calls so far can be computed from the register alone. -/
theorem C118_random (rand : Bytes) (size : Nat) (v : PyVal) (seed : Bytes) (hv : v.data? = some seed)
    (hz : beNat seed ≠ 0) (hr : rand.length = seed.length) (hsz : seed.length ≤ 63) (n : Nat)
    (hn : n * randUsed size < 256 ^ (63 - seed.length)) :
    ∃ s, Rand.new rand size (some v) seed.length = .ok s ∧
      (afterRandoms n s).randU.take seed.length = seed ∧
      randoms n s = (List.range n).map fun j =>
        .ok (randOut H (beNat (afterRandoms n s).randU - n * randUsed size) (j * randUsed size) size) := by
  obtain ⟨s, h1, h2⟩ := C35_random rand size v seed hv hz hr hsz n (Nat.le_of_lt hn)
  have hne : seed ≠ [] := by rintro rfl; exact hz rfl
  have hs := new_seeded rand size v seed hv hne hr
  rw [h1] at hs
  cases hs
  have hi := after_inv seed hsz hz size n 0 (seeded seed size) (by rw [Nat.zero_add]; exact hn)
    (by rw [Nat.zero_mul]; exact seeded_inv seed size)
  rw [Nat.zero_add] at hi
  have hreg : (afterRandoms n (seeded seed size)).randU = beBytes 63 (beNat (seedReg seed) + n * randUsed size) := by
    rw [hi.reg, Rand.randReg_short _ _ (by rw [seedReg_length]; omega), randValue]
  have hsum : 256 ^ 63 = 256 ^ seed.length * 256 ^ (63 - seed.length) := by
    rw [← Nat.pow_add]; congr 1; omega
  have hlt : beNat (seedReg seed) + n * randUsed size < 256 ^ 63 := by
    rw [seedReg_beNat, hsum]
    have := Nat.mul_le_mul_right (256 ^ (63 - seed.length)) (beNat_lt seed)
    rw [Nat.succ_mul] at this
    omega
  refine ⟨_, h1, ?_, ?_⟩
  · have := top_const seed hsz _ hn
    rw [← hi.reg] at this
    apply beNat_inj
    · rw [List.length_take, hreg, beBytes_length]; omega
    · exact this
  · rw [h2, hreg, beNat_beBytes, Nat.mod_eq_of_lt hlt, seedReg_beNat, Nat.add_sub_cancel]

/-- A case for C118: a seed of 32 bytes, ten calls for 100 bytes each. -/
example : beNat (Ex.count 1 32) ≠ 0 ∧ (Ex.count 1 32).length ≤ 63 ∧
    10 * randUsed 100 < 256 ^ (63 - (Ex.count 1 32).length) := by decide +kernel

end Gost
