import Verif.Proofs.Curve

/-! Signing and verification. -/

namespace Gost.Sig
open Spec (beNat beBytes)

/-! ### More fuel does not change a result -/

theorem mulLoop_mono (s : Sig) (F : Nat) : ∀ (v : Int) (c d e : Int × Int), mulLoop s F v c d = some e →
    ∀ G, F ≤ G → mulLoop s G v c d = some e := by
  induction F with
  | zero =>
    intro v c d e h G hG
    by_cases hv : v = 0
    · subst hv
      rw [mulLoop_zero] at h ⊢
      exact h
    · rw [mulLoop] at h; simp [hv] at h
  | succ F ih =>
    intro v c d e h G hG
    by_cases hv : v = 0
    · subst hv
      rw [mulLoop_zero] at h ⊢
      exact h
    · obtain ⟨G, rfl⟩ : ∃ G', G = G' + 1 := ⟨G - 1, by omega⟩
      rw [mulLoop_succ _ _ hv] at h ⊢
      exact ih _ _ _ _ h G (by omega)

theorem mulPoint_mono (s : Sig) (F G : Nat) (hG : F ≤ G) (k x y : Int) (e : Int × Int)
    (h : s.mulPoint F k x y = some e) : s.mulPoint G k x y = some e := by
  rw [mulPoint_eq F k x y _ rfl] at h
  rw [mulPoint_eq G k x y _ rfl]
  exact mulLoop_mono s F _ _ _ _ h G hG

theorem getRandK_mono (s : Sig) (F : Nat) : ∀ (rand : Nat → Bytes) (b : Bytes), s.getRandK F rand = some b →
    ∀ G, F ≤ G → s.getRandK G rand = some b := by
  induction F with
  | zero =>
    intro rand b h G hG
    rw [getRandK] at h
    split at h
    · next hc => rw [getRandK.eq_def]; dsimp only; rw [if_pos hc]; exact h
    · cases h
  | succ F ih =>
    intro rand b h G hG
    obtain ⟨G, rfl⟩ : ∃ G', G = G' + 1 := ⟨G - 1, by omega⟩
    rw [getRandK] at h ⊢
    split at h
    · next hc => rw [if_pos hc]; exact h
    · next hc => rw [if_neg hc]; exact ih _ _ h G (by omega)

/-! ### Numbers below q and their bytes -/

theorem zero_bytes (n : Nat) (v : Int) (h0 : 0 ≤ v) (h : v < 256 ^ n) :
    compareToZero (intToBytes v n) = true ↔ v = 0 := by
  rw [C48_compare_to_zero]
  obtain ⟨w, rfl⟩ : ∃ w : Nat, v = w := ⟨v.toNat, by omega⟩
  have hw : w < 256 ^ n := by exact_mod_cast h
  rw [intToBytes_nat]
  constructor
  · intro hz
    have : beBytes n w = List.replicate n 0 :=
      List.eq_replicate_iff.2 ⟨by rw [← intToBytes_nat]; exact (C48_conversions w n []).1, hz⟩
    have h2 := beNat_beBytes n w
    rw [this, beNat_zeros, Nat.mod_eq_of_lt hw] at h2
    omega
  · intro h
    have : w = 0 := by omega
    subst this
    rw [beBytes_zero]
    intro x hx
    exact List.eq_of_mem_replicate hx

theorem setE_eq (s : Sig) (q : Nat) (hq : s.q = q) (hq1 : 1 < q) (hsize : q ≤ 256 ^ s.size) (digest : Bytes) :
    s.setE digest = (stdE q digest : Nat) := by
  unfold setE stdE
  dsimp only
  have e1 : (bytesToInt digest : Int).fmod s.q = ((beNat digest % q : Nat) : Int) := by
    rw [bytesToInt_eq, hq, Int.fmod_eq_emod_of_nonneg _ (by omega), Int.natCast_emod]
  have hlt := Nat.mod_lt (beNat digest) (show 0 < q by omega)
  have hz := zero_bytes s.size ((beNat digest % q : Nat) : Int) (by omega)
    (by have : (q : Int) ≤ 256 ^ s.size := by exact_mod_cast hsize
        omega)
  rw [e1]
  by_cases h0 : beNat digest % q = 0
  · rw [if_pos (hz.2 (by omega)), if_pos h0]; rfl
  · rw [if_neg (fun h => h0 (by have := hz.1 h; omega)), if_neg h0]

theorem stdE_range (q : Nat) (hq : 1 < q) (digest : Bytes) : 0 < stdE q digest ∧ stdE q digest < q := by
  unfold stdE
  have := Nat.mod_lt (beNat digest) (show 0 < q by omega)
  split <;> omega

/-! ### The loops of sign -/

theorem signInner_step (s : Sig) (F : Nat) (k : Int) (n : Nat) (r : Int) (hr0 : 0 ≤ r)
    (hr : r < 256 ^ s.size) :
    signInner s F k n r = if r ≠ 0 then some r else
      match n with
      | 0 => none
      | n + 1 => match s.mulPoint F k with
        | none => none
        | some c => signInner s F k n (c.1.fmod s.q) := by
  have hz := zero_bytes s.size r hr0 hr
  rw [signInner.eq_def]
  dsimp only
  by_cases h : r = 0
  · rw [hz.2 h, if_neg (by simp), if_neg (by simp [h])]
    rfl
  · rw [Bool.eq_false_iff.2 fun h' => h (hz.1 h'), if_pos (by simp), if_pos h]

theorem signOuter_step (s : Sig) (F : Nat) (d e k : Int) (n : Nat) (r sg : Int) (hs0 : 0 ≤ sg)
    (hs : sg < 256 ^ s.size) :
    signOuter s F d e k n r sg = if sg ≠ 0 then some (r, sg) else
      match n with
      | 0 => none
      | n + 1 => match signInner s F k F r with
        | none => none
        | some r => signOuter s F d e k n r ((r * d + k * e).fmod s.q) := by
  have hz := zero_bytes s.size sg hs0 hs
  rw [signOuter.eq_def]
  dsimp only
  by_cases h : sg = 0
  · rw [hz.2 h, if_neg (by simp), if_neg (by simp [h])]
    rfl
  · rw [Bool.eq_false_iff.2 fun h' => h (hz.1 h'), if_pos (by simp), if_pos h]

section
variable (s : Sig) (q : Nat) (hq : s.q = q) (hq0 : 0 < q) (hsize : q ≤ 256 ^ s.size)
include hq hq0 hsize

theorem fmod_q (v : Int) : 0 ≤ v.fmod s.q ∧ v.fmod s.q < 256 ^ s.size := by
  have h := fmod_range q hq0 v
  have : (q : Int) ≤ 256 ^ s.size := by exact_mod_cast hsize
  rw [hq]
  omega

/-- Without a point k*P, or with r = 0, the inner loop does not end. -/
theorem signInner_none (F : Nat) (k : Int) (hk : ∀ c, s.mulPoint F k = some c → c.1.fmod s.q = 0) :
    ∀ n, signInner s F k n 0 = none := by
  intro n
  induction n with
  | zero => rw [signInner_step s F k 0 0 (by omega) (by positivity)]; simp
  | succ n ih =>
    rw [signInner_step s F k (n + 1) 0 (by omega) (by positivity), if_neg (by simp)]
    cases hm : s.mulPoint F k with
    | none => rfl
    | some c =>
      show signInner s F k n (c.1.fmod s.q) = none
      rw [hk c hm, ih]

theorem signInner_some (F : Nat) (k : Int) (n : Nat) (c : Int × Int) (hc : s.mulPoint F k = some c)
    (hr : c.1.fmod s.q ≠ 0) : signInner s F k (n + 1) 0 = some (c.1.fmod s.q) := by
  rw [signInner_step s F k (n + 1) 0 (by omega) (by positivity), if_neg (by simp), hc]
  show signInner s F k n (c.1.fmod s.q) = _
  have := fmod_q s q hq hq0 hsize c.1
  rw [signInner_step s F k n _ this.1 this.2, if_pos hr]

theorem signInner_nonzero (F : Nat) (k : Int) (n : Nat) (r : Int) (h0 : 0 < r) (h : r < 256 ^ s.size) :
    signInner s F k n r = some r := by
  rw [signInner_step s F k n r (by omega) h, if_pos (by omega)]

/-- With s = 0 the outer loop does not end. -/
theorem signOuter_none (F : Nat) (d e k r : Int) (h0 : 0 < r) (h : r < 256 ^ s.size)
    (hs : (r * d + k * e).fmod s.q = 0) : ∀ n, signOuter s F d e k n r 0 = none := by
  intro n
  induction n with
  | zero => rw [signOuter_step s F d e k 0 r 0 (by omega) (by positivity)]; simp
  | succ n ih =>
    rw [signOuter_step s F d e k (n + 1) r 0 (by omega) (by positivity), if_neg (by simp)]
    rw [signInner_nonzero s q hq hq0 hsize F k F r h0 h]
    show signOuter s F d e k n r _ = none
    rw [hs, ih]

theorem signOuter_inner_none (F : Nat) (d e k : Int) (n : Nat) (h : signInner s F k F 0 = none) :
    signOuter s F d e k n 0 0 = none := by
  rw [signOuter_step s F d e k n 0 0 (by omega) (by positivity), if_neg (by simp)]
  cases n with
  | zero => rfl
  | succ n => simp only [h]

theorem signOuter_some (F : Nat) (d e k : Int) (n : Nat) (c : Int × Int) (hc : s.mulPoint F k = some c)
    (hF : 0 < F) (hr : c.1.fmod s.q ≠ 0) (hs : ((c.1.fmod s.q) * d + k * e).fmod s.q ≠ 0) :
    signOuter s F d e k (n + 1) 0 0 = some (c.1.fmod s.q, ((c.1.fmod s.q) * d + k * e).fmod s.q) := by
  rw [signOuter_step s F d e k (n + 1) 0 0 (by omega) (by positivity), if_neg (by simp)]
  obtain ⟨F', hF'⟩ : ∃ F', F = F' + 1 := ⟨F - 1, by omega⟩
  have h1 : signInner s F k F 0 = some (c.1.fmod s.q) := by
    rw [show signInner s F k F 0 = signInner s F k (F' + 1) 0 by rw [← hF']]
    exact signInner_some s q hq hq0 hsize F k F' c hc hr
  rw [h1]
  show signOuter s F d e k n _ _ = _
  have := fmod_q s q hq hq0 hsize (c.1.fmod s.q * d + k * e)
  rw [signOuter_step s F d e k n _ _ this.1 this.2, if_pos hs]

/-- `signOuter` as a whole. -/
theorem signOuter_eq (F : Nat) (hF : 0 < F) (d e k : Int) :
    signOuter s F d e k F 0 0 =
      match s.mulPoint F k with
      | none => none
      | some c =>
        if c.1.fmod s.q = 0 then none
        else if ((c.1.fmod s.q) * d + k * e).fmod s.q = 0 then none
        else some (c.1.fmod s.q, ((c.1.fmod s.q) * d + k * e).fmod s.q) := by
  cases hm : s.mulPoint F k with
  | none =>
    exact signOuter_inner_none s q hq hq0 hsize F d e k F
      (signInner_none s q hq hq0 hsize F k (fun c hc => by rw [hm] at hc; cases hc) F)
  | some c =>
    dsimp only
    by_cases hr : c.1.fmod s.q = 0
    · rw [if_pos hr]
      exact signOuter_inner_none s q hq hq0 hsize F d e k F
        (signInner_none s q hq hq0 hsize F k (fun c' hc' => by rw [hm] at hc'; cases hc'; exact hr) F)
    · rw [if_neg hr]
      obtain ⟨F', hF'⟩ : ∃ F', F = F' + 1 := ⟨F - 1, by omega⟩
      by_cases hs : ((c.1.fmod s.q) * d + k * e).fmod s.q = 0
      · rw [if_pos hs]
        have h1 : signInner s F k F 0 = some (c.1.fmod s.q) := by
          rw [show signInner s F k F 0 = signInner s F k (F' + 1) 0 by rw [← hF']]
          exact signInner_some s q hq hq0 hsize F k F' c hm hr
        rw [show signOuter s F d e k F 0 0 = signOuter s F d e k (F' + 1) 0 0 by rw [← hF'],
          signOuter_step s F d e k (F' + 1) 0 0 (by omega) (by positivity), if_neg (by simp), h1]
        show signOuter s F d e k F' _ _ = none
        rw [hs]
        have := fmod_q s q hq hq0 hsize c.1
        exact signOuter_none s q hq hq0 hsize F d e k _ (by omega) this.2 hs F'
      · rw [if_neg hs, show signOuter s F d e k F 0 0 = signOuter s F d e k (F' + 1) 0 0 by rw [← hF']]
        exact signOuter_some s q hq hq0 hsize F d e k F' c hm hF hr hs

end

end Gost.Sig
