import Verif.Spec.CurveParams
import Verif.Proofs.EvalCurve

/-! C45 and C46: the parameters of the signature object. -/

namespace Gost.Sig

theorem fmod_eq_iff_dvd (n a b : Int) : a.fmod n = b.fmod n ↔ n ∣ a - b := by
  constructor
  · intro h
    have h1 := Int.mul_fdiv_add_fmod a n
    have h2 := Int.mul_fdiv_add_fmod b n
    exact ⟨a.fdiv n - b.fdiv n, by rw [mul_sub]; omega⟩
  · rintro ⟨k, hk⟩
    have : a = b + n * k := by omega
    rw [this, Int.add_mul_fmod_self_left]

theorem checkXY_eq (s : Sig) (hp : s.p ≠ 0) : ∃ b, s.checkXY = .ok b ∧ (b = true ↔ OnCurve s) := by
  unfold checkXY
  rw [if_neg hp]
  refine ⟨_, rfl, ?_⟩
  rw [beq_iff_eq, fmod_eq_iff_dvd, OnCurve]
  have : s.y * s.y - (s.x ^ 3 + s.x * s.a + s.b) = s.y ^ 2 - (s.x ^ 3 + s.a * s.x + s.b) := by ring
  rw [this]

theorem checkP_fold (s : Sig) (hq : s.q ≠ 0) (l : List Nat) :
    l.foldlM (fun result i =>
      if s.q = 0 then (.error .zeroDivisionError : Res Bool)
      else if (s.p ^ i).fmod s.q = (1 : Int).fmod s.q then .ok (result || result)
      else .ok result) true = .ok true := by
  induction l with
  | nil => rfl
  | cons i l ih =>
    rw [List.foldlM_cons]
    simp only [if_neg hq, Bool.or_self, ite_self] at ih ⊢
    exact ih

/-- The MOV check never rejects. -/
theorem checkP_eq (s : Sig) : s.checkP = if s.q = 0 then .error .zeroDivisionError else .ok true := by
  unfold checkP
  by_cases hq : s.q = 0
  · rw [if_pos hq]
    have : ∃ n, (if s.size = 64 then 132 else 32) - 1 = n + 1 := by
      split
      · exact ⟨130, rfl⟩
      · exact ⟨30, rfl⟩
    obtain ⟨n, hn⟩ := this
    dsimp only
    rw [hn, List.range'_succ, List.foldlM_cons, if_pos hq]
    rfl
  · rw [if_neg hq]
    exact checkP_fold s hq _

theorem checkQ_iff (s : Sig) (h : s.size = 32 ∨ s.size = 64) : s.checkQ = true ↔ OrderRange s := by
  unfold checkQ OrderRange
  rcases h with h | h <;>
  · rw [h]
    simp only [Bool.not_eq_true', Bool.or_eq_false_iff, decide_eq_false_iff_not]
    norm_num

/-- The whole check. -/
theorem checkCurve_eq (s : Sig) (h : s.size = 32 ∨ s.size = 64) :
    (Acceptable s → s.checkCurve = .ok true) ∧
    ((s.m ≠ s.p ∧ (s.p = 0 ∨ (OnCurve s ∧ s.q = 0))) → s.checkCurve = .error .zeroDivisionError) ∧
    ((¬ Acceptable s ∧ ¬ (s.m ≠ s.p ∧ (s.p = 0 ∨ (OnCurve s ∧ s.q = 0)))) → s.checkCurve = .ok false) := by
  have hQ := checkQ_iff s h
  unfold checkCurve
  by_cases hm : s.m = s.p
  · have : s.checkPM = false := by simp [checkPM, hm]
    rw [this]
    refine ⟨fun ha => absurd hm ha.2.1, fun ha => absurd hm ha.1, fun _ => rfl⟩
  · have : s.checkPM = true := by simp [checkPM, hm]
    rw [this]
    by_cases hp : s.p = 0
    · have : s.checkXY = .error .zeroDivisionError := by rw [checkXY, if_pos hp]
      rw [this]
      exact ⟨fun ha => absurd hp ha.1, fun _ => rfl, fun ha => absurd ⟨hm, .inl hp⟩ ha.2⟩
    · obtain ⟨b, hb, hb'⟩ := checkXY_eq s hp
      rw [hb]
      cases b with
      | false =>
        have hoc : ¬ OnCurve s := fun h => by simp at hb'; exact hb' h
        refine ⟨fun ha => absurd ha.2.2.1 hoc, fun ha => ?_, fun _ => rfl⟩
        rcases ha.2 with h | h
        · exact absurd h hp
        · exact absurd h.1 hoc
      | true =>
        have hoc : OnCurve s := hb'.1 rfl
        rw [checkP_eq]
        by_cases hq : s.q = 0
        · rw [if_pos hq]
          refine ⟨fun ha => ?_, fun _ => rfl, fun ha => absurd ⟨hm, .inr ⟨hoc, hq⟩⟩ ha.2⟩
          have := ha.2.2.2
          rw [OrderRange, hq] at this
          have p1 : (0 : Int) < 2 ^ 254 := by positivity
          have p2 : (0 : Int) < 2 ^ 508 := by positivity
          omega
        · rw [if_neg hq]
          cases hc : s.checkQ with
          | false =>
            have hor : ¬ OrderRange s := fun h => by rw [hQ.2 h] at hc; cases hc
            refine ⟨fun ha => absurd ha.2.2.2 hor, fun ha => ?_, fun _ => rfl⟩
            rcases ha.2 with h | h
            · exact absurd h hp
            · exact absurd h.2 hq
          | true =>
            refine ⟨fun _ => rfl, fun ha => ?_, fun ha => absurd ⟨hp, hm, hoc, hQ.1 hc⟩ ha.1⟩
            rcases ha.2 with h | h
            · exact absurd h hp
            · exact absurd h.2 hq

theorem new_eq (mode : Int) (c : CurveParams) (hm : mode = 1 ∨ mode = 2) :
    new mode c = (given mode c).edvardsToCanonical >>= fun s => s.checkCurve >>= fun ok =>
      if !ok then .error (.signatureError "GOSTSignatureError: invalid parameters of the elliptic curve")
      else .ok s := by
  unfold new
  rw [if_neg (by rcases hm with rfl | rfl <;> decide)]
  rfl

theorem edvards_canonical (s : Sig) (h : ¬ Edwards s) : s.edvardsToCanonical = .ok s := by
  unfold edvardsToCanonical
  rw [Edwards] at h
  rw [if_neg h]

theorem given_size (mode : Int) (c : CurveParams) (s : Sig) (h : (given mode c).edvardsToCanonical = .ok s) :
    s.size = 32 ∨ s.size = 64 := by
  have : s.size = (given mode c).size := by
    unfold edvardsToCanonical at h
    split at h
    · split at h
      · cases h
      · cases h; rfl
    · cases h; rfl
  rw [this, given]
  dsimp only
  split <;> simp

/-- **C45** (partial): a canonical dictionary is accepted exactly when p is not 0, m is not p, the base point is on the
curve and q is in the range of the mode. Missing: the condition on p^t, which the code does not check
(`C45_statement_false`). -/
theorem C45_accepted_partial (mode : Int) (c : CurveParams) (hE : ¬ Edwards (given mode c)) (s : Sig) :
    new mode c = .ok s ↔ (mode = 1 ∨ mode = 2) ∧ s = given mode c ∧ Acceptable (given mode c) := by
  by_cases hm : mode = 1 ∨ mode = 2
  · rw [new_eq mode c hm, edvards_canonical _ hE, Res.bind_ok]
    obtain ⟨h1, h2, h3⟩ := checkCurve_eq _ (given_size mode c _ (edvards_canonical _ hE))
    by_cases ha : Acceptable (given mode c)
    · rw [h1 ha, Res.bind_ok]
      simp [hm, ha, eq_comm]
    · have : ¬ ((mode = 1 ∨ mode = 2) ∧ s = given mode c ∧ Acceptable (given mode c)) := fun h => ha h.2.2
      simp only [this, iff_false]
      by_cases hz : (given mode c).m ≠ (given mode c).p ∧
          ((given mode c).p = 0 ∨ (OnCurve (given mode c) ∧ (given mode c).q = 0))
      · rw [h2 hz]; simp [Res.bind_error]
      · rw [h3 ⟨ha, hz⟩, Res.bind_ok]; simp
  · unfold new
    rw [if_pos (by simpa [mode256, mode512] using hm)]
    simp [hm]

/-- The exceptions of the constructor for a canonical dictionary: a wrong mode, a division by zero (p = 0, or q = 0), or
`invalid parameters`. -/
theorem C45_rejected (mode : Int) (c : CurveParams) (hE : ¬ Edwards (given mode c)) (e : Err) :
    new mode c = .error e ↔
      (mode ≠ 1 ∧ mode ≠ 2 ∧ e = .signatureError "GOSTSignatureError: unsupported signature mode") ∨
      ((mode = 1 ∨ mode = 2) ∧ ¬ Acceptable (given mode c) ∧
        ((((given mode c).m ≠ (given mode c).p ∧
            ((given mode c).p = 0 ∨ (OnCurve (given mode c) ∧ (given mode c).q = 0))) ∧
          e = .zeroDivisionError) ∨
        (¬ ((given mode c).m ≠ (given mode c).p ∧
            ((given mode c).p = 0 ∨ (OnCurve (given mode c) ∧ (given mode c).q = 0))) ∧
          e = .signatureError "GOSTSignatureError: invalid parameters of the elliptic curve"))) := by
  by_cases hm : mode = 1 ∨ mode = 2
  · have hm' : ¬ (mode ≠ 1 ∧ mode ≠ 2 ∧ e = .signatureError "GOSTSignatureError: unsupported signature mode") := by
      rcases hm with rfl | rfl <;> simp
    rw [new_eq mode c hm, edvards_canonical _ hE, Res.bind_ok]
    obtain ⟨h1, h2, h3⟩ := checkCurve_eq _ (given_size mode c _ (edvards_canonical _ hE))
    simp only [hm', false_or, hm, true_and]
    by_cases ha : Acceptable (given mode c)
    · rw [h1 ha, Res.bind_ok]
      simp [ha]
    · by_cases hz : (given mode c).m ≠ (given mode c).p ∧
          ((given mode c).p = 0 ∨ (OnCurve (given mode c) ∧ (given mode c).q = 0))
      · rw [h2 hz, Res.bind_error]
        constructor
        · intro h; cases h; exact ⟨ha, .inl ⟨hz, rfl⟩⟩
        · rintro ⟨-, ⟨-, rfl⟩ | ⟨h, -⟩⟩
          · rfl
          · exact absurd hz h
      · rw [h3 ⟨ha, hz⟩, Res.bind_ok]
        constructor
        · intro h; cases h; exact ⟨ha, .inr ⟨hz, rfl⟩⟩
        · rintro ⟨-, ⟨h, -⟩ | ⟨-, rfl⟩⟩
          · exact absurd h hz
          · rfl
  · have h1 : mode ≠ 1 := fun h => hm (.inl h)
    have h2 : mode ≠ 2 := fun h => hm (.inr h)
    unfold new
    rw [if_pos ⟨h1, h2⟩]
    simp [h1, h2, eq_comm (b := e)]

/-- An Edwards dictionary is accepted exactly when p is not 0 and its conversion (C46) is acceptable. -/
theorem C45_accepted_edwards (mode : Int) (c : CurveParams) (hE : Edwards (given mode c)) (s : Sig) :
    new mode c = .ok s ↔ (mode = 1 ∨ mode = 2) ∧ (given mode c).edvardsToCanonical = .ok s ∧ Acceptable s := by
  by_cases hm : mode = 1 ∨ mode = 2
  · rw [new_eq mode c hm]
    cases hc : (given mode c).edvardsToCanonical with
    | error e => simp [Res.bind_error]
    | ok s' =>
      rw [Res.bind_ok]
      obtain ⟨h1, h2, h3⟩ := checkCurve_eq _ (given_size mode c _ hc)
      by_cases ha : Acceptable s'
      · rw [h1 ha, Res.bind_ok]
        simp only [Bool.not_true, Bool.false_eq_true, if_false, Except.ok.injEq, hm, true_and]
        constructor
        · rintro rfl; exact ⟨rfl, ha⟩
        · exact fun h => h.1
      · have : ¬ ((mode = 1 ∨ mode = 2) ∧ (Except.ok s' : Res Sig) = .ok s ∧ Acceptable s) := by
          rintro ⟨-, h, h'⟩
          cases h
          exact ha h'
        simp only [this, iff_false]
        by_cases hz : s'.m ≠ s'.p ∧ (s'.p = 0 ∨ (OnCurve s' ∧ s'.q = 0))
        · rw [h2 hz]; simp [Res.bind_error]
        · rw [h3 ⟨ha, hz⟩, Res.bind_ok]; simp
  · unfold new
    rw [if_pos (by simpa [mode256, mode512] using hm)]
    simp [hm]

/-- The full statement of C45 is false: these parameters are accepted although p = 1 modulo q. -/
theorem C45_statement_false :
    let c : CurveParams := { p := some (2 ^ 255 + 1), a := some 1, b := some 0, m := some 0, q := some (2 ^ 255),
                             x := some 0, y := some 0 }
    new 1 c = .ok (given 1 c) ∧ ¬ Mov (given 1 c) := by
  dsimp only
  constructor
  · rw [C45_accepted_partial _ _ (by simp [Edwards, given])]
    refine ⟨.inl rfl, rfl, ?_, ?_, ?_, ?_⟩ <;> simp [given, OnCurve, OrderRange]
  · intro h
    exact h 1 (by omega) (by simp [given]) (by simp [given])

/-- All built-in curves are accepted in the mode of their size, and satisfy all conditions of C45, also the one which
the code does not check. -/
theorem C45_builtin : ∀ nc ∈ Curves.builtin, ∃ mode : Int, (mode = 1 ∨ mode = 2) ∧
    new mode nc.2 = .ok (given mode nc.2) ∧ Acceptable (given mode nc.2) ∧ Mov (given mode nc.2) := by
  have key : ∀ (mode : Int) (c : CurveParams), (mode = 1 ∨ mode = 2) →
      (decide (¬ ((given mode c).a = 0 ∧ (given mode c).b = 0 ∧ (given mode c).x = 0 ∧ (given mode c).y = 0) ∧
        (given mode c).p ≠ 0 ∧ (given mode c).m ≠ (given mode c).p ∧
        ((given mode c).y ^ 2 - ((given mode c).x ^ 3 + (given mode c).a * (given mode c).x + (given mode c).b)) %
          (given mode c).p = 0 ∧
        ((mode = 1 ∧ 2 ^ 254 ≤ (given mode c).q ∧ (given mode c).q ≤ 2 ^ 256) ∨
          (mode = 2 ∧ 2 ^ 508 ≤ (given mode c).q ∧ (given mode c).q ≤ 2 ^ 512)) ∧
        ∀ t, t < (if mode = 1 then 31 else 131) → ((given mode c).p ^ (t + 1) - 1) % (given mode c).q ≠ 0)) = true →
      new mode c = .ok (given mode c) ∧ Acceptable (given mode c) ∧ Mov (given mode c) := by
    intro mode c hm h
    obtain ⟨h1, h2, h3, h4, h5, h6⟩ := of_decide_eq_true h
    have hacc : Acceptable (given mode c) := by
      refine ⟨h2, h3, Int.dvd_of_emod_eq_zero h4, ?_⟩
      unfold OrderRange
      rcases h5 with ⟨rfl, h5⟩ | ⟨rfl, h5⟩
      · exact .inl ⟨rfl, h5⟩
      · exact .inr ⟨rfl, h5⟩
    refine ⟨(C45_accepted_partial mode c h1 _).2 ⟨hm, rfl, hacc⟩, hacc, ?_⟩
    intro t ht1 ht2 hd
    have hlt : t - 1 < (if mode = 1 then 31 else 131) := by
      rcases hm with rfl | rfl <;> simp [given] at ht2 ⊢ <;> omega
    apply h6 (t - 1) hlt
    rw [show t - 1 + 1 = t by omega]
    exact Int.emod_eq_zero_of_dvd hd
  intro nc hnc
  simp only [Curves.builtin, List.mem_cons, List.not_mem_nil, or_false] at hnc
  rcases hnc with rfl | rfl | rfl | rfl | rfl | rfl | rfl
  · exact ⟨1, .inl rfl, key 1 Curves.c256B (.inl rfl) (by decide +kernel)⟩
  · exact ⟨1, .inl rfl, key 1 Curves.c256C (.inl rfl) (by decide +kernel)⟩
  · exact ⟨1, .inl rfl, key 1 Curves.c256D (.inl rfl) (by decide +kernel)⟩
  · exact ⟨2, .inr rfl, key 2 Curves.c512A (.inr rfl) (by decide +kernel)⟩
  · exact ⟨2, .inr rfl, key 2 Curves.c512B (.inr rfl) (by decide +kernel)⟩
  · exact ⟨1, .inl rfl, key 1 Curves.c256A (.inl rfl) (by decide +kernel)⟩
  · exact ⟨2, .inr rfl, key 2 Curves.c512C (.inr rfl) (by decide +kernel)⟩

/-! ### C46 -/

variable {p : Nat} [Fact p.Prime]

/-- **C46**: Edwards parameters (no canonical ones given) over a prime field with p > 3 are converted by the formulas of
R 1323565.1.024-2019, with s = (e-d)/4 and t = (e+d)/6, to reduced numbers. -/
theorem C46_formulas (s0 : Sig) (hp : s0.p = p) (hE : Edwards s0) :
    ∃ s1, s0.edvardsToCanonical = .ok s1 ∧
      s1 = { s0 with a := s1.a, b := s1.b, x := s1.x, y := s1.y } ∧
      (0 ≤ s1.a ∧ s1.a < p) ∧ (0 ≤ s1.b ∧ s1.b < p) ∧ (0 ≤ s1.x ∧ s1.x < p) ∧ (0 ≤ s1.y ∧ s1.y < p) ∧
      let edS : ZMod p := ((s0.e : ZMod p) - s0.d) / 4
      let edT : ZMod p := ((s0.e : ZMod p) + s0.d) / 6
      (s1.a : ZMod p) = edS ^ 2 - 3 * edT ^ 2 ∧
      (s1.b : ZMod p) = 2 * edT ^ 3 - edT * edS ^ 2 ∧
      (s1.x : ZMod p) = edS * (1 + s0.v) / (1 - s0.v) + edT ∧
      (s1.y : ZMod p) = edS * (1 + s0.v) / ((1 - s0.v) * s0.u) := by
  have hp0 : 0 < p := (Fact.out : p.Prime).pos
  unfold edvardsToCanonical
  have hp' : s0.p ≠ 0 := by rw [hp]; omega
  have hE' := hE
  rw [Edwards] at hE'
  rw [if_pos hE', if_neg hp']
  refine ⟨_, rfl, rfl, ?_, ?_, ?_, ?_, ?_⟩
  · rw [hp]; exact fmod_range p hp0 _
  · rw [hp]; exact fmod_range p hp0 _
  · rw [hp]; exact fmod_range p hp0 _
  · rw [hp]; exact fmod_range p hp0 _
  · dsimp only
    rw [hp]
    simp only [cast_fmod, invert_cast, Int.cast_mul, Int.cast_sub, Int.cast_add, Int.cast_pow, Int.cast_ofNat,
      Int.cast_one, div_eq_mul_inv]
    exact ⟨trivial, trivial, trivial, trivial⟩

theorem ne_zero_of_gt_three (h3 : 3 < p) : (2 : ZMod p) ≠ 0 ∧ (3 : ZMod p) ≠ 0 := by
  have hp := (Fact.out : p.Prime)
  constructor
  · intro h
    have := (ZMod.natCast_eq_zero_iff 2 p).1 (by exact_mod_cast h)
    have := Nat.le_of_dvd (by omega) this
    omega
  · intro h
    have := (ZMod.natCast_eq_zero_iff 3 p).1 (by exact_mod_cast h)
    have := Nat.le_of_dvd (by omega) this
    omega

/-- **C46**: a point of the Edwards curve with v ≠ 1 and u ≠ 0 is converted to a point of the converted curve, so this
check does not reject. -/
theorem C46_on_curve (s0 : Sig) (hp : s0.p = p) (h3 : 3 < p) (hE : Edwards s0)
    (hcurve : (s0.e : ZMod p) * s0.u ^ 2 + s0.v ^ 2 = 1 + s0.d * s0.u ^ 2 * s0.v ^ 2)
    (hv : (s0.v : ZMod p) ≠ 1) (hu : (s0.u : ZMod p) ≠ 0) :
    ∃ s1, s0.edvardsToCanonical = .ok s1 ∧ OnCurve s1 ∧ s1.checkXY = .ok true := by
  obtain ⟨s1, h1, h2, -, -, -, -, ha, hb, hx, hy⟩ := C46_formulas s0 hp hE
  have hs1p : s1.p = p := by rw [h2]; exact hp
  obtain ⟨n2, n3⟩ := ne_zero_of_gt_three h3
  have hon : OnCurve s1 := by
    unfold OnCurve
    rw [hs1p, ← ZMod.intCast_zmod_eq_zero_iff_dvd]
    push_cast
    rw [ha, hb, hx, hy]
    have n4 : (4 : ZMod p) ≠ 0 := by
      have : (4 : ZMod p) = 2 * 2 := by norm_num
      rw [this]; exact mul_ne_zero n2 n2
    have n6 : (6 : ZMod p) ≠ 0 := by
      have : (6 : ZMod p) = 2 * 3 := by norm_num
      rw [this]; exact mul_ne_zero n2 n3
    have hv' : (1 : ZMod p) - s0.v ≠ 0 := sub_ne_zero.2 (Ne.symm hv)
    generalize (s0.u : ZMod p) = u at *
    generalize (s0.v : ZMod p) = v at *
    generalize (s0.e : ZMod p) = e at *
    generalize (s0.d : ZMod p) = d at *
    -- with X = s(1+v)/(1-v), the right side is X^3 + 3 t X^2 + s^2 X
    obtain ⟨S, hS⟩ : ∃ S, S = (e - d) / 4 := ⟨_, rfl⟩
    obtain ⟨T, hT⟩ : ∃ T, T = (e + d) / 6 := ⟨_, rfl⟩
    rw [← hS, ← hT]
    have e1 : 4 * S = e - d := by rw [hS]; field_simp
    have e2 : 6 * T = e + d := by rw [hT]; field_simp
    have key : S * (1 + v) * (1 - v) = u ^ 2 * (S ^ 2 * (1 + v) ^ 2 + 3 * T * S * (1 + v) * (1 - v) + S ^ 2 * (1 - v) ^ 2) := by
      have e3 : 2 * (S * (1 + v) * (1 - v)) = 2 * (u ^ 2 * (S ^ 2 * (1 + v) ^ 2 + 3 * T * S * (1 + v) * (1 - v) + S ^ 2 * (1 - v) ^ 2)) := by
        linear_combination (-2 * S) * hcurve + (-u ^ 2 * S * (1 + v ^ 2)) * e1 + (- u ^ 2 * S * (1 - v ^ 2)) * e2
      exact mul_left_cancel₀ n2 e3
    field_simp
    linear_combination (S * (1 + v)) * key
  refine ⟨s1, h1, hon, ?_⟩
  have hp0 : 0 < p := (Fact.out : p.Prime).pos
  obtain ⟨b, hb1, hb2⟩ := checkXY_eq s1 (by rw [hs1p]; omega)
  rw [hb1, hb2.2 hon]

/-- **C46**: the map can be inverted by u = (x - t)/y, v = (x - t - s)/(x - t + s), where e ≠ d and v ≠ -1. -/
theorem C46_birational (s0 : Sig) (hp : s0.p = p) (h3 : 3 < p) (hE : Edwards s0)
    (hv : (s0.v : ZMod p) ≠ 1) (hv' : (s0.v : ZMod p) ≠ -1) (hu : (s0.u : ZMod p) ≠ 0)
    (hed : (s0.e : ZMod p) ≠ s0.d) :
    ∃ s1, s0.edvardsToCanonical = .ok s1 ∧
      let edS : ZMod p := ((s0.e : ZMod p) - s0.d) / 4
      let edT : ZMod p := ((s0.e : ZMod p) + s0.d) / 6
      (s0.u : ZMod p) = (s1.x - edT) / s1.y ∧
      (s0.v : ZMod p) = (s1.x - edT - edS) / (s1.x - edT + edS) := by
  obtain ⟨s1, h1, h2, -, -, -, -, ha, hb, hx, hy⟩ := C46_formulas s0 hp hE
  refine ⟨s1, h1, ?_⟩
  dsimp only
  obtain ⟨n2, n3⟩ := ne_zero_of_gt_three h3
  have n4 : (4 : ZMod p) ≠ 0 := by
    have : (4 : ZMod p) = 2 * 2 := by norm_num
    rw [this]; exact mul_ne_zero n2 n2
  have hv1 : (1 : ZMod p) - s0.v ≠ 0 := sub_ne_zero.2 (Ne.symm hv)
  have hv2 : (1 : ZMod p) + s0.v ≠ 0 := by
    intro h
    exact hv' (by linear_combination h)
  have hS : ((s0.e : ZMod p) - s0.d) / 4 ≠ 0 := div_ne_zero (sub_ne_zero.2 hed) n4
  rw [hx, hy]
  generalize ((s0.e : ZMod p) - s0.d) / 4 = S at *
  generalize ((s0.e : ZMod p) + s0.d) / 6 = T at *
  generalize (s0.u : ZMod p) = u at *
  generalize (s0.v : ZMod p) = v at *
  constructor
  · rw [add_sub_cancel_right]
    field_simp
  · rw [add_sub_cancel_right]
    have e1 : S * (1 + v) / (1 - v) + S = 2 * S / (1 - v) := by field_simp; ring
    have e2 : S * (1 + v) / (1 - v) - S = 2 * S * v / (1 - v) := by field_simp; ring
    rw [e1, e2]
    field_simp

end Gost.Sig
