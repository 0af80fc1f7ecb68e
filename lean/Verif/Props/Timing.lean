import Verif.Model.Trace
import Verif.Props.SignatureExamples

/-! Properties C91 and C92: what the sequence of operations tells about the data. -/

namespace Gost

/-! ### C91: the comparisons -/

theorem compareLoopT_trace (a b : Bytes) (is : List Nat) (t : List Step) (res : Nat) :
    (compareLoopT a b is t res).1 =
      t ++ is.flatMap fun i => [Step.readA i, Step.readB i, Step.xor, Step.add] := by
  induction is generalizing t res with
  | nil => simp [compareLoopT]
  | cons i is ih => rw [compareLoopT, ih]; simp

theorem compareLoopT_value (a b : Bytes) (is : List Nat) (t : List Step) (res : Nat) :
    (compareLoopT a b is t res).2 = is.foldl (fun acc i => acc + (a.getD i 0 ^^^ b.getD i 0).toNat) res := by
  induction is generalizing t res with
  | nil => rfl
  | cons i is ih => rw [compareLoopT, ih]; rfl

theorem compareToZeroLoopT_trace (a : Bytes) (is : List Nat) (t : List Step) (res : Nat) :
    (compareToZeroLoopT a is t res).1 = t ++ is.flatMap fun i => [Step.readA i, Step.xor, Step.add] := by
  induction is generalizing t res with
  | nil => simp [compareToZeroLoopT]
  | cons i is ih => rw [compareToZeroLoopT, ih]; simp

theorem compareToZeroLoopT_value (a : Bytes) (is : List Nat) (t : List Step) (res : Nat) :
    (compareToZeroLoopT a is t res).2 = is.foldl (fun acc i => acc + (a.getD i 0 ^^^ 0).toNat) res := by
  induction is generalizing t res with
  | nil => rfl
  | cons i is ih => rw [compareToZeroLoopT, ih]; rfl

theorem zip_range (a b : Bytes) (h : a.length = b.length) :
    List.zip a b = (List.range a.length).map fun i => (a.getD i 0, b.getD i 0) := by
  apply List.ext_getElem
  · simp [h]
  · intro i h1 h2
    simp only [List.length_map, List.length_range] at h2
    simp [List.getElem?_eq_getElem h2, List.getElem?_eq_getElem (show i < b.length by omega)]

theorem list_range (a : Bytes) : a = (List.range a.length).map fun i => a.getD i 0 := by
  apply List.ext_getElem
  · simp
  · intro i h1 h2
    simp [List.getElem?_eq_getElem h1]

/-- C91: the recorded functions are the functions of the model. -/
theorem C91_results (a b : Bytes) : (compareT a b).2 = compare a b ∧ (compareToZeroT a).2 = compareToZero a := by
  constructor
  · unfold compareT compare
    by_cases h : a.length = b.length
    · rw [if_neg (by simp [h]), if_neg (by simp [h])]
      show ((compareLoopT a b _ _ _).2 == 0) = _
      rw [compareLoopT_value, zip_range a b h, List.foldl_map]
    · rw [if_pos (by simp [h]), if_pos (by simp [h])]
  · unfold compareToZeroT compareToZero
    show ((compareToZeroLoopT a _ _ _).2 == 0) = _
    rw [compareToZeroLoopT_value]
    conv => rhs; rw [list_range a, List.foldl_map]

/-- C91: which operations `compare` and `compare_to_zero` carry out depends on the lengths of the operands only. -/
theorem C91_compare (a b a' b' : Bytes) (ha : a.length = a'.length) (hb : b.length = b'.length) :
    (compareT a b).1 = (compareT a' b').1 ∧ (compareToZeroT a).1 = (compareToZeroT a').1 := by
  constructor
  · unfold compareT
    rw [← ha, ← hb]
    split
    · rfl
    · show (compareLoopT a b _ _ _).1 ++ _ = (compareLoopT a' b' _ _ _).1 ++ _
      rw [compareLoopT_trace, compareLoopT_trace]
  · unfold compareToZeroT
    rw [← ha]
    show (compareToZeroLoopT a _ _ _).1 ++ _ = (compareToZeroLoopT a' _ _ _).1 ++ _
    rw [compareToZeroLoopT_trace, compareToZeroLoopT_trace]

/-- C91: every byte of both operands is read, in the order of the positions, also after a difference was found. -/
theorem C91_reads (a b : Bytes) (h : a.length = b.length) :
    (compareT a b).1 =
      [Step.lengths] ++ (List.range a.length).flatMap (fun i => [Step.readA i, Step.readB i, Step.xor, Step.add]) ++
        [Step.finish] ∧
    (compareToZeroT a).1 =
      (List.range a.length).flatMap (fun i => [Step.readA i, Step.xor, Step.add]) ++ [Step.finish] := by
  constructor
  · unfold compareT
    rw [if_neg (by simp [h])]
    show (compareLoopT a b _ _ _).1 ++ _ = _
    rw [compareLoopT_trace]
  · unfold compareToZeroT
    show (compareToZeroLoopT a _ _ _).1 ++ _ = _
    rw [compareToZeroLoopT_trace]
    rfl

/-- Operands which differ in the first byte and operands which are equal. -/
example : compareT [1, 2] [3, 2] =
      ([.lengths, .readA 0, .readB 0, .xor, .add, .readA 1, .readB 1, .xor, .add, .finish], false) ∧
    (compareT [1, 2] [1, 2]).1 = (compareT [1, 2] [3, 2]).1 ∧ (compareT [1, 2] [1, 2]).2 = true := by decide

/-! ### C92: the scalar multiplication -/

namespace Sig
open Spec (beNat beBytes)

/-- The number which an observer of the calls writes down: a doubling without an addition before it stands for the
digit 0, an addition and a doubling for the digit 1, the lowest digit first. -/
def readCalls : List Call → Nat
  | [] => 0
  | .double :: t => 2 * readCalls t
  | .add :: .double :: t => 2 * readCalls t + 1
  | .add :: _ => 0

/-- The calls for the binary digits of `v`. -/
def callsFor : Nat → Nat → List Call
  | 0, _ => []
  | F + 1, v =>
    if v = 0 then [] else (if v % 2 = 1 then [.add, .double] else [.double]) ++ callsFor F (v / 2)

theorem readCalls_callsFor (F v : Nat) (h : v < 2 ^ F) : readCalls (callsFor F v) = v := by
  induction F generalizing v with
  | zero => simp at h; subst h; rfl
  | succ F ih =>
    rw [callsFor]
    by_cases h0 : v = 0
    · rw [if_pos h0, h0]; rfl
    · rw [if_neg h0]
      have := ih (v / 2) (by rw [Nat.pow_succ] at h; omega)
      by_cases h1 : v % 2 = 1
      · rw [if_pos h1]
        show 2 * readCalls (callsFor F (v / 2)) + 1 = v
        omega
      · rw [if_neg h1]
        show 2 * readCalls (callsFor F (v / 2)) = v
        omega

theorem mulLoopT_eq (s : Sig) (F : Nat) : ∀ (v : Nat) (c d : Int × Int) (t : List Call),
    mulLoopT s F (v : Int) c d t = (mulLoop s F (v : Int) c d).map fun e => (t ++ callsFor F v, e) := by
  induction F with
  | zero =>
    intro v c d t
    rw [mulLoopT, mulLoop]
    by_cases h : v = 0
    · subst h; simp [callsFor]
    · have hv : ¬ ((v : Int) = 0) := by omega
      rw [if_neg hv, if_neg hv]; rfl
  | succ F ih =>
    intro v c d t
    rw [mulLoopT, mulLoop]
    by_cases h : v = 0
    · subst h; simp [callsFor]
    · have hv : ¬ ((v : Int) = 0) := by omega
      rw [if_neg hv, if_neg hv]
      dsimp only
      have e1 : Int.fdiv (v : Int) 2 = ((v / 2 : Nat) : Int) := by
        rw [Int.fdiv_eq_ediv_of_nonneg _ (by omega)]; omega
      have e2 : Int.fmod (v : Int) 2 = 1 ↔ v % 2 = 1 := by
        rw [Int.fmod_eq_emod_of_nonneg _ (by omega)]; omega
      rw [e1, callsFor, if_neg h]
      by_cases h1 : v % 2 = 1
      · rw [if_pos (e2.2 h1), if_pos (e2.2 h1), if_pos h1]
        dsimp only
        rw [ih]
        simp
      · rw [if_neg fun h => h1 (e2.1 h), if_neg fun h => h1 (e2.1 h), if_neg h1]
        dsimp only
        rw [ih]
        simp

theorem mulLoopT_none (s : Sig) (F : Nat) : ∀ (v : Int) (c d : Int × Int) (t : List Call),
    (mulLoopT s F v c d t).map Prod.snd = mulLoop s F v c d := by
  induction F with
  | zero =>
    intro v c d t
    rw [mulLoopT, mulLoop]
    split <;> rfl
  | succ F ih =>
    intro v c d t
    rw [mulLoopT, mulLoop]
    split
    · rfl
    · dsimp only
      by_cases h : v.fmod 2 = 1
      · simp only [if_pos h]; exact ih _ _ _ _
      · simp only [if_neg h]; exact ih _ _ _ _

theorem mulPointT_eq (s : Sig) (F k : Nat) (hk : 0 < k) (t : List Call) (x y : Int) :
    s.mulPointT F (k : Int) t x y = (s.mulPoint F (k : Int) x y).map fun e => (t ++ callsFor F (k - 1), e) := by
  unfold mulPointT mulPoint
  dsimp only
  rw [show ((k : Int) - 1) = ((k - 1 : Nat) : Int) by omega]
  exact mulLoopT_eq s F _ _ _ t

theorem mulPointT_snd (s : Sig) (F : Nat) (k : Int) (t : List Call) (x y : Int) :
    (s.mulPointT F k t x y).map Prod.snd = s.mulPoint F k x y :=
  mulLoopT_none s F _ _ _ _

theorem signInnerT_snd (s : Sig) (F : Nat) (k : Int) (n : Nat) : ∀ (r : Int) (t : List Call),
    (signInnerT s F k n r t).map Prod.snd = signInner s F k n r := by
  induction n with
  | zero => intro r t; rw [signInnerT, signInner]; split <;> rfl
  | succ n ih =>
    intro r t
    rw [signInnerT, signInner]
    split
    · rfl
    · have h := mulPointT_snd s F k t (-1) (-1)
      rw [← h]
      cases s.mulPointT F k t with
      | none => rfl
      | some x => exact ih _ _

theorem signOuterT_snd (s : Sig) (F : Nat) (d e k : Int) (n : Nat) : ∀ (r sg : Int) (t : List Call),
    (signOuterT s F d e k n r sg t).map Prod.snd = signOuter s F d e k n r sg := by
  induction n with
  | zero => intro r sg t; rw [signOuterT, signOuter]; split <;> rfl
  | succ n ih =>
    intro r sg t
    rw [signOuterT, signOuter]
    split
    · rfl
    · have h := signInnerT_snd s F k F r t
      rw [← h]
      cases signInnerT s F k F r t with
      | none => rfl
      | some x => exact ih _ _ _

/-- C92: the recorded functions return what the functions of the model return. -/
theorem C92_results (s : Sig) (F : Nat) (rand : Nat → Bytes) (sk dgv rkv : PyVal) :
    (s.publicKeyGenerateT F sk).map Prod.snd = s.publicKeyGenerate F sk ∧
    (s.signT F rand sk dgv rkv).map Prod.snd = s.sign F rand sk dgv rkv := by
  constructor
  · unfold publicKeyGenerateT publicKeyGenerate
    split
    · rfl
    · dsimp only
      rw [← mulPointT_snd s F _ [] (-1) (-1)]
      cases s.mulPointT F _ [] <;> rfl
  · unfold signT sign
    split
    · rfl
    · split
      · rfl
      · have key : ∀ v : PyVal,
            (match v.data? with
              | none => some (([] : List Call), (Except.error (Err.signatureError "GOSTSignatureError: invalid random value") : Res Bytes))
              | some rk =>
                if (bytesToInt rk : Int) ≥ s.q then
                  some ([], .error (.signatureError "GOSTSignatureError: invalid random value"))
                else do
                  let (t, r, sg) ← signOuterT s F (bytesToInt (sk.data?.getD [])) (s.setE (dgv.data?.getD []))
                    (bytesToInt rk) F 0 0 []
                  some (t, .ok (intToBytes r s.size ++ intToBytes sg s.size))).map Prod.snd =
            (match v.data? with
              | none => some (Except.error (Err.signatureError "GOSTSignatureError: invalid random value"))
              | some rk =>
                if (bytesToInt rk : Int) ≥ s.q then
                  some (.error (.signatureError "GOSTSignatureError: invalid random value"))
                else do
                  let (r, sg) ← signOuter s F (bytesToInt (sk.data?.getD [])) (s.setE (dgv.data?.getD []))
                    (bytesToInt rk) F 0 0
                  some (.ok (intToBytes r s.size ++ intToBytes sg s.size))) := by
          intro v
          cases v.data? with
          | none => rfl
          | some rk =>
            dsimp only
            split
            · rfl
            · rw [← signOuterT_snd s F _ _ _ F 0 0 []]
              cases signOuterT s F _ _ _ F 0 0 [] <;> rfl
        by_cases hr : rkv.isEmpty = true
        · simp only [hr, if_true]
          cases s.getRandK F rand with
          | none => rfl
          | some b => exact key (.bytearray b)
        · simp only [hr]
          exact key rkv

theorem mulLoop_fuel (s : Sig) (F : Nat) : ∀ (v : Nat) (c d e : Int × Int), mulLoop s F (v : Int) c d = some e →
    v < 2 ^ F := by
  induction F with
  | zero =>
    intro v c d e h
    rw [mulLoop] at h
    by_cases hv : (v : Int) = 0
    · omega
    · rw [if_neg hv] at h; cases h
  | succ F ih =>
    intro v c d e h
    rw [mulLoop] at h
    by_cases hv : (v : Int) = 0
    · have : 0 < 2 ^ (F + 1) := Nat.pow_pos (by omega)
      omega
    · rw [if_neg hv] at h
      dsimp only at h
      rw [show Int.fdiv (v : Int) 2 = ((v / 2 : Nat) : Int) by
        rw [Int.fdiv_eq_ediv_of_nonneg _ (by omega)]; omega] at h
      have := ih _ _ _ _ h
      rw [Nat.pow_succ]
      omega

theorem mulPointT_reads {s : Sig} {F k : Nat} {x y : Int} {t : List Call} {c : Int × Int}
    (h : s.mulPointT F (k : Int) [] x y = some (t, c)) :
    readCalls t + 1 = k ∧ t = callsFor F (k - 1) ∧ s.mulPoint F (k : Int) x y = some c := by
  have h2 : s.mulPoint F (k : Int) x y = some c := by rw [← mulPointT_snd s F k [] x y, h]; rfl
  have hk : 0 < k := by
    rcases Nat.eq_zero_or_pos k with rfl | hk
    · have := mulPoint_zero (s := s) F x y
      rw [show ((0 : Nat) : Int) = 0 from rfl, this] at h2
      cases h2
    · exact hk
  have h1 := mulPointT_eq s F k hk [] x y
  rw [h, h2] at h1
  simp only [Option.map_some, Option.some.injEq, Prod.mk.injEq, List.nil_append, and_true] at h1
  refine ⟨?_, h1, h2⟩
  have h3 := h2
  unfold mulPoint at h3
  dsimp only at h3
  rw [show ((k : Int) - 1) = ((k - 1 : Nat) : Int) by omega] at h3
  rw [h1, readCalls_callsFor F _ (mulLoop_fuel s F _ _ _ _ h3)]
  omega

theorem publicKeyGenerateT_calls {s : Sig} {F : Nat} {sk : PyVal} {d : Bytes} (hd : sk.data? = some d)
    (hl : d.length = s.size) {t : List Call} {r : Res Bytes} (h : s.publicKeyGenerateT F sk = some (t, r)) :
    readCalls t + 1 = beNat d ∧ t = callsFor F (beNat d - 1) ∧ beNat d - 1 < 2 ^ F := by
  unfold publicKeyGenerateT at h
  rw [not_checkValue hd hl] at h
  simp only [hd, Option.getD_some, bytesToInt_eq, Bool.false_eq_true, if_false] at h
  cases hm : s.mulPointT F (beNat d : Nat) [] with
  | none => rw [hm] at h; cases h
  | some x =>
    rw [hm] at h
    obtain ⟨t', c⟩ := x
    have h' : some (t', (Except.ok (intToBytes c.1 s.size ++ intToBytes c.2 s.size) : Res Bytes)) = some (t, r) := h
    simp only [Option.some.injEq, Prod.mk.injEq] at h'
    rw [← h'.1]
    obtain ⟨h1, h2, h3⟩ := mulPointT_reads hm
    refine ⟨h1, h2, ?_⟩
    unfold mulPoint at h3
    dsimp only at h3
    rw [show (((beNat d : Nat) : Int) - 1) = ((beNat d - 1 : Nat) : Int) by omega] at h3
    exact mulLoop_fuel s F _ _ _ _ h3

/-- C92: whoever knows the sequence of calls of `_add` in `public_key_generate` knows the private key. -/
theorem C92_public_key {s : Sig} {F : Nat} {sk : PyVal} {d : Bytes} (hd : sk.data? = some d) (hl : d.length = s.size)
    {t : List Call} {r : Res Bytes} (h : s.publicKeyGenerateT F sk = some (t, r)) :
    readCalls t + 1 = beNat d := (publicKeyGenerateT_calls hd hl h).1

theorem callsFor_count (F v : Nat) (h : v < 2 ^ F) :
    (callsFor F v).count .double = (Nat.digits 2 v).length ∧ (callsFor F v).count .add = (Nat.digits 2 v).sum := by
  induction F generalizing v with
  | zero => simp at h; subst h; simp [callsFor]
  | succ F ih =>
    rw [callsFor]
    by_cases h0 : v = 0
    · rw [if_pos h0, h0]; simp
    · obtain ⟨i1, i2⟩ := ih (v / 2) (by rw [Nat.pow_succ] at h; omega)
      rw [if_neg h0, Nat.digits_def' (by omega) (by omega)]
      have : v % 2 = 1 ∨ v % 2 = 0 := by omega
      rcases this with h1 | h1
      · rw [if_pos h1, h1]
        simp only [List.cons_append, List.nil_append, List.count_cons, List.length_cons, List.sum_cons, i1, i2]
        exact ⟨by simp, by simp; omega⟩
      · rw [if_neg (by omega), h1]
        simp only [List.cons_append, List.nil_append, List.count_cons, List.length_cons, List.sum_cons, i1, i2]
        exact ⟨by simp, by simp⟩

/-- C92, the number of calls: one doubling for each binary digit of the private key less one, one addition for each
digit 1. -/
theorem C92_count {s : Sig} {F : Nat} {sk : PyVal} {d : Bytes} (hd : sk.data? = some d) (hl : d.length = s.size)
    {t : List Call} {r : Res Bytes} (h : s.publicKeyGenerateT F sk = some (t, r)) :
    t.count .double = (Nat.digits 2 (beNat d - 1)).length ∧ t.count .add = (Nat.digits 2 (beNat d - 1)).sum := by
  obtain ⟨-, h1, h2⟩ := publicKeyGenerateT_calls hd hl h
  rw [h1]
  exact callsFor_count F _ h2

theorem signInnerT_done (s : Sig) (F : Nat) (k : Int) (n : Nat) (r : Int) (t : List Call) (h0 : 0 ≤ r) (hr : r ≠ 0)
    (h : r < 256 ^ s.size) : signInnerT s F k n r t = some (t, r) := by
  have hz := zero_bytes s.size r h0 h
  rw [signInnerT.eq_def]
  dsimp only
  rw [Bool.eq_false_iff.2 fun h' => hr (hz.1 h'), if_pos (by simp)]

theorem signOuterT_done (s : Sig) (F : Nat) (d e k : Int) (n : Nat) (r sg : Int) (t : List Call) (h0 : 0 ≤ sg)
    (hr : sg ≠ 0) (h : sg < 256 ^ s.size) : signOuterT s F d e k n r sg t = some (t, (r, sg)) := by
  have hz := zero_bytes s.size sg h0 h
  rw [signOuterT.eq_def]
  dsimp only
  rw [Bool.eq_false_iff.2 fun h' => hr (hz.1 h'), if_pos (by simp)]

theorem signOuterT_reads {s : Sig} {q : Nat} (hq : s.q = q) (hq0 : 0 < q) (hsize : q ≤ 256 ^ s.size) {F k : Nat}
    {d e : Int} {t : List Call} {x : Int × Int} (h : signOuterT s F d e k F 0 0 [] = some (t, x)) :
    readCalls t + 1 = k := by
  have hsnd := signOuterT_snd s F d e k F 0 0 []
  rw [h] at hsnd
  have hF : 0 < F := by
    rcases Nat.eq_zero_or_pos F with rfl | hF
    · rw [signOuter_zero_fuel] at hsnd; cases hsnd
    · exact hF
  have hz : compareToZero (intToBytes 0 s.size) = true := (zero_bytes s.size 0 (by omega) (by positivity)).2 rfl
  rw [signOuter_eq s q hq hq0 hsize F hF] at hsnd
  have hm := mulPointT_snd s F k [] (-1) (-1)
  cases hT : s.mulPointT F (k : Int) [] with
  | none =>
    rw [hT] at hm
    rw [← hm] at hsnd
    cases hsnd
  | some y =>
    obtain ⟨t', c⟩ := y
    rw [hT] at hm
    rw [← hm] at hsnd
    simp only [Option.map_some] at hsnd
    have hr : c.1.fmod s.q ≠ 0 := by
      intro hr; rw [if_pos hr] at hsnd; cases hsnd
    rw [if_neg hr] at hsnd
    have hs : ((c.1.fmod s.q) * d + k * e).fmod s.q ≠ 0 := by
      intro hr; rw [if_pos hr] at hsnd; cases hsnd
    obtain ⟨F', rfl⟩ : ∃ F', F = F' + 1 := ⟨F - 1, by omega⟩
    have b1 := fmod_q s q hq hq0 hsize c.1
    have b2 := fmod_q s q hq hq0 hsize (c.1.fmod s.q * d + k * e)
    have h1 : signInnerT s (F' + 1) k (F' + 1) 0 [] = some (t', c.1.fmod s.q) := by
      rw [signInnerT, hz, if_neg (by simp), hT]
      exact signInnerT_done s _ _ _ _ _ b1.1 hr b1.2
    rw [signOuterT, hz, if_neg (by simp), h1] at h
    have h2 := signOuterT_done s (F' + 1) d e k F' (c.1.fmod s.q) _ t' b2.1 hs b2.2
    have h3 : some (t', (c.1.fmod s.q, (c.1.fmod s.q * d + k * e).fmod s.q)) = some (t, x) := h2.symm.trans h
    simp only [Option.some.injEq, Prod.mk.injEq] at h3
    rw [← h3.1]
    exact (mulPointT_reads hT).1

/-- What the inner `while` of `sign` returns, whatever the curve is: a number from 1 to q - 1. -/
theorem signInner_range {s : Sig} {q : Nat} (hq : s.q = q) (hq0 : 0 < q) (hsize : q ≤ 256 ^ s.size) (F : Nat) (k : Int) :
    ∀ (n : Nat) (r r' : Int), 0 ≤ r → r < q → signInner s F k n r = some r' → 0 < r' ∧ r' < q := by
  intro n
  induction n with
  | zero =>
    intro r r' h0 h1 h
    rw [signInner_step s F k 0 r h0 (h1.trans_le (by exact_mod_cast hsize))] at h
    split at h
    · cases h; exact ⟨by omega, h1⟩
    · cases h
  | succ n ih =>
    intro r r' h0 h1 h
    rw [signInner_step s F k (n + 1) r h0 (h1.trans_le (by exact_mod_cast hsize))] at h
    split at h
    · cases h; exact ⟨by omega, h1⟩
    · cases hm : s.mulPoint F k with
      | none => rw [hm] at h; cases h
      | some c =>
        rw [hm] at h
        dsimp only at h
        rw [hq] at h
        rw [Int.fmod_eq_emod_of_nonneg _ (by omega)] at h
        exact ih _ r' (Int.emod_nonneg _ (by omega)) (Int.emod_lt_of_pos _ (by omega)) h

/-- What the outer `while` of `sign` returns, whatever the curve is: r and s from 1 to q - 1 with s = r*d + k*e. -/
theorem signOuter_range {s : Sig} {q : Nat} (hq : s.q = q) (hq0 : 0 < q) (hsize : q ≤ 256 ^ s.size) (F : Nat) (d e k : Int) :
    ∀ (n : Nat) (r sg r' sg' : Int), 0 ≤ r → r < q → 0 ≤ sg → sg < q → (sg = 0 ∨ (0 < r ∧ sg = (r * d + k * e) % q)) →
      signOuter s F d e k n r sg = some (r', sg') → 0 < r' ∧ r' < q ∧ 0 < sg' ∧ sg' < q ∧ sg' = (r' * d + k * e) % q := by
  intro n
  induction n with
  | zero =>
    intro r sg r' sg' h0 h1 h2 h3 hi h
    unfold signOuter at h
    have zb := zero_bytes s.size sg h2 (h3.trans_le (by exact_mod_cast hsize))
    split at h
    · rename_i hz
      have hne : sg ≠ 0 := fun x => by rw [zb.2 x] at hz; cases hz
      cases h
      rcases hi with hi | hi
      · exact (hne hi).elim
      · exact ⟨hi.1, h1, by omega, h3, hi.2⟩
    · cases h
  | succ n ih =>
    intro r sg r' sg' h0 h1 h2 h3 hi h
    unfold signOuter at h
    have zb := zero_bytes s.size sg h2 (h3.trans_le (by exact_mod_cast hsize))
    split at h
    · rename_i hz
      have hne : sg ≠ 0 := fun x => by rw [zb.2 x] at hz; cases hz
      cases h
      rcases hi with hi | hi
      · exact (hne hi).elim
      · exact ⟨hi.1, h1, by omega, h3, hi.2⟩
    · dsimp only at h
      cases hm : signInner s F k F r with
      | none => rw [hm] at h; cases h
      | some r1 =>
        rw [hm] at h
        obtain ⟨b1, b2⟩ := signInner_range hq hq0 hsize F k F r r1 h0 h1 hm
        dsimp only at h
        rw [hq, Int.fmod_eq_emod_of_nonneg _ (by omega)] at h
        exact ih r1 _ r' sg' (by omega) b2 (Int.emod_nonneg _ (by omega)) (Int.emod_lt_of_pos _ (by omega)) (.inr ⟨b1, rfl⟩) h

/-- C92: the sequence of calls of `_add` in `sign` is the random value, and together with the digest and the
signature it gives the private key (modulo q, which is all that `sign` uses of it). Of the curve nothing is asked but that q is a prime which has room in
the bytes of a half of the signature. -/
theorem C92_sign {s : Sig} {q : Nat} (hq : s.q = q) (hqp : q.Prime) (hsize : q ≤ 256 ^ s.size)
    {sk dgv rkv : PyVal} {d dg : Bytes} (hd : sk.data? = some d) (hdg : dgv.data? = some dg)
    {F : Nat} {rand : Nat → Bytes} {t : List Call} {sig : Bytes}
    (h : s.signT F rand sk dgv rkv = some (t, .ok sig)) :
    ((rkv.data? ≠ some [] ∧ rkv.data?.map beNat = some (readCalls t + 1)) ∨
      (rkv.data? = some [] ∧ ∃ i, beNat (rand i) = readCalls t + 1)) ∧
    (beNat d : ZMod q) =
      ((beNat (sig.drop s.size) : ZMod q) - ((readCalls t + 1 : Nat) : ZMod q) * (stdE q dg : ZMod q)) *
        (beNat (sig.take s.size) : ZMod q)⁻¹ := by
  have : Fact q.Prime := ⟨hqp⟩
  have hq0 := hqp.pos
  have hsign : s.sign F rand sk dgv rkv = some (.ok sig) := by
    rw [← (C92_results s F rand sk dgv rkv).2, h]; rfl
  obtain ⟨d', dg', rk, e1, l1, e2, l2, hrk, hlt, hw⟩ := sign_ok hsign
  rw [hd] at e1
  cases e1
  rw [hdg] at e2
  cases e2
  have hread : readCalls t + 1 = beNat rk := by
    have key : ∀ v : PyVal, v.data? = some rk →
        (match v.data? with
          | none => some (([] : List Call), (Except.error (Err.signatureError "GOSTSignatureError: invalid random value") : Res Bytes))
          | some rk =>
            if (bytesToInt rk : Int) ≥ s.q then
              some ([], .error (.signatureError "GOSTSignatureError: invalid random value"))
            else do
              let (t, r, sg) ← signOuterT s F (bytesToInt (sk.data?.getD [])) (s.setE (dgv.data?.getD []))
                (bytesToInt rk) F 0 0 []
              some (t, .ok (intToBytes r s.size ++ intToBytes sg s.size))) = some (t, .ok sig) →
        readCalls t + 1 = beNat rk := by
      intro v hv hx
      simp only [hv, bytesToInt_eq] at hx
      rw [if_neg (by omega)] at hx
      cases hO : signOuterT s F (beNat (sk.data?.getD []) : Nat) (s.setE (dgv.data?.getD [])) (beNat rk : Nat) F 0 0 [] with
      | none => rw [hO] at hx; cases hx
      | some x =>
        obtain ⟨t', r, sg⟩ := x
        rw [hO] at hx
        have hx' : some (t', (Except.ok (intToBytes r s.size ++ intToBytes sg s.size) : Res Bytes)) =
          some (t, .ok sig) := hx
        simp only [Option.some.injEq, Prod.mk.injEq] at hx'
        rw [← hx'.1]
        exact signOuterT_reads hq hq0 hsize hO
    unfold signT at h
    rw [not_checkValue hd l1, not_checkValue hdg l2] at h
    simp only [Bool.false_eq_true, if_false] at h
    rcases hrk with ⟨h1, h2⟩ | ⟨h1, h2⟩
    · rw [isEmpty_data h1 h2] at h
      exact key rkv h1 h
    · rw [isEmpty_nil h1, h2] at h
      exact key (.bytearray rk) rfl h
  refine ⟨?_, ?_⟩
  · rw [hread]
    rcases hrk with ⟨h1, h2⟩ | ⟨h1, h2⟩
    · left
      rw [h1]
      exact ⟨by simpa using h2, rfl⟩
    · obtain ⟨i, hi⟩ := getRandK_mem F rand rk h2
      exact .inr ⟨h1, i, by rw [← hi]⟩
  · unfold signWith at hw
    rw [setE_eq s q hq hqp.one_lt hsize dg] at hw
    cases hO : signOuter s F (beNat d : Nat) (stdE q dg : Nat) (beNat rk : Nat) F 0 0 with
    | none => rw [hO] at hw; cases hw
    | some c =>
      obtain ⟨r, sg⟩ := c
      rw [hO] at hw
      obtain ⟨r0, r1, s0, s1, a5⟩ := signOuter_range hq hq0 hsize F _ _ _ F 0 0 r sg le_rfl (by omega) le_rfl (by omega)
        (.inl rfl) hO
      obtain ⟨r, rfl⟩ := Int.eq_ofNat_of_zero_le r0.le
      obtain ⟨sg, rfl⟩ := Int.eq_ofNat_of_zero_le s0.le
      simp only [Option.map_some, Option.some.injEq, Except.ok.injEq] at hw
      rw [pairBytes_nat] at hw
      obtain ⟨p1, p2⟩ := pair_parts s.size r sg (by omega) (by omega)
      rw [← hw, p1, p2, hread]
      have hr0 : (r : ZMod q) ≠ 0 := by
        rw [Ne, ZMod.natCast_eq_zero_iff]
        intro hdv
        have := Nat.le_of_dvd (by omega) hdv
        omega
      have a6 : sg = (r * beNat d + beNat rk * stdE q dg) % q := by exact_mod_cast a5
      have c1 : (sg : ZMod q) = r * beNat d + beNat rk * stdE q dg := by
        rw [a6, ZMod.natCast_mod]; push_cast; rfl
      rw [c1, eq_mul_inv_iff_mul_eq₀ hr0]
      ring

/-- The hypotheses of `C92_public_key` are met: the private key 3 on the built-in curve 256-paramSetB makes two calls,
a doubling for the digit 0 of 2 and an addition and a doubling for the digit 1. -/
example : ((given 1 Curves.c256B).publicKeyGenerateT 2 (.bytes (beBytes 32 3))).map Prod.fst =
    some [.double, .add, .double] := by decide +kernel

/-- A call to which `C92_sign` applies: the random value 3 on the same curve, whose q is a prime (C59). -/
example : ((given 1 Curves.c256B).signT 2 (fun _ => []) (.bytes (beBytes 32 5)) (.bytes (beBytes 32 7))
    (.bytes (beBytes 32 3))).map (fun x => (x.1, x.2.toBool)) = some ([.double, .add, .double], true) := by decide +kernel

/-- The private key 6 on a curve of the package: the digits of 5 are 1, 0, 1. -/
example : readCalls [.add, .double, .double, .add, .double] + 1 = 6 := rfl

end Sig
end Gost
