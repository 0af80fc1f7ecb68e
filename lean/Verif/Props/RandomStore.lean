import Verif.Spec.RandCalls
import Verif.Props.Random

/-! Property C70: any mixture of `random`, `reset` and `clear` calls on one generator. -/

namespace Gost
open Spec (beNat randValue randBlocks randOut randUsed randReg RandOp RandAns RandPast randCall
  randAnswers)
open Rand (H)

/-- What a call stands for: an empty seed asks the system generator, a byte object of the declared
size is a seed, everything else is none. -/
def RandCall.op (sizeS : Nat) : RandCall → RandOp
  | .random => .random
  | .clear => .clear
  | .reset rand v =>
    if v.data? = some [] then .seed rand
    else match v.data? with
      | some b => if b.length = sizeS then .seed b else .badSeed
      | none => .badSeed

/-- The result of a call: `none` if the method returns nothing. -/
def RandCall.result (s : Rand) : RandCall → Res (Option Bytes)
  | .random => s.random.2.map some
  | .clear => .ok none
  | .reset rand v => (s.reset rand v).2.map fun _ => none

/-- The results of a sequence of calls, going on after exceptions. -/
def RandCall.results : Rand → List RandCall → List (Res (Option Bytes))
  | _, [] => []
  | s, c :: cs => c.result s :: RandCall.results (c.apply s) cs

/-- The answers as values of Python. -/
def randAnsRes : RandAns → Res (Option Bytes)
  | .bytes b => .ok (some b)
  | .done => .ok none
  | .zeroSeed => .error (.randomError "GOSTRandomError: the seed value is zero")
  | .invalidSeed => .error (.randomError "GOSTRandomError: invalid seed value")
  | .overLimit => .error (.randomError "GOSTRandomError: exceeded the limit value of the counter")

/-- The object and its past. -/
def Remembers (sizeS size : Nat) (s : Rand) : RandPast → Prop
  | none => Rand.Const sizeS size s ∧ Cleared s.randU
  | some (u, k) => u.length = sizeS ∧ Rand.Inv (seedReg u) sizeS size k s

theorem Remembers.const {sizeS size : Nat} {s : Rand} {p : RandPast} (h : Remembers sizeS size s p) :
    Rand.Const sizeS size s := by
  cases p with
  | none => exact h.1
  | some x => exact h.2.toConst

theorem Remembers.long {sizeS size : Nat} {s : Rand} {p : RandPast} (h : Remembers sizeS size s p) :
    63 ≤ s.randU.length := by
  cases p with
  | none =>
    obtain ⟨n, hn, he⟩ := h.2
    rw [he, slash_length]; omega
  | some x =>
    rw [h.2.reg, randReg]
    split
    · rw [seedReg_length]; omega
    · simp [randValue]

theorem cleared_top {u : Bytes} (hu : Cleared u) {sizeS : Nat} (h0 : sizeS ≠ 0) :
    beNat (u.take sizeS) ≠ 0 := by
  obtain ⟨n, hn, he⟩ := hu
  obtain ⟨m, rfl⟩ : ∃ m, n = m + 1 := ⟨n - 1, by omega⟩
  obtain ⟨t, rfl⟩ : ∃ t, sizeS = t + 1 := ⟨sizeS - 1, by omega⟩
  rw [he, List.replicate_succ, List.flatten_cons, slashX00, List.cons_append, List.take_succ_cons]
  have := beNat_ge 0x2f (List.take t ([0x78, 0x30, 0x30] ++
    (List.replicate m [0x2f, 0x78, 0x30, 0x30]).flatten)) (by decide)
  have hp : 0 < 256 ^ (List.take t ([0x78, 0x30, 0x30] ++
    (List.replicate m ([0x2f, 0x78, 0x30, 0x30] : Bytes)).flatten)).length := Nat.pow_pos (by decide)
  omega

theorem Remembers.random {sizeS size : Nat} (hsz : sizeS ≤ 198) {s : Rand} {p : RandPast}
    (h : Remembers sizeS size s p) :
    Remembers sizeS size s.random.1 (randCall H sizeS size p .random).1 ∧
      s.random.2.map some = randAnsRes (randCall H sizeS size p .random).2 := by
  cases p with
  | none =>
    obtain ⟨hc, hu⟩ := h
    by_cases h0 : size = 0
    · subst h0
      have : s.random = (s, if sizeS = 0 then
          .error (.randomError "GOSTRandomError: the seed value is zero") else .ok []) := by
        unfold Rand.random
        rw [hc.szs, pyUpto_nat, bytesToInt_eq, hc.q]
        by_cases hs : sizeS = 0
        · subst hs
          rw [if_pos (by rw [List.take_zero]; rfl), if_pos rfl]
        · rw [if_neg (cleared_top hu hs), if_neg hs, show ((0 : Nat) : Int).fdiv 64 = 0 from by decide]
          simp only [Rand.loop, Int.toNat_zero]
          rw [hc.r, if_neg (by decide)]
      rw [this]
      refine ⟨⟨hc, hu⟩, ?_⟩
      simp only [randCall]
      by_cases hs : sizeS = 0
      · rw [if_pos hs, if_pos hs]; rfl
      · rw [if_neg hs, if_neg hs, if_pos trivial]; rfl
    · have hr := cleared_random hc hu (by omega)
      refine ⟨⟨const_random hc, hr.2⟩, ?_⟩
      rw [hr.1]
      simp only [randCall]
      rw [if_neg h0]
      by_cases hs : sizeS = 0
      · rw [if_pos hs, if_pos hs]; rfl
      · rw [if_neg hs, if_neg hs]; rfl
  | some x =>
    obtain ⟨u, k⟩ := x
    obtain ⟨rfl, hi⟩ := h
    by_cases hz : beNat ((randReg (seedReg u) k).take u.length) = 0
    · rw [Rand.random_zero hi hz]
      simp only [randCall]
      rw [if_pos (show beNat ((randReg (u ++ List.replicate (63 - u.length) 0) k).take u.length) = 0 from hz)]
      exact ⟨⟨rfl, hi⟩, rfl⟩
    · obtain ⟨s', h1, h2⟩ := Rand.random_ok hi (seedReg_length u) hsz hz
      rw [h1]
      simp only [randCall]
      rw [if_neg (show ¬ beNat ((randReg (u ++ List.replicate (63 - u.length) 0) k).take u.length) = 0 from hz)]
      exact ⟨⟨rfl, h2⟩, rfl⟩

theorem Remembers.reset {sizeS size : Nat} {s : Rand} {p : RandPast} (h : Remembers sizeS size s p)
    (rand : Bytes) (v : PyVal) (hr : rand.length = sizeS) :
    Remembers sizeS size (s.reset rand v).1 (randCall H sizeS size p ((RandCall.reset rand v).op sizeS)).1 ∧
      (s.reset rand v).2.map (fun _ => (none : Option Bytes)) =
        randAnsRes (randCall H sizeS size p ((RandCall.reset rand v).op sizeS)).2 := by
  have hc := h.const
  have acc : ∀ u : Bytes, u.length = sizeS →
      Remembers sizeS size
        { s with sizeS := sizeS, randU := seedReg u, hash := s.hash.reset } (some (u, 0)) := by
    intro u hu
    refine ⟨hu, ⟨rfl, hc.q, hc.r, hc.limit, ?_⟩, rfl⟩
    simp only [HashObj.reset]
    rw [hc.hash]; rfl
  unfold Rand.reset RandCall.op
  simp only
  rw [hc.szs, rand_seed rand sizeS hr v]
  by_cases h0 : v.data? = some []
  · rw [if_pos h0, if_pos h0]
    exact ⟨acc rand hr, rfl⟩
  · rw [if_neg h0, if_neg h0]
    cases v.data? with
    | none => exact ⟨h, rfl⟩
    | some b =>
      simp only
      by_cases hb : b.length = sizeS
      · rw [if_pos hb, if_pos hb]
        exact ⟨acc b hb, rfl⟩
      · rw [if_neg hb, if_neg hb]
        exact ⟨h, rfl⟩

/-- C70: any sequence of `random`, `reset` and `clear` calls, accepted or not, on any generator object
(sizes of the seed up to 198 bytes). Every result is given by the last accepted seed and the number of
values drawn since; refused calls leave no trace. -/
theorem C70_history (rand : Bytes) (size : Nat) (v : PyVal) (sizeS : Nat) (hr : rand.length = sizeS)
    (hsz : sizeS ≤ 198) (s : Rand) (hs : Rand.new rand size (some v) sizeS = .ok s)
    (cs : List RandCall) (hcs : ∀ c ∈ cs, c.Honest sizeS) :
    RandCall.results s cs = (randAnswers H sizeS size
      (some (if v.data? = some [] then rand else v.data?.getD [], 0)) (cs.map (RandCall.op sizeS))).map
        randAnsRes := by
  have h0 : Remembers sizeS size s (some (if v.data? = some [] then rand else v.data?.getD [], 0)) := by
    rw [C38_new rand size v sizeS hr] at hs
    split at hs
    · next h1 => cases hs; rw [if_pos h1]; subst hr; exact ⟨rfl, seeded_inv rand size⟩
    · next h1 =>
      rw [if_neg h1]
      cases hd : v.data? with
      | none => rw [hd] at hs; cases hs
      | some b =>
        rw [hd] at hs
        simp only at hs
        split at hs
        · next hb => cases hs; subst hb; exact ⟨rfl, seeded_inv b size⟩
        · cases hs
  generalize some (if v.data? = some [] then rand else v.data?.getD [], 0) = p at h0
  clear hs
  induction cs generalizing s p with
  | nil => rfl
  | cons c cs ih =>
    have key : Remembers sizeS size (c.apply s) (randCall H sizeS size p (c.op sizeS)).1 ∧
        c.result s = randAnsRes (randCall H sizeS size p (c.op sizeS)).2 := by
      cases c with
      | random => exact h0.random hsz
      | clear =>
        exact ⟨⟨⟨h0.const.szs, h0.const.q, h0.const.r, h0.const.limit, h0.const.hash⟩,
          cleared_fill _ h0.long⟩, rfl⟩
      | reset rand' v' => exact h0.reset rand' v' (hcs _ (List.mem_cons_self ..))
    simp only [RandCall.results, List.map_cons, randAnswers]
    rw [key.2, ih (c.apply s) (fun c hc => hcs c (List.mem_cons_of_mem _ hc)) _ key.1]

/-- A history for C70 with a result of every kind: two values, a refused reset, the next value, `clear`,
a refusal, a new seed and a value. -/
example : ∃ s, Rand.new (Ex.count 9 32) (65 : Nat) (some (.bytes (Ex.count 1 32))) 32 = .ok s ∧
    ∀ c ∈ [RandCall.random, .random, .reset (Ex.count 9 32) .other, .random, .clear, .random,
      .reset (Ex.count 9 32) (.bytes []), .random], c.Honest 32 :=
  ⟨_, new_seeded (Ex.count 9 32) 65 (.bytes (Ex.count 1 32)) (Ex.count 1 32) rfl (by decide) rfl,
    by simp [RandCall.Honest, Ex.count_length]⟩

end Gost
