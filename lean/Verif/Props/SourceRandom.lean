import Verif.SourceProofs.Random
import Verif.Props.Random

/-! C100: the text of `r_1323565_1_006_2017.py` computes the functions of the model, and the sequence of the
recommendations. -/

namespace Gost.Src

open Spec RandomSrc
open PbkdfSrc (NextRandom)
open Rand (H)
open Streebog (Other)

theorem initOf_seeded (seed : Bytes) (z : Int) : RandomSrc.initOf z seed seed.length = seeded seed z := by
  unfold RandomSrc.initOf seeded seedReg
  rw [zeros_seed]

/-- The size of the seed: the argument `size_s`, or 48. -/
def SizeArg (l : List (String × Val)) (size : Nat) : Prop :=
  (findAttr "size_s" l = none ∧ size = 48) ∨ findAttr "size_s" l = some (.int size)

theorem sizeArg_val {l : List (String × Val)} {size : Nat} (a : SizeArg l size) : sizeVal l = .int size := by
  unfold sizeVal
  rcases a with ⟨a, rfl⟩ | a <;> rw [a] <;> rfl

/-- C100, constructor: `gostrandom.new(rand_size, **kwargs)` as it is written, for any values in any memory and every
seed size up to 64. A non-empty seed is accepted exactly if it is a byte object of the seed size. Without a seed, or
with an empty one, the seed is read from the source of random bytes, and this is the only thing which exists before
and is changed. Without `size_s` the seed has 48 bytes. -/
theorem C100_new (L n : Nat) (h : Heap) (l : List (String × Val)) (size : Nat) (hs : SizeArg l size) :
    (∀ zv kv, findAttr "rand_k" l = some kv →
      Other kv h ∨ (∃ b, bytesOf kv h = some b ∧ b ≠ [] ∧ b.length ≠ size) →
      ∃ h', call package L (n + 8) "Random.new" [zv, .dict l] h =
        fail (.raised "GOSTRandomError" "GOSTRandomError: invalid seed value") h' ∧ Ext h h') ∧
    (size ≤ 64 → ∀ (z : Int) (seed : Bytes), seed.length = size →
      (∀ kv, findAttr "rand_k" l = some kv → bytesOf kv h = some seed → seed ≠ [] →
        ∃ h' r u hr, call package L (n + 8) "Random.new" [.int z, .dict l] h = ok (.ref r) h' ∧ Ext h h' ∧
          h.length ≤ r ∧ h.length ≤ hr ∧ RandAt (seeded seed z) r u hr h') ∧
      ((findAttr "rand_k" l = none ∨ ∃ kv, findAttr "rand_k" l = some kv ∧ bytesOf kv h = some []) →
        NextRandom seed h →
        ∃ h' r u hr, call package L (n + 8) "Random.new" [.int z, .dict l] h = ok (.ref r) h' ∧ Keeps [0] h h' ∧
          h.length ≤ r ∧ h.length ≤ hr ∧ RandAt (seeded seed z) r u hr h')) := by
  have hv := sizeArg_val hs
  refine ⟨fun zv kv hf a => new_bad L (n + 5) h zv l hv hf a, ?_⟩
  intro h64 z seed hl
  subst hl
  refine ⟨fun kv hf e hne => ?_, fun hf hn => ?_⟩
  · obtain ⟨h', r, u, hr, f, k, a⟩ := RandomSrc.new_ok L n h z l hv h64 (W := [])
      (Or.inl ⟨by unfold seedVal; rw [hf]; exact e, hne, rfl, rfl⟩)
    rw [initOf_seeded] at a
    exact ⟨h', r, u, hr, f, k.ext, a⟩
  · obtain ⟨h', r, u, hr, f, k, a⟩ := RandomSrc.new_ok L n h z l hv h64 (W := [0])
      (Or.inr ⟨by
        unfold seedVal
        rcases hf with hf | ⟨v, hf, e⟩
        · rw [hf]; rfl
        · rw [hf]; exact e, hn, rfl, rfl⟩)
    rw [initOf_seeded] at a
    exact ⟨h', r, u, hr, f, k, a⟩

/-- C100, what is left out: a call without `size_s` (and one without `rand_k`) makes the object which `new` of the
model makes if the same arguments are left out there, and refuses what that refuses. -/
theorem C100_defaults (L n : Nat) (h : Heap) (l : List (String × Val)) (hz : findAttr "size_s" l = none) :
    (∀ z : Int, ∀ kv seed, findAttr "rand_k" l = some kv → bytesOf kv h = some seed → seed ≠ [] →
      ∀ rand : Bytes, rand.length = 48 →
      (∃ s h' r u hr, Gost.Rand.new rand z (some (pyVal kv h)) = .ok s ∧
        call package L (n + 8) "Random.new" [.int z, .dict l] h = ok (.ref r) h' ∧ Ext h h' ∧ RandAt s r u hr h') ∨
      ∃ h', Gost.Rand.new rand z (some (pyVal kv h)) =
          .error (.randomError "GOSTRandomError: invalid seed value") ∧
        call package L (n + 8) "Random.new" [.int z, .dict l] h =
          fail (.raised "GOSTRandomError" "GOSTRandomError: invalid seed value") h' ∧ Ext h h') ∧
    (∀ z : Int, findAttr "rand_k" l = none → ∀ rand : Bytes, rand.length = 48 → NextRandom rand h →
      ∃ s h' r u hr, Gost.Rand.new rand z = .ok s ∧
        call package L (n + 8) "Random.new" [.int z, .dict l] h = ok (.ref r) h' ∧ Keeps [0] h h' ∧
        RandAt s r u hr h') := by
  have q := C100_new L n h l 48 (Or.inl ⟨hz, rfl⟩)
  refine ⟨fun z kv seed hf e hne rand hr => ?_, fun z hf rand hl hr => ?_⟩
  · have hk : (pyVal kv h).data? = some seed := by rw [pyVal_data, e]
    by_cases hs : seed.length = 48
    · obtain ⟨h', r, u, hh, f, x, -, -, a⟩ := (q.2 (by decide) z seed hs).1 kv hf e hne
      have m := new_seeded rand z _ seed hk hne (by rw [hr, hs])
      rw [hs] at m
      exact Or.inl ⟨_, h', r, u, hh, m, f, x, a⟩
    · obtain ⟨h', f, x⟩ := q.1 (.int z) kv hf (Or.inr ⟨seed, e, hne, hs⟩)
      refine Or.inr ⟨h', ?_, f, x⟩
      unfold Gost.Rand.new
      rw [Option.getD_some, rand_seed rand 48 hr, hk]
      rw [if_neg (by simpa using hne)]
      simp only [hs, if_false]
      rfl
  · obtain ⟨h', r, u, hh, f, x, -, -, a⟩ := (q.2 (by decide) z rand hl).2 (Or.inl hf) hr
    refine ⟨_, h', r, u, hh, ?_, f, x, a⟩
    unfold Gost.Rand.new
    rw [Option.getD_none, rand_seed rand 48 hl]
    simp [PyVal.data?, seeded, hl]

/-- C100, methods, on any object, whatever was done with it before, with at least as many turns of the loop as the
result has blocks. Outputs are new byte arrays; a refusal to produce output leaves the object as the model says. -/
theorem C100_methods (L n : Nat) (h : Heap) (s : Rand) (me u hr : Nat) (r : RandAt s me u hr h) :
    (s.q.toNat < L →
      (∀ b, s.random.2 = .ok b → ∃ h' w u', callMeth (ctx L (n + 8)) (.ref me) "random" [] h = ok (.ref w) h' ∧
        Keeps [me, hr] h h' ∧ h.length ≤ w ∧ bytesOf (.ref w) h' = some b ∧ RandAt s.random.1 me u' hr h') ∧
      (∀ e, s.random.2 = .error e → ∃ m h' u', e = .randomError m ∧
        callMeth (ctx L (n + 8)) (.ref me) "random" [] h = fail (.raised "GOSTRandomError" m) h' ∧
        Keeps [me, hr] h h' ∧ RandAt s.random.1 me u' hr h')) ∧
    (∀ kv, Other kv h ∨ (∃ b, bytesOf kv h = some b ∧ b ≠ [] ∧ b.length ≠ s.sizeS) →
      ∃ h', callMeth (ctx L (n + 8)) (.ref me) "reset" [kv] h =
        fail (.raised "GOSTRandomError" "GOSTRandomError: invalid seed value") h' ∧ Ext h h' ∧ RandAt s me u hr h') ∧
    (∀ kv seed, bytesOf kv h = some seed → seed ≠ [] → seed.length = s.sizeS →
      ∃ h' u', callMeth (ctx L (n + 8)) (.ref me) "reset" [kv] h = ok .none h' ∧ Keeps [me, hr] h h' ∧
        RandAt { s with randU := seedReg seed, hash := s.hash.reset } me u' hr h') ∧
    (∀ seed, NextRandom seed h → seed.length = s.sizeS →
      (∃ h' u', callMeth (ctx L (n + 8)) (.ref me) "reset" [] h = ok .none h' ∧ Keeps [me, hr, 0] h h' ∧
        RandAt { s with randU := seedReg seed, hash := s.hash.reset } me u' hr h') ∧
      ∀ kv, bytesOf kv h = some [] →
        ∃ h' u', callMeth (ctx L (n + 8)) (.ref me) "reset" [kv] h = ok .none h' ∧ Keeps [me, hr, 0] h h' ∧
          RandAt { s with randU := seedReg seed, hash := s.hash.reset } me u' hr h') ∧
    ∃ h' u', callMeth (ctx L (n + 8)) (.ref me) "clear" [] h = ok .none h' ∧ Keeps [me] h h' ∧
      RandAt s.clear me u' hr h' := by
  have hz : ∀ seed : Bytes, seed.length = s.sizeS → seedReg seed = seed ++ zeros (64 - (s.sizeS : Int) - 1) := by
    intro seed hl
    rw [← hl, zeros_seed]
    rfl
  refine ⟨fun hL => ⟨fun b hb => ?_, fun e he => ?_⟩, fun kv a => ?_, fun kv seed e hne hl => ?_,
    fun seed hn hl => ⟨?_, fun kv e => ?_⟩, ?_⟩
  · have := random_ok L n r hL
    rw [hb] at this
    obtain ⟨h', w, f, k, hw, b1, u', r'⟩ := this
    exact ⟨h', w, u', by py [r.obj]; exact f, k, hw, b1, r'⟩
  · have := random_ok L n r hL
    rw [he] at this
    cases e with
    | randomError m =>
      obtain ⟨h', f, k, u', r'⟩ := this
      exact ⟨m, h', u', rfl, by py [r.obj]; exact f, k, r'⟩
    | _ => exact this.elim
  · obtain ⟨h', f, x, r'⟩ := reset_bad L (n + 5) r a
    exact ⟨h', by py [r.obj]; exact f, x, r'⟩
  · obtain ⟨h', u', f, k, r'⟩ := RandomSrc.reset_ok L (n + 5) r (W := []) (Or.inl ⟨e, hne, hl, rfl⟩)
    rw [← hz seed hl] at r'
    exact ⟨h', u', by py [r.obj]; exact f, k, r'⟩
  · have x := (Ext.refl h).add [.bytearray []]
    obtain ⟨h', u', f, k, r'⟩ := RandomSrc.reset_ok L (n + 5) (r.ext x) (W := [0]) (Or.inr ⟨bytesOf_last [] h, by
      obtain ⟨l, e⟩ := hn
      exact ⟨l, x.get e⟩, hl, rfl⟩)
    rw [← hz seed hl] at r'
    refine ⟨h', u', ?_, (x.keeps _).trans k, r'⟩
    py [r.obj]
    rw [reset_default L (n + 7)]
    exact f
  · obtain ⟨h', u', f, k, r'⟩ := RandomSrc.reset_ok L (n + 5) r (W := [0]) (Or.inr ⟨e, hn, hl, rfl⟩)
    rw [← hz seed hl] at r'
    exact ⟨h', u', by py [r.obj]; exact f, k, r'⟩
  · obtain ⟨h', u', f, k, r'⟩ := RandomSrc.clear_ok L (n + 6) r
    exact ⟨h', u', by py [r.obj]; exact f, k, r'⟩

/-- What the caller sees: bytes, an exception of the module, or anything else. -/
def outcome : Out Val → Option (Res Bytes)
  | (.ok v, h) => (bytesOf v h).map .ok
  | (.error (.raised "GOSTRandomError" m), _) => some (.error (.randomError m))
  | _ => none

/-- The outcomes of `n` calls of `o.random()`, exceptions being caught. -/
def randomCalls (C : Ctx) (o : Val) : Nat → Heap → List (Option (Res Bytes))
  | 0, _ => []
  | n + 1, h => outcome (callMeth C o "random" [] h) :: randomCalls C o n (callMeth C o "random" [] h).2

theorem random_q (s : Rand) : s.random.1.q = s.q := by
  have hi : ∀ s : Rand, s.randIter.1.q = s.q := by
    intro s
    unfold Rand.randIter
    split <;> rfl
  have hl : ∀ n (s : Rand) acc, (s.loop n acc).1.q = s.q := by
    intro n
    induction n with
    | zero => intro s acc; rfl
    | succ n ih =>
      intro s acc
      rw [Rand.loop]
      have := hi s
      generalize s.randIter = res at *
      obtain ⟨s1, res⟩ := res
      cases res with
      | error e => exact this
      | ok b => exact (ih s1 _).trans this
  unfold Rand.random
  split
  · rfl
  · have h1 := hl s.q.toNat s []
    generalize s.loop s.q.toNat [] = res at *
    obtain ⟨s1, res⟩ := res
    cases res with
    | error e => exact h1
    | ok b =>
      simp only
      split
      · have h2 := hi s1
        generalize s1.randIter = res at *
        obtain ⟨s2, res⟩ := res
        cases res with
        | error e => exact h2.trans h1
        | ok c => exact h2.trans h1
      · exact h1

theorem random_calls (L n me hr : Nat) (k : Nat) : ∀ (s : Rand) (u : Nat) (h : Heap), RandAt s me u hr h →
    s.q.toNat < L → randomCalls (ctx L (n + 8)) (.ref me) k h = (randoms k s).map some := by
  induction k with
  | zero => intro s u h _ _; rfl
  | succ k ih =>
    intro s u h r hL
    have hq : s.random.1.q.toNat < L := by rw [random_q]; exact hL
    obtain ⟨p1, p2⟩ := (C100_methods L n h s me u hr r).1 hL
    rw [randomCalls, randoms, List.map_cons]
    cases e : s.random.2 with
    | ok b =>
      obtain ⟨h', w, u', f, k1, hw, b1, r'⟩ := p1 b e
      rw [f]
      refine congr (congrArg List.cons ?_) (ih _ u' h' r' hq)
      show (bytesOf (.ref w) h').map Except.ok = _
      rw [b1]
      rfl
    | error e' =>
      obtain ⟨m, h', u', rfl, f, k1, r'⟩ := p2 e' e
      rw [f]
      exact congr (congrArg List.cons rfl) (ih _ u' h' r' hq)

/-- C100, `reset` without an argument does what `reset` of the model does without one. -/
theorem C100_reset_default (L n : Nat) (h : Heap) (s : Rand) (me u hr : Nat) (r : RandAt s me u hr h) (rand : Bytes)
    (hl : rand.length = s.sizeS) (hn : NextRandom rand h) :
    (s.reset rand).2 = .ok () ∧ ∃ h' u', callMeth (ctx L (n + 8)) (.ref me) "reset" [] h = ok .none h' ∧
      Keeps [me, hr, 0] h h' ∧ RandAt (s.reset rand).1 me u' hr h' := by
  obtain ⟨h', u', f, k, a⟩ := ((C100_methods L n h s me u hr r).2.2.2.1 rand hn hl).1
  have m : s.reset rand = ({ s with randU := seedReg rand, hash := s.hash.reset }, .ok ()) := by
    unfold Rand.reset
    rw [rand_seed rand s.sizeS hl]
    rfl
  rw [m]
  exact ⟨rfl, h', u', f, k, a⟩

/-- C100, recommendations: for every non-empty seed of at most 64 bytes, every size of the output and every number of
calls, the generator as it is written returns in turn the outputs of the sequence of the recommendations, and raises
exactly while the seed part of the register is zero. -/
theorem C100_standard (L n : Nat) (h : Heap) (kv : Val) (seed : Bytes) (e : bytesOf kv h = some seed) (hne : seed ≠ [])
    (h64 : seed.length ≤ 64) (size : Nat) (hL : size / 64 < L) (k : Nat) :
    ∃ o h', call package L (n + 8) "Random.new" [.int size, .dict [("rand_k", kv), ("size_s", .int seed.length)]] h =
        ok o h' ∧ Ext h h' ∧
      randomCalls (ctx L (n + 8)) o k h' =
        (randLog H (seedReg seed) seed.length size 0 k).map fun b => some (randRes b) := by
  obtain ⟨h', r, u, hr, f, x, -, -, q⟩ := (((C100_new L n h [("rand_k", kv), ("size_s", .int seed.length)] seed.length
    (Or.inr rfl)).2 h64 size seed rfl).1 kv rfl e hne)
  refine ⟨.ref r, h', f, x, ?_⟩
  rw [random_calls L n r hr k _ u h' q (by
    show ((size : Int).fdiv 64).toNat < L
    rw [Int.fdiv_eq_ediv_of_nonneg _ (by decide)]
    omega), randoms_log (seedReg_length seed) (by omega) k 0 _ (seeded_inv seed size), List.map_map]
  rfl

/-! Values which meet the hypotheses. -/

example : bytesOf (.ref 1) [.list [], .bytearray [1, 2]] = some [1, 2] ∧ ([1, 2] : Bytes) ≠ [] ∧
    ([1, 2] : Bytes).length ≤ 64 ∧ 100 / 64 < 2 := ⟨rfl, by simp, by decide, by decide⟩

/-- Without any argument the seed is read from the source of random bytes. -/
example : ∃ h' r u hr, call package 1 (0 + 8) "Random.new" [.int 10, .dict []]
      [.list [.bytes (List.replicate 48 5), .bytes [6]]] = ok (.ref r) h' ∧
    RandAt (seeded (List.replicate 48 5) 10) r u hr h' := by
  obtain ⟨h', r, u, hr, f, -, -, -, q⟩ := (((C100_new 1 0 [.list [.bytes (List.replicate 48 5), .bytes [6]]] [] 48
    (Or.inl ⟨rfl, rfl⟩)).2 (by decide) 10 (List.replicate 48 5) (by simp)).2 (Or.inl rfl) ⟨_, rfl⟩)
  exact ⟨h', r, u, hr, f, q⟩

/-- The defaults: the model without a seed and a size, and the text. -/
example : ∃ s h' r u hr, Gost.Rand.new (List.replicate 48 5) 10 = .ok s ∧
    call package 1 (0 + 8) "Random.new" [.int 10, .dict []] [.list [.bytes (List.replicate 48 5), .bytes [6]]] =
      ok (.ref r) h' ∧ RandAt s r u hr h' := by
  obtain ⟨s, h', r, u, hr, m, f, -, q⟩ := (C100_defaults 1 0 [.list [.bytes (List.replicate 48 5), .bytes [6]]] []
    rfl).2 10 rfl (List.replicate 48 5) (by simp) ⟨_, rfl⟩
  exact ⟨s, h', r, u, hr, m, f, q⟩

/-- A seed of another size. -/
example : ∃ h', call package 1 (0 + 8) "Random.new" [.int 10, .dict [("rand_k", .bytes [1])]] [] =
    fail (.raised "GOSTRandomError" "GOSTRandomError: invalid seed value") h' ∧ Ext [] h' :=
  (C100_new 1 0 [] [("rand_k", .bytes [1])] 48 (Or.inl ⟨rfl, rfl⟩)).1 (.int 10) (.bytes [1]) rfl
    (Or.inr ⟨[1], rfl, by simp, by decide⟩)

end Gost.Src
