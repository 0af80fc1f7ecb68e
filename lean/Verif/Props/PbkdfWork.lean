import Verif.Model.TracePbkdf
import Verif.Props.Pbkdf

/-! Property C94: which messages the key derivation authenticates, and how many. -/

namespace Gost

namespace Spec

/-- What is given to the pseudo-random function for block `i` with `c` iterations by the object:
`S || INT(i)` a second time, then U_1, …, U_(c-1). -/
def pbkdfMessages (F : List UInt8 → List UInt8) (S : List UInt8) (c i : Nat) : List (List UInt8) :=
  (S ++ beBytes 4 i) :: (S ++ beBytes 4 i) :: (List.range (c - 1)).map (pbkdfU F S i)

end Spec

namespace Pbkdf

theorem uFirstT_eq (s : Pbkdf) (t : List Bytes) :
    s.uFirstT t = (t ++ [s.salt ++ intToBytes s.counter 4], s.uFirst.1, s.uFirst.2) := rfl

theorem uIterT_eq (s : Pbkdf) (u : Bytes) (t : List Bytes) :
    s.uIterT u t = (t ++ [u], (s.uIter u).1, (s.uIter u).2) := rfl

/-- The recorded loop without its record is the loop; the first value is added at the left. -/
theorem fLoopT_eq (l : List Nat) (s : Pbkdf) (u acc : Bytes) (t : List Bytes) :
    (fLoopT l.length s u acc t).2 =
      ((l.foldl fStep (s, u, acc)).1, (l.foldl fStep (s, u, acc)).2.2) := by
  induction l generalizing s u acc t with
  | nil => rfl
  | cons a l ih =>
    rw [List.length_cons, List.foldl_cons]
    exact ih _ _ _ _

theorem fT_eq (s : Pbkdf) (t : List Bytes) : (s.fT t).2 = s.f := by
  have h := fLoopT_eq (List.range (s.uFirst.1.uFirst.1.iterations - 1).toNat) s.uFirst.1.uFirst.1
    s.uFirst.1.uFirst.2 s.uFirst.2
    (t ++ [s.salt ++ intToBytes s.counter 4] ++
      [s.uFirst.1.salt ++ intToBytes s.uFirst.1.counter 4])
  rw [List.length_range] at h
  exact h

theorem blocksT_eq (l : List Nat) (s : Pbkdf) (r : Bytes) (t : List Bytes) :
    (blocksT (l.map (· + 1)) s r t).2 = l.foldl (fun (st : Pbkdf × Bytes) i =>
      let (s, t) := f { st.1 with counter := i + 1 }
      (s, st.2 ++ t)) (s, r) := by
  induction l generalizing s r t with
  | nil => rfl
  | cons a l ih =>
    have e := fT_eq { s with counter := a + 1 } t
    rw [List.map_cons, List.foldl_cons]
    rw [← e]
    exact ih _ _ _

theorem deriveT_eq (s : Pbkdf) (n : Int) : (s.deriveT n).2 = s.derive n := by
  unfold deriveT derive
  by_cases h : n > (2 ^ 32 - 1) * 64
  · rw [if_pos h, if_pos h]
  · rw [if_neg h, if_neg h]
    unfold calculate
    simp only
    rw [← blocksT_eq _ s [] []]

theorem fLoopT_log {pw salt : Bytes} {c i : Nat} (hpw : pw.length ≤ 64) (n : Nat) {s : Pbkdf}
    (h : Inv pw salt c s) (j : Nat) (acc : Bytes) (t : List Bytes) :
    (fLoopT n s (Spec.pbkdfU (prf pw) salt i j) acc t).1 =
      t ++ (List.range' j n).map (Spec.pbkdfU (prf pw) salt i) := by
  induction n generalizing s j acc t with
  | zero => simp [fLoopT]
  | succ n ih =>
    obtain ⟨u1, u2, -⟩ := uIter_ok h hpw (Spec.pbkdfU (prf pw) salt i j)
    have e : (s.uIter (Spec.pbkdfU (prf pw) salt i j)).2 = Spec.pbkdfU (prf pw) salt i (j + 1) := u1
    unfold fLoopT
    rw [uIterT_eq]
    simp only [e]
    rw [ih u2, List.range'_succ]
    simp

theorem fT_log {pw salt : Bytes} {c : Nat} {s : Pbkdf} (h : Inv pw salt c s)
    (hpw : pw.length ≤ 64) (t : List Bytes) :
    (s.fT t).1 = t ++ Spec.pbkdfMessages (prf pw) salt c s.counter := by
  obtain ⟨a1, a2, a3⟩ := uFirst_ok h hpw
  obtain ⟨b1, b2, b3⟩ := uFirst_ok a2 hpw
  rw [a3] at b1
  unfold fT
  rw [uFirstT_eq]
  simp only
  rw [uFirstT_eq]
  simp only
  rw [b1, b2.iter, fLoopT_log hpw _ b2, h.salt, a2.salt, a3, intToBytes_nat]
  simp [Spec.pbkdfMessages, List.range_eq_range']

theorem blocksT_log {pw salt : Bytes} {c : Nat} (hpw : pw.length ≤ 64) (l : List Nat) {s : Pbkdf}
    (h : Inv pw salt c s) (r : Bytes) (t : List Bytes) :
    (blocksT l s r t).1 = t ++ l.flatMap (Spec.pbkdfMessages (prf pw) salt c) := by
  induction l generalizing s r t with
  | nil => simp [blocksT]
  | cons a l ih =>
    have h' : Inv pw salt c { s with counter := a } := ⟨h.salt, h.iter, h.key, h.name⟩
    have e := fT_log h' hpw t
    have e2 := fT_eq { s with counter := a } t
    have hi := (f_ok h' hpw).2
    rw [← e2] at hi
    unfold blocksT
    simp only
    rw [ih hi, e, List.flatMap_cons, List.append_assoc]

end Pbkdf

/-- C94: the recorded derivation is the derivation. -/
theorem C94_results (s : Pbkdf) (n : Int) : (s.deriveT n).2 = s.derive n := Pbkdf.deriveT_eq s n

/-- The messages of a sequence of `derive` calls. -/
def deriveMessages (s : Pbkdf) : List Nat → List (List Bytes)
  | [] => []
  | n :: ns => (s.deriveT n).1 :: deriveMessages (s.deriveT n).2.1 ns

/-- C94: every `derive` of an object passes to HMAC, for each of its blocks 1, 2, …, ⌈n/64⌉, the
string `S || INT(i)` twice and then U_1, …, U_(c-1). Nothing else is authenticated, and nothing
depends on what was derived before. -/
theorem C94_messages (rand : Bytes) (pv : PyVal) (pw : Bytes) (hpv : pv.data? = some pw)
    (hpw : pw.length ≤ 64) (salt : Option PyVal) (sl : Bytes) (hs : saltUsed rand salt = some sl)
    (c : Nat) (ns : List Nat) (hns : ∀ n ∈ ns, n ≤ (2 ^ 32 - 1) * 64) :
    ∃ s, Pbkdf.new rand pv salt c = .ok s ∧
      deriveMessages s ns = ns.map fun n =>
        (List.range' 1 ((n + 63) / 64)).flatMap (Spec.pbkdfMessages (hmac512 pw) sl c) := by
  refine ⟨_, pbkdf_new_ok rand pv pw hpv hpw salt sl hs c, ?_⟩
  have hi : Pbkdf.Inv pw sl c ⟨pw, sl, c, 0, ⟨Spec.hmacKey pw, HashObj.hashInit "streebog512", 0⟩⟩ :=
    ⟨rfl, by show ((c : Int) - 1).toNat = c - 1; omega, rfl, rfl⟩
  generalize (⟨pw, sl, c, 0, ⟨Spec.hmacKey pw, HashObj.hashInit "streebog512", 0⟩⟩ : Pbkdf) = s at hi
  induction ns generalizing s with
  | nil => rfl
  | cons n ns ih =>
    have hn := hns n List.mem_cons_self
    have hi2 := (Pbkdf.derive_ok hi hpw n hn).2
    rw [← C94_results] at hi2
    rw [deriveMessages, List.map_cons, ih (fun m hm => hns m (List.mem_cons_of_mem _ hm)) _ hi2]
    congr 1
    have hk : (if (n : Int).fmod 64 ≠ 0 then (n : Int).fdiv 64 + 1 else (n : Int).fdiv 64).toNat =
        (n + 63) / 64 := by
      rw [Int.fmod_eq_emod_of_nonneg _ (by omega), Int.fdiv_eq_ediv_of_nonneg _ (by omega)]
      split <;> omega
    unfold Pbkdf.deriveT
    rw [if_neg (by omega)]
    simp only [hk]
    rw [Pbkdf.blocksT_log hpw _ hi, List.nil_append, prf_hmac512, List.range'_eq_map_range]
    congr 1
    exact List.map_congr_left fun a _ => Nat.add_comm _ _

theorem flatMap_messages_length (F : Bytes → Bytes) (S : Bytes) (c : Nat) (l : List Nat) :
    (l.flatMap (Spec.pbkdfMessages F S c)).length = l.length * (max c 1 + 1) := by
  induction l with
  | nil => simp
  | cons a l ih =>
    rw [List.flatMap_cons, List.length_append, ih, List.length_cons, Nat.succ_mul]
    simp only [Spec.pbkdfMessages, List.length_cons, List.length_map, List.length_range]
    omega

/-- C94, the number of HMAC computations: one more for each block than the iterations which were
asked for, and two for each block when fewer than two were asked for. -/
theorem C94_count (rand : Bytes) (pv : PyVal) (pw : Bytes) (hpv : pv.data? = some pw)
    (hpw : pw.length ≤ 64) (salt : Option PyVal) (sl : Bytes) (hs : saltUsed rand salt = some sl)
    (c n : Nat) (hn : n ≤ (2 ^ 32 - 1) * 64) :
    ∃ s, Pbkdf.new rand pv salt c = .ok s ∧
      (s.deriveT n).1.length = (n + 63) / 64 * (max c 1 + 1) := by
  obtain ⟨s, h1, h2⟩ := C94_messages rand pv pw hpv hpw salt sl hs c [n] (by simpa using hn)
  refine ⟨s, h1, ?_⟩
  simp only [deriveMessages, List.map_cons, List.map_nil, List.cons.injEq, and_true] at h2
  rw [h2, flatMap_messages_length, List.length_range']

/-- C94, a length which is negative or too large costs nothing. -/
theorem C94_none (s : Pbkdf) (n : Int) (hn : n < 0 ∨ (2 ^ 32 - 1) * 64 < n) :
    (s.deriveT n).1 = [] := by
  unfold Pbkdf.deriveT
  by_cases h : n > (2 ^ 32 - 1) * 64
  · rw [if_pos h]
  · rw [if_neg h]
    have hk : (if n.fmod 64 ≠ 0 then n.fdiv 64 + 1 else n.fdiv 64).toNat = 0 := by
      rw [Int.fmod_eq_emod_of_nonneg _ (by omega), Int.fdiv_eq_ediv_of_nonneg _ (by omega)]
      split <;> omega
    simp only [hk]
    rfl

/-- A case: the default number of iterations and a key of 100 bytes take 2002 computations, where
the standard needs 2000. -/
example : ∃ s, Pbkdf.new [] (.bytes [0x70, 0x77]) (some (.bytes [0x73])) (1000 : Nat) = .ok s ∧
    (s.deriveT (100 : Nat)).1.length = 2002 :=
  C94_count [] _ [0x70, 0x77] rfl (by decide) _ [0x73] (by decide) 1000 100 (by decide)

end Gost
