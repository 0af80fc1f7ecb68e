import Verif.Proofs.Random
import Verif.Props.Examples

/-! Properties C35 to C38: the pseudo-random sequence. -/

namespace Gost
open Spec (beNat beBytes randValue randBlocks randOut randUsed randReg randLog hashOf)
open Rand (H)

/-- The results of `n` calls of `random`. -/
def randoms : Nat → Rand → List (Res Bytes)
  | 0, _ => []
  | n + 1, s => s.random.2 :: randoms n s.random.1

/-- The object after `n` calls of `random`. -/
def afterRandoms : Nat → Rand → Rand
  | 0, s => s
  | n + 1, s => afterRandoms n s.random.1

/-- The register after seeding: the seed, and zeros up to 63 bytes. -/
def seedReg (seed : Bytes) : Bytes := seed ++ List.replicate (63 - seed.length) 0

/-- `none` is the refusal because of a zero seed. -/
def randRes : Option Bytes → Res Bytes
  | some b => .ok b
  | none => .error (.randomError "GOSTRandomError: the seed value is zero")

theorem seedReg_length (seed : Bytes) : (seedReg seed).length = seed.length + (63 - seed.length) := by
  simp [seedReg]

theorem seedReg_beNat (seed : Bytes) : beNat (seedReg seed) = beNat seed * 256 ^ (63 - seed.length) := by
  simp [seedReg, beNat_append, beNat_zeros]

theorem zeros_seed (n : Nat) : zeros (64 - (n : Int) - 1) = List.replicate (63 - n) 0 := by
  unfold zeros
  congr 1
  omega

/-- The object after an accepted seeding. -/
def seeded (seed : Bytes) (size : Int) : Rand :=
  ⟨seed.length, seedReg seed, size.fdiv 64, size.fmod 64, randLimit seed.length,
    HashObj.hashInit "streebog512"⟩

theorem seeded_inv (seed : Bytes) (size : Int) :
    Rand.Inv (seedReg seed) seed.length size 0 (seeded seed size) :=
  ⟨⟨rfl, rfl, rfl, rfl, rfl⟩, rfl⟩

/-- The exact result of the seeding: an empty or omitted seed means the bytes of the system
generator, anything else must be a byte object of the declared size. -/
theorem rand_seed (rand : Bytes) (sizeS : Nat) (hr : rand.length = sizeS) (v : PyVal) :
    Rand.seed rand sizeS v =
      if v.data? = some [] then .ok (seedReg rand)
      else match v.data? with
        | some b => if b.length = sizeS then .ok (seedReg b)
            else .error (.randomError "GOSTRandomError: invalid seed value")
        | none => .error (.randomError "GOSTRandomError: invalid seed value") := by
  unfold Rand.seed
  rw [zeros_seed]
  cases v with
  | other => rfl
  | bytes b =>
    by_cases hb : b = []
    · subst hb; simp [PyVal.isEmpty, PyVal.data?, seedReg, hr]
    · by_cases hl : b.length = sizeS
      · simp [PyVal.isEmpty, PyVal.data?, checkValue, hb, hl, seedReg]
      · simp [PyVal.isEmpty, PyVal.data?, checkValue, hb, hl]
  | bytearray b =>
    by_cases hb : b = []
    · subst hb; simp [PyVal.isEmpty, PyVal.data?, seedReg, hr]
    · by_cases hl : b.length = sizeS
      · simp [PyVal.isEmpty, PyVal.data?, checkValue, hb, hl, seedReg]
      · simp [PyVal.isEmpty, PyVal.data?, checkValue, hb, hl]

theorem new_seeded (rand : Bytes) (size : Int) (v : PyVal) (seed : Bytes) (hv : v.data? = some seed)
    (hne : seed ≠ []) (hr : rand.length = seed.length) :
    Rand.new rand size (some v) seed.length = .ok (seeded seed size) := by
  unfold Rand.new
  rw [Option.getD_some, rand_seed rand seed.length hr v, hv,
    if_neg (by simpa using hne)]
  simp only
  rw [if_pos trivial]
  rfl

/-! ### C35 -/

theorem randoms_log {u0 : Bytes} {sizeS size : Nat} (h0 : u0.length = sizeS + (63 - sizeS))
    (h : sizeS ≤ 198) (n : Nat) : ∀ (k : Nat) (s : Rand), Rand.Inv u0 sizeS size k s →
    randoms n s = (randLog H u0 sizeS size k n).map randRes := by
  induction n with
  | zero => intro k s _; rfl
  | succ n ih =>
    intro k s hi
    rw [randoms, randLog]
    by_cases hz : beNat ((randReg u0 k).take sizeS) = 0
    · rw [if_pos hz, Rand.random_zero hi hz]
      simp only [List.map_cons, ih k s hi]
      rfl
    · obtain ⟨s', h1, h2⟩ := Rand.random_ok hi h0 h hz
      rw [if_neg hz, h1]
      simp only [List.map_cons, ih _ s' h2]
      rfl

/-- C35, the exact behaviour of any number of calls for every accepted seed (sizes up to 198 bytes):
call by call the next output of the sequence, or the refusal while the seed part is zero. -/
theorem C35_exact (rand : Bytes) (size : Nat) (v : PyVal) (seed : Bytes) (hv : v.data? = some seed)
    (hne : seed ≠ []) (hr : rand.length = seed.length) (hsz : seed.length ≤ 198) (n : Nat) :
    ∃ s, Rand.new rand size (some v) seed.length = .ok s ∧
      randoms n s = (randLog H (seedReg seed) seed.length size 0 n).map randRes :=
  ⟨_, new_seeded rand size v seed hv hne hr,
    randoms_log (seedReg_length seed) hsz n 0 _ (seeded_inv seed size)⟩

/-- The seed part of the register as a number. -/
theorem top_reg (seed : Bytes) (hs : seed.length ≤ 63) (k : Nat) :
    beNat ((randReg (seedReg seed) k).take seed.length) =
      ((beNat (seedReg seed) + k) / 256 ^ (63 - seed.length)) % 256 ^ seed.length := by
  rw [Rand.randReg_short _ _ (by rw [seedReg_length]; omega), randValue]
  conv => lhs; rw [show 63 = seed.length + (63 - seed.length) by omega]
  rw [beBytes_append, List.take_left' (by simp), beNat_beBytes]

theorem top_const (seed : Bytes) (hs : seed.length ≤ 63) (k : Nat) (hk : k < 256 ^ (63 - seed.length)) :
    beNat ((randReg (seedReg seed) k).take seed.length) = beNat seed := by
  rw [top_reg seed hs, seedReg_beNat, Nat.mul_comm, Nat.mul_add_div (by omega), Nat.div_eq_of_lt hk,
    Nat.add_zero, Nat.mod_eq_of_lt (beNat_lt seed)]

theorem randLog_const (seed : Bytes) (hs : seed.length ≤ 63) (hz : beNat seed ≠ 0) (size n : Nat) :
    ∀ m, (m + n) * randUsed size ≤ 256 ^ (63 - seed.length) →
    randLog H (seedReg seed) seed.length size (m * randUsed size) n =
      (List.range n).map fun j => some (randOut H (beNat (seedReg seed)) ((m + j) * randUsed size) size) := by
  induction n with
  | zero => intro m _; rfl
  | succ n ih =>
    intro m hm
    have hlt : m * randUsed size < 256 ^ (63 - seed.length) := by
      by_cases hc : randUsed size = 0
      · rw [hc, Nat.mul_zero]; exact Nat.pow_pos (by decide)
      · have : m * randUsed size + randUsed size ≤ (m + (n + 1)) * randUsed size := by
          rw [← Nat.succ_mul]; exact Nat.mul_le_mul_right _ (by omega)
        omega
    rw [randLog, top_const seed hs _ hlt, if_neg hz, ← Nat.succ_mul,
      ih (m + 1) (by rw [show m + 1 + n = m + (n + 1) by omega]; exact hm), List.range_succ_eq_map]
    simp only [List.map_cons, Nat.add_zero, List.map_map]
    congr 1
    apply List.map_congr_left
    intro j _
    simp only [Function.comp_apply, Nat.succ_eq_add_one]
    rw [show m + 1 + j = m + (j + 1) by omega]

/-- C35: as long as the counter does not overflow into the seed (2^(8*(63-size_s)) blocks), call
number `j` returns `size` bytes of the sequence of hashes of U+1, U+2, …, each call continuing where
the last one stopped. -/
theorem C35_random (rand : Bytes) (size : Nat) (v : PyVal) (seed : Bytes) (hv : v.data? = some seed)
    (hz : beNat seed ≠ 0) (hr : rand.length = seed.length) (hsz : seed.length ≤ 63) (n : Nat)
    (hn : n * randUsed size ≤ 256 ^ (63 - seed.length)) :
    ∃ s, Rand.new rand size (some v) seed.length = .ok s ∧
      randoms n s = (List.range n).map fun j =>
        .ok (randOut H (beNat seed * 256 ^ (63 - seed.length)) (j * randUsed size) size) := by
  have hne : seed ≠ [] := by rintro rfl; exact hz rfl
  obtain ⟨s, h1, h2⟩ := C35_exact rand size v seed hv hne hr (by omega) n
  refine ⟨s, h1, ?_⟩
  have := randLog_const seed hsz hz size n 0 (by rw [Nat.zero_add]; exact hn)
  rw [Nat.zero_mul] at this
  rw [h2, this, List.map_map, seedReg_beNat]
  apply List.map_congr_left
  intro j _
  simp only [Function.comp_apply, Nat.zero_add]
  rfl

/-- C35 without a seed argument: the seed is what the system generator returned. -/
theorem C35_system_seed (rand : Bytes) (size : Nat) (hsz : rand.length ≤ 198) (n : Nat) :
    ∃ s, Rand.new rand size none rand.length = .ok s ∧
      randoms n s = (randLog H (seedReg rand) rand.length size 0 n).map randRes := by
  refine ⟨seeded rand size, ?_, randoms_log (seedReg_length rand) hsz n 0 _ (seeded_inv rand size)⟩
  unfold Rand.new
  rw [Option.getD_none, rand_seed rand rand.length rfl]
  rfl

theorem randBlocks_length (U k n : Nat) : (randBlocks H U k n).length = 64 * n := by
  induction n with
  | zero => rfl
  | succ n ih => rw [randBlocks, List.length_append, ih, Rand.H_length]; omega

/-- C35, the length of an output. -/
theorem C35_length (U k size : Nat) : (randOut H U k size).length = size := by
  rw [randOut, List.length_append, randBlocks_length]
  split
  · simp; omega
  · rw [List.length_drop, Rand.H_length]; omega

/-- C35, with a size which is a multiple of 64 the outputs of successive calls are the sequence of
blocks without gaps. -/
theorem C35_continues (U k m n : Nat) :
    randOut H U k (64 * m) ++ randOut H U (k + randUsed (64 * m)) (64 * n) =
      randBlocks H U k (m + n) := by
  have hm : 64 * m / 64 = m := by omega
  have hn : 64 * n / 64 = n := by omega
  have hu : randUsed (64 * m) = m := by unfold randUsed; omega
  rw [randOut, randOut, hm, hn, hu, if_pos (by omega), if_pos (by omega), List.append_nil,
    List.append_nil]
  induction n with
  | zero => simp [randBlocks]
  | succ n ih =>
    rw [randBlocks, ← List.append_assoc, ih (by omega), ← Nat.add_assoc, randBlocks]
    rw [show k + m + n + 1 = k + (m + n) + 1 by omega]

/-- A seed size of 199 bytes or more is accepted but never gives output. -/
theorem C35_huge_seed (seed : Bytes) (size : Nat) (hs : 198 < seed.length) (hz : size ≠ 0) :
    ∃ e, (seeded seed size).random.2 = .error e := by
  have hlim : ∀ s : Rand, s.limit = 0 →
      s.randIter = ({ s with randU := zeroFill s.randU },
        .error (.randomError "GOSTRandomError: exceeded the limit value of the counter")) := by
    intro s hl
    unfold Rand.randIter
    rw [if_pos (by omega)]
  have h0 : (seeded seed size).limit = 0 := by
    show randLimit seed.length = 0
    unfold randLimit; rw [if_neg (by omega)]
  have hq : ((size : Int).fdiv 64).toNat = size / 64 := by
    rw [Int.fdiv_eq_ediv_of_nonneg _ (by decide)]; omega
  have hr : (size : Int).fmod 64 = ((size % 64 : Nat) : Int) := by
    rw [Int.fmod_eq_emod_of_nonneg _ (by decide)]; omega
  unfold Rand.random
  split
  · exact ⟨_, rfl⟩
  · rw [show (seeded seed size).q.toNat = size / 64 from hq]
    cases hk : size / 64 with
    | zero =>
      simp only [Rand.loop]
      rw [if_pos (by show (size : Int).fmod 64 ≠ 0; omega), hlim _ h0]
      exact ⟨_, rfl⟩
    | succ n =>
      rw [Rand.loop, hlim _ h0]
      exact ⟨_, rfl⟩

/-- A case: a non-zero 48-byte seed, 10 calls with 100 bytes each. -/
example : beNat (Ex.count 1 48) ≠ 0 ∧ (Ex.count 1 48).length ≤ 63 ∧
    10 * randUsed 100 ≤ 256 ^ (63 - (Ex.count 1 48).length) := by decide +kernel

/-! ### C36 -/

/-- C36: the values hashed for different blocks differ. -/
theorem C36_distinct (U i j : Nat) (hi : i < 2 ^ 504) (hj : j < 2 ^ 504) (h : i ≠ j) :
    randValue U i ≠ randValue U j := by
  intro he
  have h1 := congrArg beNat he
  rw [randValue, randValue, beNat_beBytes, beNat_beBytes,
    show (256 : Nat) ^ 63 = 2 ^ 504 by decide +kernel] at h1
  generalize 2 ^ 504 = M at *
  have h2 : (U + i) % M = (U % M + i) % M := by rw [Nat.mod_add_mod]
  have h3 : (U + j) % M = (U % M + j) % M := by rw [Nat.mod_add_mod]
  have hU : U % M < M := Nat.mod_lt _ (by omega)
  rw [h2, h3] at h1
  generalize U % M = u at *
  by_cases hi' : u + i < M <;> by_cases hj' : u + j < M
  · rw [Nat.mod_eq_of_lt hi', Nat.mod_eq_of_lt hj'] at h1; omega
  · rw [Nat.mod_eq_of_lt hi', Nat.mod_eq_sub_mod (by omega), Nat.mod_eq_of_lt (by omega)] at h1; omega
  · rw [Nat.mod_eq_of_lt hj', Nat.mod_eq_sub_mod (by omega), Nat.mod_eq_of_lt (by omega)] at h1; omega
  · rw [Nat.mod_eq_sub_mod (by omega), Nat.mod_eq_of_lt (by omega),
      Nat.mod_eq_sub_mod (a := u + j) (by omega), Nat.mod_eq_of_lt (by omega)] at h1; omega

/-- The values which `n` blocks hash: the register after each increment. -/
def hashed : Nat → Rand → List Bytes
  | 0, _ => []
  | n + 1, s => s.randIter.1.randU :: hashed n s.randIter.1

theorem hashed_eq {u0 : Bytes} {sizeS : Nat} {size : Int} (h0 : u0.length = sizeS + (63 - sizeS))
    (h : sizeS ≤ 198) (n : Nat) : ∀ (k : Nat) (s : Rand), Rand.Inv u0 sizeS size k s →
    hashed n s = (List.range n).map fun i => randValue (beNat u0) (k + i + 1) := by
  induction n with
  | zero => intro k s _; rfl
  | succ n ih =>
    intro k s hi
    obtain ⟨s', h1, h2⟩ := Rand.randIter_ok hi h0 h
    rw [hashed, h1]
    simp only [ih (k + 1) s' h2, h2.reg, List.range_succ_eq_map, List.map_cons, List.map_map]
    rw [randReg, if_neg (by omega), Nat.add_zero]
    congr 1
    apply List.map_congr_left
    intro i _
    simp only [Function.comp_apply, Nat.succ_eq_add_one]
    rw [show k + 1 + i + 1 = k + (i + 1) + 1 by omega]

theorem hashed_get (n i : Nat) (s : Rand) (hi : i < n) :
    (hashed n s)[i]? = some (Nat.repeat (fun s => s.randIter.1) (i + 1) s).randU := by
  induction i generalizing n s with
  | zero =>
    obtain ⟨m, rfl⟩ : ∃ m, n = m + 1 := ⟨n - 1, by omega⟩
    rfl
  | succ i ih =>
    obtain ⟨m, rfl⟩ : ∃ m, n = m + 1 := ⟨n - 1, by omega⟩
    rw [hashed, List.getElem?_cons_succ, ih m _ (by omega)]
    have : ∀ j (t : Rand), Nat.repeat (fun s : Rand => s.randIter.1) j t.randIter.1 =
        Nat.repeat (fun s : Rand => s.randIter.1) (j + 1) t := by
      intro j
      induction j with
      | zero => intro t; rfl
      | succ j ih => intro t; rw [Nat.repeat, ih]; rfl
    rw [this]

/-- C36 for an object: in a run of up to 2^504 - 1 blocks after seeding every block succeeds, is the
hash of the incremented register, and no register value occurs twice. -/
theorem C36_values (rand : Bytes) (size : Int) (v : PyVal) (seed : Bytes) (hv : v.data? = some seed)
    (hne : seed ≠ []) (hr : rand.length = seed.length) (hsz : seed.length ≤ 198) :
    ∃ s, Rand.new rand size (some v) seed.length = .ok s ∧
      (∀ n, (Nat.repeat (fun s : Rand => s.randIter.1) n s).randIter.2 =
        .ok (H (Nat.repeat (fun s : Rand => s.randIter.1) (n + 1) s).randU)) ∧
      ∀ n, n < 2 ^ 504 → ∀ i j, i < n → j < n → i ≠ j → (hashed n s)[i]? ≠ (hashed n s)[j]? := by
  refine ⟨_, new_seeded rand size v seed hv hne hr, ?_, ?_⟩
  · have hinv : ∀ n, Rand.Inv (seedReg seed) seed.length size n
        (Nat.repeat (fun s : Rand => s.randIter.1) n (seeded seed size)) := by
      intro n
      induction n with
      | zero => exact seeded_inv seed size
      | succ n ih =>
        obtain ⟨s', h1, h2⟩ := Rand.randIter_ok ih (seedReg_length seed) hsz
        rw [Nat.repeat, h1]
        exact h2
    intro n
    obtain ⟨s', h1, h2⟩ := Rand.randIter_ok (hinv n) (seedReg_length seed) hsz
    rw [Nat.repeat, h1]
    show Except.ok _ = Except.ok _
    rw [h2.reg, randReg, if_neg (by omega)]
  · intro n hn i j hi hj hij
    rw [hashed_eq (seedReg_length seed) hsz n 0 _ (seeded_inv seed size)]
    simp only [List.getElem?_map, List.getElem?_range hi, List.getElem?_range hj, Option.map_some]
    intro he
    exact C36_distinct _ (0 + i + 1) (0 + j + 1) (by omega) (by omega) (by omega) (Option.some.inj he)

/-! ### C37 -/

theorem afterRandoms_inv (seed : Bytes) (hs : seed.length ≤ 63) (hz : beNat seed ≠ 0) (size n : Nat) :
    ∀ (m : Nat) (s : Rand), (m + n) * randUsed size ≤ 256 ^ (63 - seed.length) →
    Rand.Inv (seedReg seed) seed.length size (m * randUsed size) s →
    Rand.Inv (seedReg seed) seed.length size ((m + n) * randUsed size) (afterRandoms n s) := by
  induction n with
  | zero => intro m s _ hi; exact hi
  | succ n ih =>
    intro m s hm hi
    have hlt : m * randUsed size < 256 ^ (63 - seed.length) := by
      by_cases hc : randUsed size = 0
      · rw [hc, Nat.mul_zero]; exact Nat.pow_pos (by decide)
      · have : m * randUsed size + randUsed size ≤ (m + (n + 1)) * randUsed size := by
          rw [← Nat.succ_mul]; exact Nat.mul_le_mul_right _ (by omega)
        omega
    obtain ⟨s', h1, h2⟩ := Rand.random_ok hi (seedReg_length seed) (by omega)
      (by rw [top_const seed hs _ hlt]; exact hz)
    rw [afterRandoms, h1]
    have := ih (m + 1) s' (by rw [show m + 1 + n = m + (n + 1) by omega]; exact hm)
      (by rw [Nat.succ_mul]; exact h2)
    rwa [show m + 1 + n = m + (n + 1) by omega] at this

/-- C37, what holds: while the counter part has not overflowed the seed part stays as it was given. -/
theorem C37_seed_kept_partial (seed : Bytes) (size : Nat) (hz : beNat seed ≠ 0) (hs : seed.length ≤ 63)
    (n : Nat) (hn : n * randUsed size < 256 ^ (63 - seed.length)) :
    (afterRandoms n (seeded seed size)).randU.take seed.length = seed := by
  have hi := afterRandoms_inv seed hs hz size n 0 (seeded seed size)
    (by rw [Nat.zero_add]; omega) (by rw [Nat.zero_mul]; exact seeded_inv seed size)
  rw [Nat.zero_add] at hi
  apply beNat_inj
  · rw [hi.reg, Rand.randReg_short _ _ (by rw [seedReg_length]; omega)]
    simp [randValue]; omega
  · rw [hi.reg, top_const seed hs _ hn]

/-- C37, exact behaviour: the check never fires. In any number of calls on a seeded object (sizes up
to 198 bytes) no call raises the counter limit error. -/
theorem C37_never_raised (seed : Bytes) (size : Nat) (hs : seed.length ≤ 198) (n : Nat) :
    .error (.randomError "GOSTRandomError: exceeded the limit value of the counter") ∉
      randoms n (seeded seed size) := by
  rw [randoms_log (seedReg_length seed) hs n 0 _ (seeded_inv seed size)]
  intro h
  obtain ⟨o, -, ho⟩ := List.mem_map.1 h
  cases o with
  | none => simp [randRes] at ho
  | some b => cases ho

/-- C37, the overflow: with 64-byte outputs, 2^(8*(63-size_s)) calls all succeed, and the seed part of
the register has then been incremented. -/
theorem C37_overflow (seed : Bytes) (hz : beNat seed ≠ 0) (hs : seed.length ≤ 63) :
    (∀ r ∈ randoms (256 ^ (63 - seed.length)) (seeded seed 64), ∃ b, r = .ok b) ∧
    beNat ((afterRandoms (256 ^ (63 - seed.length)) (seeded seed 64)).randU.take seed.length) =
      (beNat seed + 1) % 256 ^ seed.length := by
  have hu : randUsed 64 = 1 := rfl
  generalize hN : 256 ^ (63 - seed.length) = N
  have hpos : 0 < N := by rw [← hN]; exact Nat.pow_pos (by decide)
  constructor
  · intro r hr
    have e := randoms_log (size := 64) (seedReg_length seed) (by omega) N 0 _ (seeded_inv seed 64)
    rw [e] at hr
    have := randLog_const seed hs hz 64 N 0 (by rw [hu, hN]; omega)
    rw [Nat.zero_mul] at this
    rw [this, List.map_map] at hr
    obtain ⟨j, -, hj⟩ := List.mem_map.1 hr
    exact ⟨_, hj.symm⟩
  · have hi := afterRandoms_inv seed hs hz 64 N 0 (seeded seed 64)
      (by rw [hu, hN]; omega) (by rw [Nat.zero_mul]; exact seeded_inv seed 64)
    rw [hu, Nat.zero_add, Nat.mul_one] at hi
    rw [hi.reg, top_reg seed hs, seedReg_beNat, hN, Nat.mul_comm, ← Nat.mul_succ,
      Nat.mul_div_cancel_left _ hpos]

/-- The statement of C37: calls which return leave the seed part alone. -/
def C37_statement : Prop :=
  ∀ (seed : Bytes) (size n : Nat), beNat seed ≠ 0 → seed.length ≤ 63 →
    (∀ r ∈ randoms n (seeded seed size), ∃ b, r = .ok b) →
    (afterRandoms n (seeded seed size)).randU.take seed.length = seed

/-- C37 is false of the code, also for the default seed size 48. -/
theorem C37_negation (seed : Bytes) (hz : beNat seed ≠ 0) (hs : seed.length ≤ 63) :
    ∃ n, (∀ r ∈ randoms n (seeded seed 64), ∃ b, r = .ok b) ∧
      (afterRandoms n (seeded seed 64)).randU.take seed.length ≠ seed := by
  obtain ⟨h1, h2⟩ := C37_overflow seed hz hs
  refine ⟨_, h1, fun h => ?_⟩
  rw [h] at h2
  have hlt := beNat_lt seed
  by_cases hc : beNat seed + 1 < 256 ^ seed.length
  · rw [Nat.mod_eq_of_lt hc] at h2; omega
  · have : beNat seed + 1 = 256 ^ seed.length := by omega
    rw [this, Nat.mod_self] at h2
    exact hz h2

theorem C37_statement_false : ¬ C37_statement := by
  intro h
  obtain ⟨n, h1, h2⟩ := C37_negation (Ex.count 1 48) (by decide +kernel) (by decide)
  exact h2 (h _ 64 n (by decide +kernel) (by decide) h1)

/-! ### C38 -/

/-- Calls on a generator. `rand` is what the system generator returns if it is asked. -/
inductive RandCall where
  | random
  | clear
  | reset (rand : Bytes) (v : PyVal)

/-- The object after a call. -/
def RandCall.apply (s : Rand) : RandCall → Rand
  | .random => s.random.1
  | .clear => s.clear
  | .reset rand v => (s.reset rand v).1

theorem const_randIter {sizeS : Nat} {size : Int} {s : Rand} (h : Rand.Const sizeS size s) :
    Rand.Const sizeS size s.randIter.1 := by
  unfold Rand.randIter
  split
  · exact ⟨h.szs, h.q, h.r, h.limit, h.hash⟩
  · refine ⟨h.szs, h.q, h.r, h.limit, ?_⟩
    simp only [HashObj.reset]
    rw [HashObj.updateBytes_name, h.hash]; rfl

theorem const_loop {sizeS : Nat} {size : Int} (n : Nat) : ∀ (s : Rand) (acc : Bytes),
    Rand.Const sizeS size s → Rand.Const sizeS size (Rand.loop n s acc).1 := by
  induction n with
  | zero => intro s acc h; exact h
  | succ n ih =>
    intro s acc h
    have h1 := const_randIter h
    rw [Rand.loop]
    rcases hr : s.randIter with ⟨s', e | b⟩
    · rw [hr] at h1; exact h1
    · rw [hr] at h1; exact ih s' _ h1

theorem const_random {sizeS : Nat} {size : Int} {s : Rand} (h : Rand.Const sizeS size s) :
    Rand.Const sizeS size s.random.1 := by
  unfold Rand.random
  split
  · exact h
  · have h1 := const_loop s.q.toNat s [] h
    rcases hl : Rand.loop s.q.toNat s [] with ⟨s', e | b⟩
    · rw [hl] at h1; exact h1
    · rw [hl] at h1
      simp only
      split
      · have h2 := const_randIter h1
        rcases hr : s'.randIter with ⟨s2, e | c⟩
        · rw [hr] at h2; exact h2
        · rw [hr] at h2; exact h2
      · exact h1

theorem const_apply {sizeS : Nat} {size : Int} {s : Rand} (h : Rand.Const sizeS size s) (c : RandCall) :
    Rand.Const sizeS size (c.apply s) := by
  cases c with
  | random => exact const_random h
  | clear => exact ⟨h.szs, h.q, h.r, h.limit, h.hash⟩
  | reset rand v =>
    show Rand.Const sizeS size (s.reset rand v).1
    unfold Rand.reset
    split
    · exact h
    · refine ⟨h.szs, h.q, h.r, h.limit, ?_⟩
      simp only [HashObj.reset]
      rw [h.hash]; rfl

theorem const_history {sizeS : Nat} {size : Int} (cs : List RandCall) (s : Rand)
    (h : Rand.Const sizeS size s) : Rand.Const sizeS size (cs.foldl RandCall.apply s) := by
  induction cs generalizing s with
  | nil => exact h
  | cons c cs ih => exact ih _ (const_apply h c)

theorem new_const {rand : Bytes} {size : Int} {v : Option PyVal} {sizeS : Nat} {s : Rand}
    (h : Rand.new rand size v sizeS = .ok s) : Rand.Const sizeS size s := by
  unfold Rand.new at h
  obtain ⟨u, -, hu⟩ := Res.bind_eq_ok h
  cases hu
  exact ⟨rfl, rfl, rfl, rfl, rfl⟩

/-- C38, reset: after any history `reset(seed)` is accepted exactly when `new` accepts the seed, and
then gives exactly the state of a new object; otherwise the object is unchanged. -/
theorem C38_reset (rand rand' : Bytes) (size : Int) (v0 : Option PyVal) (v : PyVal) (sizeS : Nat)
    (s : Rand) (hs : Rand.new rand' size v0 sizeS = .ok s) (cs : List RandCall) :
    (cs.foldl RandCall.apply s).reset rand v =
      match Rand.new rand size (some v) sizeS with
      | .ok t => (t, .ok ())
      | .error e => (cs.foldl RandCall.apply s, .error e) := by
  have hc := const_history cs s (new_const hs)
  generalize cs.foldl RandCall.apply s = t at hc
  unfold Rand.reset Rand.new
  rw [hc.szs, Option.getD_some]
  cases Rand.seed rand sizeS v with
  | error e => rfl
  | ok u =>
    simp only [Res.bind_ok, Res.pure_eq]
    rcases t with ⟨a, b, c, d, e, f⟩
    have h1 : a = sizeS := hc.szs
    have h2 : c = size.fdiv 64 := hc.q
    have h3 : d = size.fmod 64 := hc.r
    have h4 : e = randLimit sizeS := hc.limit
    have h5 : f = HashObj.hashInit "streebog512" := hc.hash
    subst h1 h2 h3 h4 h5
    rfl

/-- C38, which seeds `new` accepts, and the state. -/
theorem C38_new (rand : Bytes) (size : Int) (v : PyVal) (sizeS : Nat) (hr : rand.length = sizeS) :
    Rand.new rand size (some v) sizeS =
      if v.data? = some [] then .ok (seeded rand size)
      else match v.data? with
        | some b => if b.length = sizeS then .ok (seeded b size)
            else .error (.randomError "GOSTRandomError: invalid seed value")
        | none => .error (.randomError "GOSTRandomError: invalid seed value") := by
  unfold Rand.new
  rw [Option.getD_some, rand_seed rand sizeS hr v]
  split
  · subst hr; rfl
  · cases v.data? with
    | none => rfl
    | some b =>
      by_cases hb : b.length = sizeS
      · simp only [if_pos hb]; subst hb; rfl
      · simp only [if_neg hb]; rfl

/-- C38, zero seed: every call is refused, and the object does not change. -/
theorem C38_zero_seed (n : Nat) (size : Int) (m : Nat) :
    randoms m (seeded (List.replicate n 0) size) = List.replicate m
      (.error (.randomError "GOSTRandomError: the seed value is zero")) ∧
    afterRandoms m (seeded (List.replicate n 0) size) = seeded (List.replicate n 0) size := by
  have h : (seeded (List.replicate n 0) size).random = (seeded (List.replicate n 0) size,
      .error (.randomError "GOSTRandomError: the seed value is zero")) := by
    refine Rand.random_zero (seeded_inv _ size) ?_
    rw [randReg, if_pos rfl, seedReg, List.take_left' rfl, beNat_zeros]
  induction m with
  | zero => exact ⟨rfl, rfl⟩
  | succ m ih =>
    rw [randoms, afterRandoms, h, List.replicate_succ]
    exact ⟨congrArg _ ih.1, ih.2⟩

/-- The register consists of at least 63 copies of the four bytes which `zero_fill` writes. -/
def Cleared (u : Bytes) : Prop := ∃ n, 63 ≤ n ∧ u = (List.replicate n slashX00).flatten

theorem cleared_fill (u : Bytes) (h : 63 ≤ u.length) : Cleared (zeroFill u) := ⟨u.length, h, rfl⟩

theorem slash_length (n : Nat) : (List.replicate n slashX00).flatten.length = 4 * n := by
  induction n with
  | zero => rfl
  | succ n ih => rw [List.replicate_succ, List.flatten_cons, List.length_append, ih]; simp [slashX00]; omega

theorem slash_get (n i : Nat) (h : i < 4 * n) :
    ∃ b, (List.replicate n slashX00).flatten[i]? = some b ∧ 0 < b.toNat := by
  induction n generalizing i with
  | zero => omega
  | succ n ih =>
    rw [List.replicate_succ, List.flatten_cons]
    by_cases hi : i < 4
    · rw [List.getElem?_append_left (by simpa [slashX00] using hi)]
      obtain rfl | rfl | rfl | rfl : i = 0 ∨ i = 1 ∨ i = 2 ∨ i = 3 := by omega
      all_goals exact ⟨_, rfl, by decide⟩
    · rw [List.getElem?_append_right (by simp [slashX00]; omega)]
      exact ih _ (by simp [slashX00]; omega)

theorem beNat_ge (b : UInt8) (l : Bytes) (hb : 0 < b.toNat) : 256 ^ l.length ≤ beNat (b :: l) := by
  rw [beNat]
  have := Nat.mul_le_mul_right (256 ^ l.length) hb
  omega

theorem cleared_over {u : Bytes} (hu : Cleared u) (sizeS : Nat) :
    bytesToInt (pyFrom u (sizeS : Int)) ≥ randLimit sizeS := by
  obtain ⟨n, hn, rfl⟩ := hu
  rw [pyFrom_nat, bytesToInt_eq]
  unfold randLimit
  split
  · next h =>
    obtain ⟨b, hb, hpos⟩ := slash_get n sizeS (by omega)
    rw [List.getElem?_eq_some_iff] at hb
    obtain ⟨hlt, hb⟩ := hb
    rw [List.drop_eq_getElem_cons hlt, hb]
    refine Nat.le_trans ?_ (beNat_ge b _ hpos)
    rw [show (2 : Nat) ^ ((64 - sizeS) * 8) = 256 ^ (64 - sizeS) by rw [Nat.mul_comm, Nat.pow_mul]]
    apply Nat.pow_le_pow_right (by decide)
    rw [List.length_drop, slash_length]
    omega
  · omega

theorem cleared_iter {sizeS : Nat} {size : Int} {s : Rand} (hc : Rand.Const sizeS size s)
    (hu : Cleared s.randU) :
    s.randIter = ({ s with randU := zeroFill s.randU },
      .error (.randomError "GOSTRandomError: exceeded the limit value of the counter")) := by
  unfold Rand.randIter
  rw [hc.szs, hc.limit, if_pos (cleared_over hu sizeS)]

theorem cleared_again {u : Bytes} (hu : Cleared u) : Cleared (zeroFill u) := by
  obtain ⟨n, hn, rfl⟩ := hu
  exact cleared_fill _ (by rw [slash_length]; omega)

/-- A call of `random` on a cleared object of any size other than zero: refused, and still cleared. -/
theorem cleared_random {sizeS : Nat} {size : Int} {s : Rand} (hc : Rand.Const sizeS size s)
    (hu : Cleared s.randU) (hz : 0 < size) :
    (s.random.2 = .error (.randomError (if sizeS = 0 then "GOSTRandomError: the seed value is zero"
      else "GOSTRandomError: exceeded the limit value of the counter"))) ∧ Cleared s.random.1.randU := by
  unfold Rand.random
  rw [hc.szs, pyUpto_nat, bytesToInt_eq, hc.q]
  by_cases h0 : sizeS = 0
  · subst h0
    rw [if_pos rfl, if_pos (by rw [List.take_zero]; rfl)]
    exact ⟨rfl, hu⟩
  · have htop : beNat (s.randU.take sizeS) ≠ 0 := by
      obtain ⟨n, hn, he⟩ := hu
      obtain ⟨m, rfl⟩ : ∃ m, n = m + 1 := ⟨n - 1, by omega⟩
      obtain ⟨t, rfl⟩ : ∃ t, sizeS = t + 1 := ⟨sizeS - 1, by omega⟩
      rw [he, List.replicate_succ, List.flatten_cons, slashX00, List.cons_append, List.take_succ_cons]
      have := beNat_ge 0x2f (List.take t ([0x78, 0x30, 0x30] ++
        (List.replicate m [0x2f, 0x78, 0x30, 0x30]).flatten)) (by decide)
      have hp : 0 < 256 ^ (List.take t ([0x78, 0x30, 0x30] ++
        (List.replicate m ([0x2f, 0x78, 0x30, 0x30] : Bytes)).flatten)).length := Nat.pow_pos (by decide)
      omega
    rw [if_neg htop, if_neg h0]
    have hi := cleared_iter hc hu
    cases hq : (size.fdiv 64).toNat with
    | succ n =>
      rw [Rand.loop, hi]
      exact ⟨rfl, cleared_again hu⟩
    | zero =>
      simp only [Rand.loop]
      have hq' : size.fdiv 64 = size / 64 := Int.fdiv_eq_ediv_of_nonneg _ (by decide)
      have hr' : size.fmod 64 = size % 64 := Int.fmod_eq_emod_of_nonneg _ (by decide)
      rw [hc.r, if_pos (by rw [hr']; omega), hi]
      exact ⟨rfl, cleared_again hu⟩

/-- The register of an object is never shorter than 63 bytes. -/
theorem reg_randIter {s : Rand} (h : 63 ≤ s.randU.length) : 63 ≤ s.randIter.1.randU.length := by
  unfold Rand.randIter
  split
  · simp only [zeroFill_length]; omega
  · simp [Rand.incRandU]

theorem reg_loop (n : Nat) : ∀ (s : Rand) (acc : Bytes), 63 ≤ s.randU.length →
    63 ≤ (Rand.loop n s acc).1.randU.length := by
  induction n with
  | zero => intro s acc h; exact h
  | succ n ih =>
    intro s acc h
    have h1 := reg_randIter h
    rw [Rand.loop]
    rcases hr : s.randIter with ⟨s', e | b⟩
    · rw [hr] at h1; exact h1
    · rw [hr] at h1; exact ih s' _ h1

theorem reg_random {s : Rand} (h : 63 ≤ s.randU.length) : 63 ≤ s.random.1.randU.length := by
  unfold Rand.random
  split
  · exact h
  · have h1 := reg_loop s.q.toNat s [] h
    rcases hl : Rand.loop s.q.toNat s [] with ⟨s', e | b⟩
    · rw [hl] at h1; exact h1
    · rw [hl] at h1
      simp only
      split
      · have h2 := reg_randIter h1
        rcases hr : s'.randIter with ⟨s2, e | c⟩
        · rw [hr] at h2; exact h2
        · rw [hr] at h2; exact h2
      · exact h1

/-- What the system generator returns has the requested length. -/
def RandCall.Honest (sizeS : Nat) : RandCall → Prop
  | .reset rand _ => rand.length = sizeS
  | _ => True

theorem seed_length {rand : Bytes} {sizeS : Nat} (hr : rand.length = sizeS) {v : PyVal} {u : Bytes}
    (h : Rand.seed rand sizeS v = .ok u) : 63 ≤ u.length := by
  rw [rand_seed rand sizeS hr] at h
  split at h
  · cases h; rw [seedReg_length]; omega
  · split at h
    · split at h
      · cases h; rw [seedReg_length]; omega
      · cases h
    · cases h

theorem reg_history {sizeS : Nat} {size : Int} (cs : List RandCall) (s : Rand)
    (hcs : ∀ c ∈ cs, c.Honest sizeS) (hc : Rand.Const sizeS size s) (h : 63 ≤ s.randU.length) :
    63 ≤ (cs.foldl RandCall.apply s).randU.length := by
  induction cs generalizing s with
  | nil => exact h
  | cons c cs ih =>
    refine ih _ (fun c hc => hcs c (by simp [hc])) (const_apply hc c) ?_
    cases c with
    | random => exact reg_random h
    | clear => simp only [RandCall.apply, Rand.clear, zeroFill_length]; omega
    | reset rand v =>
      have hh : rand.length = sizeS := hcs (.reset rand v) (by simp)
      show 63 ≤ (s.reset rand v).1.randU.length
      unfold Rand.reset
      rw [hc.szs]
      cases he : Rand.seed rand sizeS v with
      | error e => exact h
      | ok u => exact seed_length hh he

/-- The results of the calls of `random` in a sequence of `random` and `clear` calls. -/
def quietRun (s : Rand) : List Bool → List (Res Bytes)
  | [] => []
  | true :: l => s.random.2 :: quietRun s.random.1 l
  | false :: l => quietRun s.clear l

/-- C38, clear: after any history and `clear()`, every call of `random` raises an exception, also
among further `clear()` calls, until `reset`. -/
theorem C38_clear (rand : Bytes) (size : Int) (hsize : 0 < size) (v : Option PyVal) (sizeS : Nat)
    (hr : rand.length = sizeS) (s : Rand) (hs : Rand.new rand size v sizeS = .ok s)
    (cs : List RandCall) (hcs : ∀ c ∈ cs, c.Honest sizeS) (l : List Bool) :
    ∀ r ∈ quietRun (cs.foldl RandCall.apply s).clear l,
      r = .error (.randomError (if sizeS = 0 then "GOSTRandomError: the seed value is zero"
        else "GOSTRandomError: exceeded the limit value of the counter")) := by
  have hc := new_const hs
  have h63 : 63 ≤ s.randU.length := by
    unfold Rand.new at hs
    obtain ⟨u, hu, he⟩ := Res.bind_eq_ok hs
    cases he
    exact seed_length hr hu
  have h1 := reg_history cs s hcs hc h63
  have h2 := const_history cs s hc
  generalize cs.foldl RandCall.apply s = t at h1 h2
  have h3 : Cleared t.clear.randU := cleared_fill _ h1
  have h4 : Rand.Const sizeS size t.clear := ⟨h2.szs, h2.q, h2.r, h2.limit, h2.hash⟩
  generalize t.clear = t' at h3 h4
  clear h1 h2 hs h63 hc
  induction l generalizing t' with
  | nil => intro r h; cases h
  | cons b l ih =>
    cases b with
    | false => exact ih _ (cleared_again h3) ⟨h4.szs, h4.q, h4.r, h4.limit, h4.hash⟩
    | true =>
      obtain ⟨ha, hb⟩ := cleared_random h4 h3 hsize
      intro r hr
      rcases List.mem_cons.1 hr with h | h
      · rw [h, ha]
      · exact ih _ hb (const_random h4) r h

/-- A case: a history with a reset and output before `clear`, two calls after it. -/
example : ∀ c ∈ [RandCall.random, .reset (Ex.count 9 48) .other, .random], c.Honest 48 := by
  simp [RandCall.Honest, Ex.count]

end Gost
