import Verif.Proofs.Blocks
import Verif.Proofs.Cipher

/-! The feedback register of CBC, CFB and OFB as a queue of blocks. -/

namespace Gost
open Spec (blocks rest)

/-- One step of a mode with a register: the first block of the register is consumed, `h` says
what is appended, `g` what is output. -/
def regStep (g h : Bytes → Bytes → Bytes) (R : List Bytes) (b : Bytes) : List Bytes × Bytes :=
  (R.tail ++ [h (R.headD []) b], g (R.headD []) b)

/-- A register of one or more blocks. -/
def GoodReg (bs : Nat) (R : List Bytes) : Prop := R ≠ [] ∧ ∀ b ∈ R, b.length = bs

theorem GoodReg.head {bs : Nat} {R : List Bytes} (h : GoodReg bs R) : (R.headD []).length = bs := by
  cases R with
  | nil => exact absurd rfl h.1
  | cons r R => exact h.2 r (by simp)

theorem GoodReg.step {bs : Nat} {R : List Bytes} (h : GoodReg bs R) (x : Bytes)
    (hx : x.length = bs) : GoodReg bs (R.tail ++ [x]) := by
  refine ⟨by simp, ?_⟩
  intro b hb
  rcases List.mem_append.1 hb with hb | hb
  · exact h.2 b (List.mem_of_mem_tail hb)
  · rw [List.mem_singleton.1 hb]; exact hx

/-- The blocks appended to the register during a run. -/
def feeds (g h : Bytes → Bytes → Bytes) : List Bytes → List Bytes → List Bytes
  | _, [] => []
  | R, b :: bl => h (R.headD []) b :: feeds g h (regStep g h R b).1 bl

theorem feeds_length (g h : Bytes → Bytes → Bytes) (R bl : List Bytes) :
    (feeds g h R bl).length = bl.length := by
  induction bl generalizing R with
  | nil => rfl
  | cons b bl ih => simp [feeds, ih]

theorem headD_append {R F : List Bytes} (h : R ≠ []) : (R ++ F).headD [] = R.headD [] := by
  cases R with
  | nil => exact absurd rfl h
  | cons r R => rfl

/-- A run consumes the queue `R ++ feeds` from the left. -/
theorem regRun_eq (g h : Bytes → Bytes → Bytes) (R bl : List Bytes) (hR : R ≠ []) :
    (mapAccum (regStep g h) R bl).2 = List.zipWith g (R ++ feeds g h R bl) bl ∧
    feeds g h R bl = List.zipWith h (R ++ feeds g h R bl) bl ∧
    (mapAccum (regStep g h) R bl).1 = (R ++ feeds g h R bl).drop bl.length := by
  induction bl generalizing R with
  | nil => simp [mapAccum, feeds]
  | cons b bl ih =>
    cases R with
    | nil => exact absurd rfl hR
    | cons r R =>
      have h1 := ih (R ++ [h r b]) (by simp)
      rw [List.append_assoc] at h1
      simp only [List.singleton_append] at h1
      refine ⟨?_, ?_, ?_⟩
      · simp only [mapAccum, regStep, feeds, List.headD_cons, List.tail_cons, List.cons_append,
          List.zipWith_cons_cons]
        rw [h1.1]
      · simp only [feeds, regStep, List.headD_cons, List.tail_cons, List.cons_append,
          List.zipWith_cons_cons]
        rw [← h1.2.1]
      · simp only [mapAccum, regStep, feeds, List.headD_cons, List.tail_cons, List.cons_append,
          List.length_cons, List.drop_succ_cons]
        rw [h1.2.2]

/-- A run of the inverse mode over the output gives back the input and the same register. -/
theorem regRun_inverse (bs : Nat) (g h g' h' : Bytes → Bytes → Bytes)
    (hlen : ∀ r b, r.length = bs → b.length = bs → (h r b).length = bs)
    (hg : ∀ r b, r.length = bs → b.length = bs → g' r (g r b) = b)
    (hh : ∀ r b, r.length = bs → b.length = bs → h' r (g r b) = h r b)
    (R bl : List Bytes) (hR : GoodReg bs R) (hbl : ∀ b ∈ bl, b.length = bs) :
    mapAccum (regStep g' h') R (mapAccum (regStep g h) R bl).2 =
      ((mapAccum (regStep g h) R bl).1, bl) := by
  induction bl generalizing R with
  | nil => rfl
  | cons b bl ih =>
    have hb := hbl b (by simp)
    have hr := hR.head
    have e1 : regStep g' h' R (g (R.headD []) b) = ((regStep g h R b).1, b) := by
      simp only [regStep, hg _ b hr hb, hh _ b hr hb]
    have hR' : GoodReg bs (regStep g h R b).1 := hR.step _ (hlen _ b hr hb)
    simp only [mapAccum]
    rw [show (regStep g h R b).2 = g (R.headD []) b from rfl, e1]
    simp only []
    rw [ih _ hR' (fun x hx => hbl x (by simp [hx]))]

theorem regRun_good (bs m : Nat) (g h : Bytes → Bytes → Bytes)
    (hlen : ∀ r b, r.length = bs → b.length = bs → (h r b).length = bs)
    (glen : ∀ r b, r.length = bs → b.length = bs → (g r b).length = m)
    (R bl : List Bytes) (hR : GoodReg bs R) (hbl : ∀ b ∈ bl, b.length = bs) :
    GoodReg bs (mapAccum (regStep g h) R bl).1 ∧
      ∀ b ∈ (mapAccum (regStep g h) R bl).2, b.length = m :=
  mapAccum_mem (regStep g h) (GoodReg bs) bs m
    (fun _ b hR hb => ⟨hR.step _ (hlen _ b hR.head hb), glen _ b hR.head hb⟩) R bl hR hbl

/-! ### The flat register of the code -/

theorem GoodReg.flatten_length {bs : Nat} {R : List Bytes} (h : GoodReg bs R) :
    R.flatten.length = bs * R.length := flatten_length_const bs R h.2

theorem GoodReg.take {bs : Nat} {R : List Bytes} (h : GoodReg bs R) :
    pySlice R.flatten 0 bs = R.headD [] := by
  cases R with
  | nil => exact absurd rfl h.1
  | cons r R =>
    rw [pySlice_zero, List.flatten_cons, List.headD_cons]
    exact List.take_left' (h.2 r (by simp))

/-- `_set_init_vect` shifts the register. -/
theorem GoodReg.setInitVect {bs : Nat} {R : List Bytes} (h : GoodReg bs R) (x : Bytes)
    (hx : x.length = bs) : setInitVect bs R.flatten x = (R.tail ++ [x]).flatten := by
  cases R with
  | nil => exact absurd rfl h.1
  | cons r R =>
    have hr : r.length = bs := h.2 r (by simp)
    simp only [List.tail_cons, List.flatten_append, List.flatten_cons, List.flatten_nil,
      List.append_nil]
    generalize hT : R.flatten = T
    have hlen : (r ++ T).length = bs + T.length := by rw [List.length_append, hr]
    have e0 : pySlice (r ++ T) (bs : Int) ((r ++ T).length : Int) = T := by
      rw [pySlice_nat, List.drop_left' hr, hlen, List.take_of_length_le (by omega)]
    have s0 : ∀ n, sliceBound n 0 = 0 := fun n => by simpa using sliceBound_nat n 0
    have e1 : pySliceAssign (r ++ T) 0 (((r ++ T).length : Int) - bs) T = T ++ (r ++ T).drop T.length := by
      unfold pySliceAssign
      have : ((r ++ T).length : Int) - bs = (T.length : Int) := by omega
      rw [this, s0, sliceBound_nat, Nat.min_eq_left (by omega)]
      simp
    unfold Gost.setInitVect
    simp only [e0, e1]
    have hl2 : (T ++ (r ++ T).drop T.length).length = bs + T.length := by
      rw [List.length_append, List.length_drop, hlen]; omega
    unfold pySliceAssign
    have : ((T ++ (r ++ T).drop T.length).length : Int) - bs = (T.length : Int) := by omega
    rw [this, sliceBound_nat, sliceBound_nat, Nat.min_eq_left (by omega), Nat.min_self]
    simp only []
    rw [Nat.max_eq_right (by omega), List.drop_length, List.append_nil, List.take_left' rfl]

theorem GoodReg.ivProp {bs : Nat} {R : List Bytes} (h : GoodReg bs R) :
    ivProp bs R.flatten = R.getLastD [] := by
  rcases List.eq_nil_or_concat R with rfl | ⟨Q, x, rfl⟩
  · exact absurd rfl h.1
  have hx : x.length = bs := h.2 x (by simp)
  unfold Gost.ivProp
  rw [List.concat_eq_append, List.flatten_append, List.flatten_singleton]
  have : ((Q.flatten ++ x).length : Int) - bs = (Q.flatten.length : Nat) := by
    rw [List.length_append]; omega
  rw [this, pyFrom_nat, List.drop_left' rfl]
  simp [List.getLastD_eq_getLast?]

/-- A register given as bytes. -/
theorem goodReg_blocks {bs : Nat} {iv : Bytes} (hbs : 0 < bs) (h1 : 0 < iv.length)
    (h2 : iv.length % bs = 0) : GoodReg bs (blocks bs iv) ∧ (blocks bs iv).flatten = iv := by
  have hd : bs ∣ iv.length := Nat.dvd_of_mod_eq_zero h2
  refine ⟨⟨?_, fun b hb => mem_blocks_length hb⟩, flatten_blocks bs hbs iv hd⟩
  intro h
  have := blocks_length bs iv
  rw [h] at this
  have h3 : iv.length / bs = 0 := this.symm
  have := Nat.div_add_mod iv.length bs
  rw [h3, h2] at this
  omega

end Gost
