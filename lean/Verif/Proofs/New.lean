import Verif.Proofs.Modes
import Verif.Spec.Padding

/-! What `gostcipher.new` builds from admissible arguments. -/

namespace Gost
open Spec (Alg blocks rest)

theorem checkIv_ok (bs : Nat) (v : PyVal) (iv : Bytes) (hv : v.data? = some iv)
    (h : iv.length % bs = 0) : checkIv bs v = .ok iv := by
  unfold checkIv
  rw [hv]
  simp [h]

theorem Ecb.init_ok (a : Alg) (kv : PyVal) (pad : Int) (hp : PadOk pad) (o : CipherObj)
    (h : baseInit a.name kv = .ok o) : Ecb.init a.name kv pad = .ok ⟨o, pad⟩ := by
  unfold Ecb.init
  rw [h, Res.bind_ok, if_neg (by rcases hp with rfl | rfl <;> simp), Res.pure_eq]

theorem new_ecb (a : Alg) (kv : PyVal) (key : Bytes) (hk : kv.data? = some key)
    (hl : key.length = 32) (pad : Int) (hp : PadOk pad) (iv dat : Option PyVal) :
    ∃ o D, newCipher a.name kv modeEcb (some pad) iv dat = .ok (.ecb ⟨o, pad⟩) ∧ o.Good ∧
      o.blockSize = a.blockSize ∧ Implements o (a.encrypt key) D := by
  obtain ⟨o, D, h1, h2, h3, h4⟩ := baseInit_implements a kv key hk hl
  refine ⟨o, D, ?_, h2, h3, h4⟩
  unfold newCipher
  rw [if_pos rfl, Option.getD_some, Ecb.init_ok a kv pad hp o h1, Res.bind_ok, Res.pure_eq]

theorem new_cbc (a : Alg) (kv ivv : PyVal) (key iv : Bytes) (hk : kv.data? = some key)
    (hl : key.length = 32) (hv : ivv.data? = some iv) (hiv : iv.length % a.blockSize = 0)
    (pad : Int) (hp : PadOk pad) (dat : Option PyVal) :
    ∃ o D, newCipher a.name kv modeCbc (some pad) (some ivv) dat = .ok (.cbc ⟨o, iv, pad⟩) ∧
      o.Good ∧ o.blockSize = a.blockSize ∧ Implements o (a.encrypt key) D := by
  obtain ⟨o, D, h1, h2, h3, h4⟩ := baseInit_implements a kv key hk hl
  refine ⟨o, D, ?_, h2, h3, h4⟩
  unfold newCipher
  rw [if_neg (by decide), if_pos rfl, Option.getD_some]
  unfold Cbc.init
  simp only [Option.getD_some, Ecb.init_ok a kv pad hp o h1, Res.bind_ok, h1,
    checkIv_ok o.blockSize ivv iv hv (by rw [h3]; exact hiv), Res.pure_eq]

theorem Fb.init_ok (a : Alg) (kv ivv : PyVal) (key iv : Bytes) (hk : kv.data? = some key)
    (hl : key.length = 32) (hv : ivv.data? = some iv) (hiv : iv.length % a.blockSize = 0) :
    ∃ o D, Fb.init a.name kv ivv = .ok ⟨o, iv⟩ ∧
      o.Good ∧ o.blockSize = a.blockSize ∧ Implements o (a.encrypt key) D := by
  obtain ⟨o, D, h1, h2, h3, h4⟩ := baseInit_implements a kv key hk hl
  refine ⟨o, D, ?_, h2, h3, h4⟩
  unfold Fb.init
  simp only [Res.bind_ok, h1, checkIv_ok o.blockSize ivv iv hv (by rw [h3]; exact hiv), Res.pure_eq]

theorem new_cfb (a : Alg) (kv ivv : PyVal) (key iv : Bytes) (hk : kv.data? = some key)
    (hl : key.length = 32) (hv : ivv.data? = some iv) (hiv : iv.length % a.blockSize = 0)
    (pad : Option Int) (dat : Option PyVal) :
    ∃ o D, newCipher a.name kv modeCfb pad (some ivv) dat = .ok (.cfb ⟨o, iv⟩) ∧
      o.Good ∧ o.blockSize = a.blockSize ∧ Implements o (a.encrypt key) D := by
  obtain ⟨o, D, h1, h2⟩ := Fb.init_ok a kv ivv key iv hk hl hv hiv
  refine ⟨o, D, ?_, h2⟩
  unfold newCipher
  rw [if_neg (by decide), if_neg (by decide), if_pos rfl]
  simp only [Option.getD_some, h1, Res.bind_ok, Res.pure_eq]

theorem new_ofb (a : Alg) (kv ivv : PyVal) (key iv : Bytes) (hk : kv.data? = some key)
    (hl : key.length = 32) (hv : ivv.data? = some iv) (hiv : iv.length % a.blockSize = 0)
    (pad : Option Int) (dat : Option PyVal) :
    ∃ o D, newCipher a.name kv modeOfb pad (some ivv) dat = .ok (.ofb ⟨o, iv⟩) ∧
      o.Good ∧ o.blockSize = a.blockSize ∧ Implements o (a.encrypt key) D := by
  obtain ⟨o, D, h1, h2⟩ := Fb.init_ok a kv ivv key iv hk hl hv hiv
  refine ⟨o, D, ?_, h2⟩
  unfold newCipher
  rw [if_neg (by decide), if_neg (by decide), if_neg (by decide), if_pos rfl]
  simp only [Option.getD_some, h1, Res.bind_ok, Res.pure_eq]

/-- The initial counter. -/
def ctr0 (bs : Nat) (iv : Bytes) : Bytes := iv ++ List.replicate (bs / 2) 0

theorem new_ctr (a : Alg) (kv ivv : PyVal) (key iv : Bytes) (hk : kv.data? = some key)
    (hl : key.length = 32) (hv : ivv.data? = some iv) (hiv : iv.length = a.blockSize / 2)
    (pad : Option Int) (dat : Option PyVal) :
    ∃ o D, newCipher a.name kv modeCtr pad (some ivv) dat = .ok (.ctr ⟨o, iv, ctr0 a.blockSize iv⟩) ∧
      o.Good ∧ o.blockSize = a.blockSize ∧ Implements o (a.encrypt key) D := by
  obtain ⟨o, D, h1, h2, h3, h4⟩ := baseInit_implements a kv key hk hl
  refine ⟨o, D, ?_, h2, h3, h4⟩
  unfold newCipher
  rw [if_neg (by decide), if_neg (by decide), if_neg (by decide), if_neg (by decide), if_pos rfl]
  unfold Ctr.init
  simp only [Option.getD_some, h1, Res.bind_ok, hv, h3, hiv, Res.pure_eq, ne_eq, not_true, if_false,
    ctr0]
  rw [zeros_nat]

theorem ctr0_length (a : Alg) (iv : Bytes) (hiv : iv.length = a.blockSize / 2) :
    (ctr0 a.blockSize iv).length = a.blockSize := by
  simp only [ctr0, List.length_append, List.length_replicate, hiv]
  cases a <;> decide

/-! ### The padded data -/

theorem zeroPadded_setPadding (bs : Nat) (hbs : 0 < bs) (d : Bytes) :
    Spec.ZeroPadded bs d (setPadding bs d padMode1) := by
  refine ⟨getPadSize bs d, setPadding_1 bs d, setPadding_dvd bs hbs d _ (Or.inl rfl), ?_, ?_⟩
  · intro h
    rcases getPadSize_lt bs d h with h | h
    · exact h
    · omega
  · rintro rfl; exact getPadSize_nil bs hbs

theorem markPadded_setPadding (bs : Nat) (hbs : 0 < bs) (d : Bytes) :
    Spec.MarkPadded bs d (setPadding bs d padMode2) := by
  refine ⟨bs + getPadSize bs d - 1, setPadding_2 bs hbs d, setPadding_dvd bs hbs d _ (Or.inr rfl),
    by omega, ?_⟩
  have : getPadSize bs d ≤ bs := by
    unfold getPadSize
    split
    · omega
    · split <;> omega
  omega

/-- PAD_MODE_2: procedure 2 for a message of one or more whole blocks, procedure 2 and one more
block of zeros otherwise. -/
theorem setPadding_procedure2 (bs : Nat) (hbs : 0 < bs) (msg : Bytes) :
    setPadding bs msg padMode2 =
      if msg ≠ [] ∧ msg.length % bs = 0 then Spec.procedure2 bs msg
      else Spec.procedure2 bs msg ++ List.replicate bs 0 := by
  rw [setPadding_2 bs hbs]
  unfold Spec.procedure2
  have hm := Nat.mod_lt msg.length hbs
  by_cases hn : msg = []
  · subst hn
    rw [if_neg (by simp), getPadSize_nil bs hbs]
    simp only [List.length_nil, Nat.zero_mod, List.append_assoc, List.cons_append,
      List.replicate_append_replicate]
    congr 3
    omega
  · have hl : 0 < msg.length := List.length_pos_iff.2 hn
    by_cases h0 : msg.length % bs = 0
    · rw [if_pos ⟨hn, h0⟩, h0]
      have : getPadSize bs msg = 0 := by
        unfold getPadSize
        have : ¬ msg.length < bs := fun h => by rw [Nat.mod_eq_of_lt h] at h0; omega
        simp [this, h0]
      rw [this]
      congr 3
    · rw [if_neg (by simp [h0])]
      have : getPadSize bs msg = bs - msg.length % bs := by
        unfold getPadSize
        split
        · next h => rw [Nat.mod_eq_of_lt h]
        · simp [h0]
      rw [this]
      simp only [List.append_assoc, List.cons_append, List.replicate_append_replicate]
      congr 3
      omega

end Gost
