import Verif.Proofs.Kuz
import Mathlib.Data.Finset.Card
import Mathlib.Tactic.Ring

/-! Property C121: the differential uniformity of the substitutions. -/

namespace Gost

/-! ### Counting with the digits of one big number -/

/-- The digit number e to the base 65536. -/
def digit (a e : Nat) : Nat := a / 65536 ^ e % 65536

theorem digit_add (a v e : Nat) (h : digit a v + 1 < 65536) :
    digit (a + 65536 ^ v) e = digit a e + if e = v then 1 else 0 := by
  unfold digit at *
  have hp : ∀ k, 0 < 65536 ^ k := fun k => Nat.pow_pos (by decide)
  rcases Nat.lt_trichotomy e v with hlt | rfl | hgt
  · obtain ⟨c, rfl⟩ : ∃ c, v = e + 1 + c := ⟨v - e - 1, by omega⟩
    rw [if_neg (by omega), show 65536 ^ (e + 1 + c) = 65536 ^ e * (65536 * 65536 ^ c) by ring,
      Nat.add_mul_div_left _ _ (hp e), Nat.add_mul_mod_self_left]
    rfl
  · rw [if_pos rfl, Nat.add_div_right _ (hp e)]
    omega
  · obtain ⟨c, rfl⟩ : ∃ c, e = v + 1 + c := ⟨e - v - 1, by omega⟩
    rw [if_neg (by omega), show 65536 ^ (v + 1 + c) = 65536 ^ v * 65536 * 65536 ^ c by ring, ← Nat.div_div_eq_div_mul,
      ← Nat.div_div_eq_div_mul, Nat.add_div_right _ (hp v), ← Nat.div_div_eq_div_mul, ← Nat.div_div_eq_div_mul]
    rw [show (a / 65536 ^ v + 1) / 65536 = a / 65536 ^ v / 65536 by omega]
    rfl

/-- The numbers f 0, …, f (n - 1) counted in the digits. -/
def tally (f : Nat → Nat) : Nat → Nat
  | 0 => 0
  | n + 1 => tally f n + 65536 ^ f n

theorem digit_tally (f : Nat → Nat) (n : Nat) (hn : n < 65536) (e : Nat) :
    digit (tally f n) e = ((Finset.range n).filter fun x => f x = e).card := by
  induction n generalizing e with
  | zero => simp [digit, tally]
  | succ n ih =>
    have ih := ih (by omega)
    have hle : ∀ v, digit (tally f n) v ≤ n := fun v => by
      rw [ih v]
      exact le_trans (Finset.card_filter_le _ _) (by rw [Finset.card_range])
    rw [tally, digit_add _ _ _ (by have := hle (f n); omega), ih, Finset.range_add_one, Finset.filter_insert]
    by_cases h : f n = e
    · rw [if_pos h.symm, if_pos h, Finset.card_insert_of_notMem (by simp)]
    · rw [if_neg (fun e => h e.symm), if_neg h]
      rfl

/-- The first digits are at most m. -/
def digitsLow (m a : Nat) : Nat → Bool
  | 0 => true
  | n + 1 => (a % 65536).ble m && digitsLow m (a / 65536) n

theorem digitsLow_le {m : Nat} (n : Nat) : ∀ a e, digitsLow m a n = true → e < n → digit a e ≤ m := by
  induction n with
  | zero => intro a e _ h; omega
  | succ n ih =>
    intro a e h he
    rw [digitsLow, Bool.and_eq_true] at h
    cases e with
    | zero =>
      have := Nat.le_of_ble_eq_true h.1
      simpa [digit] using this
    | succ e =>
      have := ih (a / 65536) e h.2 (by omega)
      unfold digit at this ⊢
      rwa [Nat.div_div_eq_div_mul, Nat.mul_comm, ← Nat.pow_succ] at this

/-! ### The substitution of Kuznechik and of the hash -/

/-- The table of the substitution as one number. -/
def piNum : Nat := 23024335126208699768078364298269206890699418822357480121611976406012070540252319857486001236010766185753725506157750469528297884154086023069388861519494238678258790575087486833363263818134123813147307054874685219204051205149556591597523016618913941489611199729950062809929967776672850631633993281046112250785411039654667010147556484397504900039277167845258685724460519817545188828783110899564127260845257721310477839100647251471659983170359094426779304538296082519152681870002647777499074720535149997788300586177342976449062044389420131461578611245331090104287098680811266647668668040708061195266073553003002858434300

def piLook (x : Nat) : Nat := (piNum >>> (8 * x)) % 256

theorem piLook_eq : ∀ n : Fin 256, sKuz (UInt8.ofNat n) = UInt8.ofNat (piLook n) := by decide +kernel

theorem piLook_low : ∀ d : Fin 255,
    digitsLow 8 (tally (fun x => piLook (x ^^^ (d + 1)) ^^^ piLook x) 256) 256 = true := by decide +kernel

/-- C121: of the 256 bytes at most 8 lead from a given difference other than 0 to a given difference. -/
theorem C121_sbox (d e : UInt8) (hd : d ≠ 0) :
    ((Finset.range 256).filter fun x => sKuz (UInt8.ofNat x ^^^ d) ^^^ sKuz (UInt8.ofNat x) = e).card ≤ 8 := by
  have hd0 : d.toNat ≠ 0 := fun h => hd (UInt8.toNat_inj.1 h)
  have hdl := d.toNat_lt
  have h := digitsLow_le 256 _ e.toNat (piLook_low ⟨d.toNat - 1, by omega⟩) e.toNat_lt
  rw [digit_tally _ _ (by decide)] at h
  refine le_trans (Finset.card_le_card ?_) h
  intro x hx
  obtain ⟨hx, he⟩ := Finset.mem_filter.1 hx
  refine Finset.mem_filter.2 ⟨hx, ?_⟩
  have hx := Finset.mem_range.1 hx
  have lt : ∀ y, piLook y < 256 := fun y => Nat.mod_lt _ (by decide)
  have e1 := piLook_eq ⟨x, hx⟩
  have hxd : x ^^^ d.toNat < 256 := Nat.xor_lt_two_pow (n := 8) hx hdl
  have e2 := piLook_eq ⟨x ^^^ d.toNat, hxd⟩
  simp only at e1 e2
  have e3 : UInt8.ofNat x ^^^ d = UInt8.ofNat (x ^^^ d.toNat) := by
    apply UInt8.toNat_inj.1
    rw [UInt8.toNat_xor, UInt8.toNat_ofNat', UInt8.toNat_ofNat', Nat.mod_eq_of_lt hx, Nat.mod_eq_of_lt hxd]
  rw [e3, e1, e2] at he
  have := congrArg UInt8.toNat he
  rw [UInt8.toNat_xor, UInt8.toNat_ofNat', UInt8.toNat_ofNat', Nat.mod_eq_of_lt (lt _), Nat.mod_eq_of_lt (lt _)] at this
  rw [← this]
  simp only
  rw [show d.toNat - 1 + 1 = d.toNat by omega]

/-- C121: for each of the eight substitutions of Magma, at most 4 of the 16. -/
theorem C121_sbox_magma : ∀ (i : Fin 8) (d e : Fin 16), d ≠ 0 →
    ((Finset.range 16).filter fun x => Magma.sbox i (x ^^^ d) ^^^ Magma.sbox i x = e).card ≤ 4 := by decide +kernel

/-- The bounds are reached. -/
example : ∃ d e : UInt8, d ≠ 0 ∧
    ((Finset.range 256).filter fun x => sKuz (UInt8.ofNat x ^^^ d) ^^^ sKuz (UInt8.ofNat x) = e).card = 8 :=
  ⟨5, 222, by decide, by decide +kernel⟩

example : ∃ (i : Fin 8) (d e : Fin 16), d ≠ 0 ∧
    ((Finset.range 16).filter fun x => Magma.sbox i (x ^^^ d) ^^^ Magma.sbox i x = e).card = 4 := by decide +kernel

end Gost
