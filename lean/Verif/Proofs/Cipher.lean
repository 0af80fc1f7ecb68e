import Verif.Proofs.Kuz
import Verif.Proofs.Magma
import Verif.Spec.Cipher
import Verif.Model.Modes

/-! A cipher object seen as a pair of mutually inverse maps on blocks. -/

namespace Gost
open Spec (Alg)

/-- The object encrypts every block by `E` and decrypts it by `D`; the two are inverse to each
other; a block which is too short raises `IndexError`. -/
structure Implements (o : CipherObj) (E D : Bytes → Bytes) : Prop where
  enc : ∀ b, b.length = o.blockSize → o.encrypt b = .ok (E b)
  enc_len : ∀ b, b.length = o.blockSize → (E b).length = o.blockSize
  dec : ∀ b, b.length = o.blockSize → o.decrypt b = .ok (D b)
  dec_len : ∀ b, b.length = o.blockSize → (D b).length = o.blockSize
  D_E : ∀ b, b.length = o.blockSize → D (E b) = b
  E_D : ∀ b, b.length = o.blockSize → E (D b) = b
  enc_short : ∀ b, b.length < o.blockSize → o.encrypt b = .error .indexError

theorem Implements.E_inj {o : CipherObj} {E D : Bytes → Bytes} (h : Implements o E D) (a b : Bytes)
    (ha : a.length = o.blockSize) (hb : b.length = o.blockSize) (hab : E a = E b) : a = b := by
  rw [← h.D_E a ha, hab, h.D_E b hb]

theorem Implements.pos {o : CipherObj} : 0 < o.blockSize := by
  cases o <;> simp [CipherObj.blockSize]

/-- Round keys of the right number and sufficient length. -/
def CipherObj.Good : CipherObj → Prop
  | .kuz ks => Kuz.GoodKeys ks
  | .magma ks => Magma.GoodKeys ks

/-- The pure encryption of an object. -/
def CipherObj.E : CipherObj → Bytes → Bytes
  | .kuz ks => Kuz.E ks
  | .magma ks => Magma.E ks

/-- The pure decryption of an object. -/
def CipherObj.D : CipherObj → Bytes → Bytes
  | .kuz ks => Kuz.D ks
  | .magma ks => Magma.D ks

/-- Every object with good round keys implements a permutation of the blocks. -/
theorem CipherObj.Good.implements {o : CipherObj} (h : o.Good) : Implements o o.E o.D := by
  cases o with
  | kuz ks =>
    exact {
      enc := fun b hb => (Kuz.encrypt_ok h b hb).1
      enc_len := fun b hb => (Kuz.encrypt_ok h b hb).2
      dec := fun b hb => (Kuz.decrypt_ok h b hb).1
      dec_len := fun b hb => (Kuz.decrypt_ok h b hb).2
      D_E := fun b hb => Kuz.D_E h b hb
      E_D := fun b hb => Kuz.E_D h b hb
      enc_short := fun b hb => Kuz.encrypt_short h b hb }
  | magma ks =>
    exact {
      enc := fun b hb => (Magma.encrypt_ok h b hb).1
      enc_len := fun b hb => (Magma.encrypt_ok h b hb).2
      dec := fun b hb => (Magma.decrypt_ok h b hb).1
      dec_len := fun b hb => (Magma.decrypt_ok h b hb).2
      D_E := fun b hb => Magma.D_E ks b hb
      E_D := fun b hb => Magma.E_D ks b hb
      enc_short := fun b hb => Magma.encrypt_short h b hb }

theorem CipherObj.Good.clear {o : CipherObj} (h : o.Good) : o.clear.Good := by
  cases o with
  | kuz ks => exact Kuz.clear_good h
  | magma ks => exact Magma.clear_good h

@[simp] theorem CipherObj.clear_blockSize (o : CipherObj) : o.clear.blockSize = o.blockSize := by
  cases o <;> rfl

theorem Alg.blockSize_pos (a : Alg) : 0 < a.blockSize := by cases a <;> decide

theorem checkValue_data {v : PyVal} {b : Bytes} (h : v.data? = some b) (n : Nat) :
    checkValue v n = (b.length == n) := by
  simp [checkValue, h]

/-- The cipher object which the base class builds. -/
theorem baseInit_ok (a : Alg) (v : PyVal) (key : Bytes) (hv : v.data? = some key)
    (hk : key.length = 32) :
    ∃ o, baseInit a.name v = .ok o ∧ o.Good ∧ o.blockSize = a.blockSize ∧
      ∀ b, b.length = a.blockSize → o.E b = a.encrypt key b := by
  have hc : (!checkValue v 32) = false := by rw [checkValue_data hv, hk]; rfl
  cases a with
  | kuznechik =>
    have hi := Kuz.init_good key hk
    refine ⟨.kuz ((List.range 10).map (Spec.Kuz.roundKey key)), ?_, hi, rfl,
      fun b _ => Kuz.E_spec key b⟩
    unfold baseInit
    rw [if_neg (by simp [Alg.name]), hc, hv]
    simp only [Alg.name, Bool.false_eq_true, if_false, if_true, Kuz.init_ok key hk, Res.bind_ok,
      Res.pure_eq]
  | magma =>
    obtain ⟨ks, h1, h2, _, h4⟩ := Magma.init_ok key hk
    refine ⟨.magma ks, ?_, h2, rfl, fun b hb => Magma.E_spec ks key h4 b hb⟩
    unfold baseInit
    rw [if_neg (by simp [Alg.name]), hc, hv]
    have : ¬ ("magma" = "kuznechik") := by decide
    simp only [Alg.name, Bool.false_eq_true, if_false, this, h1, Res.bind_ok, Res.pure_eq]

/-- The cipher object which the base class builds, with the standard's cipher as its `E`. -/
theorem baseInit_implements (a : Alg) (v : PyVal) (key : Bytes) (hv : v.data? = some key)
    (hk : key.length = 32) :
    ∃ o D, baseInit a.name v = .ok o ∧ o.Good ∧ o.blockSize = a.blockSize ∧
      Implements o (a.encrypt key) D := by
  obtain ⟨o, h1, h2, h3, h4⟩ := baseInit_ok a v key hv hk
  have hI := h2.implements
  refine ⟨o, o.D, h1, h2, h3, ?_⟩
  exact {
    enc := fun b hb => by rw [hI.enc b hb, h4 b (hb.trans h3)]
    enc_len := fun b hb => by rw [← h4 b (hb.trans h3), hI.enc_len b hb]
    dec := hI.dec
    dec_len := hI.dec_len
    D_E := fun b hb => by rw [← h4 b (hb.trans h3), hI.D_E b hb]
    E_D := fun b hb => by rw [← h4 _ ((hI.dec_len b hb).trans h3), hI.E_D b hb]
    enc_short := hI.enc_short }

end Gost
