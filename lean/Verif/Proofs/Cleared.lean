import Verif.Proofs.Clear
import Verif.Spec.AnyCalls

/-! The cipher of a cleared object. -/

namespace Gost
open Spec (Alg)

theorem clearedObj_good (a : Alg) : (clearedObj a).Good := by
  cases a with
  | kuznechik =>
    refine ⟨by simp, fun k hk => ?_⟩
    rw [List.eq_of_mem_replicate hk]; decide
  | magma =>
    refine ⟨by simp, fun k hk => ?_⟩
    rw [List.eq_of_mem_replicate hk]; decide

theorem clearedObj_blockSize (a : Alg) : (clearedObj a).blockSize = a.blockSize := by cases a <;> rfl

theorem Kuz.E_const (k b : Bytes) : E (List.replicate 10 k) b = Spec.Kuz.encryptConst k b := by
  have hpi : sKuz = Spec.pi := by funext b; exact sKuz_eq b
  have r9 : List.range 9 = [0, 1, 2, 3, 4, 5, 6, 7, 8] := rfl
  unfold E Spec.Kuz.encryptConst round Spec.Kuz.S
  simp only [r9, List.foldl_cons, List.foldl_nil, hpi, xor_eq]
  rfl

/-- The decryption of a cleared object. -/
def clearedD (a : Alg) : Bytes → Bytes := (clearedObj a).clear.D

/-- Every object implements one and the same cipher after `clear`. -/
theorem clear_implements (a : Alg) {o : CipherObj} (h : o.Good) (hbs : o.blockSize = a.blockSize) :
    Implements o.clear a.cleared (clearedD a) := by
  have hS : Same (clearedObj a).clear o.clear :=
    Same.clear_of (clearedObj_good a) h (by rw [hbs, clearedObj_blockSize])
  have hI := hS.implements
  have hE : ∀ b : Bytes, b.length = o.clear.blockSize → (clearedObj a).clear.E b = a.cleared b := by
    intro b hb
    rw [CipherObj.clear_blockSize, hbs] at hb
    cases a with
    | kuznechik =>
      have g : Kuz.GoodKeys (List.replicate 10 (List.replicate 16 slashX00).flatten) :=
        clearedObj_good .kuznechik
      have g' : Kuz.GoodKeys (List.replicate 10 (List.replicate 4 slashX00).flatten) := by
        refine ⟨by simp, fun k hk => ?_⟩
        rw [List.eq_of_mem_replicate hk]; decide
      have := (Kuz.E_congr (Kuz.clear_good g) g' (fun n hn => by
        rw [Kuz.clear_take g n hn]
        rw [List.getD_eq_getElem?_getD, List.getElem?_replicate, if_pos hn, Option.getD_some]
        decide) b hb).1
      exact this.trans (Kuz.E_const _ b)
    | magma =>
      have h1 := clear_magma (clearedObj_good .magma) rfl b hb
      have h2 := (clearedObj_good .magma).clear.implements.enc b hb
      have e : (List.replicate 8 slashX00).flatten = (List.replicate 8 Spec.clearWord).flatten := rfl
      rw [e] at h1
      exact Except.ok.inj (h2.symm.trans h1)
  exact {
    enc := fun b hb => by rw [hI.enc b hb, hE b hb]
    enc_len := fun b hb => by rw [← hE b hb]; exact hI.enc_len b hb
    dec := hI.dec
    dec_len := hI.dec_len
    D_E := fun b hb => by rw [← hE b hb]; exact hI.D_E b hb
    E_D := fun b hb => by
      have := hE (clearedD a b) (hI.dec_len b hb)
      rw [← this]; exact hI.E_D b hb
    enc_short := hI.enc_short }

end Gost
