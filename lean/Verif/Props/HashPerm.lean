import Mathlib.Data.Fintype.Vector
import Mathlib.Data.Fintype.EquivFin
import Verif.Proofs.LpsInverse
import Verif.Props.Examples

/-! Property C83: the parts of the compression function which lose nothing. -/

namespace Gost
open Spec.Streebog (LPS roundKey rounds E)

theorem finite_byte : Finite UInt8 := Finite.of_injective UInt8.toFin (fun _ _ h => UInt8.toFin_inj.1 h)

/-- A map of the strings of `n` bytes without two equal values has every string as a value, once. -/
theorem exactly_one (n : Nat) (f : Bytes → Bytes) (hl : ∀ x, x.length = n → (f x).length = n)
    (hi : ∀ x y, x.length = n → y.length = n → f x = f y → x = y) (y : Bytes) (hy : y.length = n) :
    ∃ x, (x.length = n ∧ f x = y) ∧ ∀ z, z.length = n → f z = y → z = x := by
  haveI := finite_byte
  haveI : Fintype UInt8 := Fintype.ofFinite _
  let F : List.Vector UInt8 n → List.Vector UInt8 n := fun v => ⟨f v.1, hl v.1 v.2⟩
  have hF : Function.Injective F := by
    intro u v h
    exact Subtype.ext (hi _ _ u.2 v.2 (congrArg Subtype.val h))
  obtain ⟨x, hx⟩ := Finite.surjective_of_injective hF ⟨y, hy⟩
  have hx' : f x.1 = y := congrArg Subtype.val hx
  exact ⟨x.1, ⟨x.2, hx'⟩, fun z hz e => hi _ _ hz x.2 (by rw [e, hx'])⟩

/-- C83: `_hash_lps` is a permutation of the blocks of 64 bytes. -/
theorem C83_lps (y : Bytes) (hy : y.length = 64) :
    ∃ x, (x.length = 64 ∧ Hash.lps x = y) ∧ ∀ z, z.length = 64 → Hash.lps z = y → z = x :=
  exactly_one 64 Hash.lps (fun _ _ => Hash.lps_length _)
    (fun a b ha hb h => Hash.LPS_inj ha hb (by rw [← Hash.lps_eq a ha, ← Hash.lps_eq b hb, h])) y hy

/-- C83: so is `_hash_get_key` in each of the twelve rounds. -/
theorem C83_get_key (i : Nat) (hi : i < 12) (y : Bytes) (hy : y.length = 64) :
    ∃ k, (k.length = 64 ∧ Hash.getKey k i = y) ∧ ∀ z, z.length = 64 → Hash.getKey z i = y → z = k := by
  have hc : (Hash.cConst i).length = 64 := by rw [Hash.cConst_eq i hi]; exact Hash.C_length _
  refine exactly_one 64 (fun k => Hash.getKey k i) (fun _ _ => Hash.lps_length _) ?_ y hy
  intro a b ha hb h
  unfold Hash.getKey at h
  have la := Hash.xor_length ha hc
  have lb := Hash.xor_length hb hc
  have := Hash.LPS_inj la lb (by rw [← Hash.lps_eq _ la, ← Hash.lps_eq _ lb, h])
  rw [addXor_comm a, addXor_comm b] at this
  exact Hash.addXor_inj (by rw [ha, hc]) (by rw [hb, hc]) this

/-- C83: and `_hash_e` under every key. -/
theorem C83_hash_e (k : Bytes) (hk : k.length = 64) (y : Bytes) (hy : y.length = 64) :
    ∃ x, (x.length = 64 ∧ Hash.hashE k x = y) ∧ ∀ z, z.length = 64 → Hash.hashE k z = y → z = x := by
  refine exactly_one 64 (Hash.hashE k) (fun x hx => by rw [Hash.hashE_eq k x hk hx]; exact Hash.E_length k x hk hx) ?_ y hy
  intro a b ha hb h
  rw [Hash.hashE_eq k a hk ha, Hash.hashE_eq k b hk hb] at h
  have hr : ∀ n, rounds k a n = rounds k b n → a = b := by
    intro n
    induction n with
    | zero => exact id
    | succ n ih =>
      intro h
      have l1 := Hash.roundKey_length k hk n
      have l2 := Hash.rounds_length k a ha n
      have l3 := Hash.rounds_length k b hb n
      have := Hash.LPS_inj (Hash.xor_length l1 l2) (Hash.xor_length l1 l3) h
      exact ih (Hash.addXor_inj (by rw [l1, l2]) (by rw [l1, l3]) this)
  have l1 := Hash.roundKey_length k hk 12
  exact hr 12 (Hash.addXor_inj (by rw [l1, Hash.rounds_length k a ha]) (by rw [l1, Hash.rounds_length k b hb]) h)

/-- C83: what remains of the block: from the result of `_hash_g` combined with the block the block can be found
again, so for given chaining value and counter the compression function hides the block only by adding it. -/
theorem C83_hash_g (h n : Bytes) (hh : h.length = 64) (a b : Bytes) (ha : a.length = 64)
    (hb : b.length = 64) (e : addXor (Hash.hashG h n a) a = addXor (Hash.hashG h n b) b) : a = b := by
  have key : ∀ a : Bytes, a.length = 64 → addXor (Hash.hashG h n a) a = addXor (Hash.hashE (Hash.lps (addXor n h)) a) h := by
    intro a ha
    have lE : (Hash.hashE (Hash.lps (addXor n h)) a).length = 64 := by
      rw [Hash.hashE_eq _ a (Hash.lps_length _) ha]; exact Hash.E_length _ a (Hash.lps_length _) ha
    show addXor (addXor (addXor (Hash.hashE (Hash.lps (addXor n h)) a) h) a) a = _
    rw [addXor_comm (addXor (Hash.hashE (Hash.lps (addXor n h)) a) h) a, addXor_comm _ a]
    exact addXor_cancel _ _ (by rw [Hash.xor_length lE hh, ha])
  rw [key a ha, key b hb, addXor_comm (Hash.hashE _ a) h, addXor_comm (Hash.hashE _ b) h] at e
  have l : ∀ a : Bytes, a.length = 64 → (Hash.hashE (Hash.lps (addXor n h)) a).length = h.length := by
    intro a ha
    rw [hh, Hash.hashE_eq _ a (Hash.lps_length _) ha]; exact Hash.E_length _ a (Hash.lps_length _) ha
  have e' := Hash.addXor_inj (l a ha) (l b hb) e
  obtain ⟨x, -, hu⟩ := C83_hash_e (Hash.lps (addXor n h)) (Hash.lps_length _) _ (by rw [l b hb, hh])
  rw [hu a ha e', hu b hb rfl]

/-- A case: a block of 64 bytes, a key of 64 bytes, a round. -/
example : (Ex.count 0 64).length = 64 ∧ (Ex.count 7 64).length = 64 ∧ (11 : Nat) < 12 := by decide

end Gost
