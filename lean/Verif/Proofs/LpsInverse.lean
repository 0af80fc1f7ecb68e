import Verif.Proofs.Hash

/-! The map LPS has no two equal values. -/

namespace Gost
namespace Hash
open Spec (leNat leBytes blocks pi)
open Spec.Streebog (lSum l L P S LPS tau A)

/-- The rows of the inverse of the matrix A. -/
def inverseA : List Nat := [
  0x62ab88cd0972e917, 0x31db44e88a39fa85, 0x96e3227445927dcc, 0x4bff113aac49b066,
  0xabf1861d56aa5833, 0xdbf643802b552c97, 0xe37baf409ba416c5, 0xffb3d920c3520bec,
  0x37ac80ec39310f5c, 0x955640769296892e, 0xc42b203b494bca17, 0x629b1093aaab6585,
  0x31c308c755dbbccc, 0x96ef04eda4e35e66, 0x4bf902f852ff2f33, 0xabf2017c29f19997,
  0x7ba7f6d2966a717c, 0xb3dd7b694b35b63e, 0xd7e0b3baab945b1f, 0xe570d75ddb4aa381,
  0xfc38e5a0e325dfce, 0x7e1cfc50ff9ce167, 0x3f0e7e28f14efebd, 0x91073f14f6277fd0,
  0x8f75c66271c4c510, 0xc9b46331b662ec08, 0xea5abf965b317604, 0x752dd14ba3963b02,
  0xb498e6abdf4b9301, 0x5a4c73dbe1abc78e, 0x2d26b7e3fedbed47, 0x9813d5ff7fe3f8ad,
  0xa27784688a48d4ef, 0x51b5423445246af9, 0xa6d4211aac1235f2, 0x536a9e0d56099479,
  0xa7354f882b8a4ab2, 0xdd94a9449b452559, 0xe04ada22c3ac9ca2, 0x70256d11ef564e51,
  0x38d6992f43439caa, 0x1c6bc299afaf4e55, 0x0ebb61c2d9d927a4, 0x07d3be61e2e29d52,
  0x8de75fbe7171c029, 0xc8fda15fb6b6609a, 0x64f0dea15b5b304d, 0x32786fdea3a318a8,
  0x7388fc7df56416b6, 0xb7447eb0f4320b5b, 0xd5223f587a198ba3, 0xe411912c3d82cbdf,
  0x7286c6169041ebe1, 0x3943630b48aefbfe, 0x92afbf8b2457f37f, 0x49d9d1cb12a5f7b1,
  0x321902ad3c69a5e9, 0x198201d81ebadcfa, 0x82418e6c0f5d6e7d, 0x41ae473689a037b0,
  0xae57ad1bca509558, 0x57a5d8836528c42c, 0xa5dc6ccfbc146216, 0xdc6e36e95e0a310b]

/-- The sum of rows of this matrix, as in the definition of l. -/
def mSum (b : Nat) : Nat → Nat
  | 0 => 0
  | n + 1 => (if b.testBit n then inverseA.getD (63 - n) 0 else 0) ^^^ mSum b n

theorem mSum_xor (a b n : Nat) : mSum (a ^^^ b) n = mSum a n ^^^ mSum b n := by
  induction n with
  | zero => simp [mSum]
  | succ n ih =>
    simp only [mSum, ih, Nat.testBit_xor]
    generalize inverseA.getD (63 - n) 0 = r
    generalize mSum a n = x
    generalize mSum b n = y
    cases a.testBit n <;> cases b.testBit n <;> simp [Nat.xor_assoc]
    · rw [← Nat.xor_assoc, ← Nat.xor_assoc, Nat.xor_comm x r]
    · rw [← Nat.xor_assoc x r y, Nat.xor_comm x r, Nat.xor_assoc r x y, ← Nat.xor_assoc r r,
        Nat.xor_self, Nat.zero_xor]

/-- A linear map which keeps the powers of two keeps every number. -/
theorem linear_id (f : Nat → Nat) (hf : ∀ a b, f (a ^^^ b) = f a ^^^ f b) (k : Nat)
    (hp : ∀ i, i < k → f (2 ^ i) = 2 ^ i) : ∀ x, x < 2 ^ k → f x = x := by
  induction k with
  | zero =>
    intro x hx
    have h0 : f (0 ^^^ 0) = _ := hf 0 0
    rw [Nat.xor_self, Nat.xor_self] at h0
    rw [show x = 0 by simpa using hx, h0]
  | succ k ih =>
    intro x hx
    have ih' := ih (fun i hi => hp i (by omega))
    by_cases h : x < 2 ^ k
    · exact ih' x h
    · have e : x = (x - 2 ^ k) ^^^ 2 ^ k := by
        have h1 : x - 2 ^ k < 2 ^ k := by rw [Nat.pow_succ] at hx; omega
        have := add_eq_xor k (x - 2 ^ k) 1 h1
        rw [Nat.mul_one] at this
        rw [← this]
        omega
      have h1 : x - 2 ^ k < 2 ^ k := by rw [Nat.pow_succ] at hx; omega
      conv => lhs; rw [e]
      rw [hf, ih' _ h1, hp k (by omega), ← e]

theorem inverse_basis : ∀ i : Fin 64, mSum (l (2 ^ i.val)) 64 = 2 ^ i.val := by decide +kernel

/-- The matrix A is invertible. -/
theorem l_inverse (x : Nat) (hx : x < 2 ^ 64) : mSum (l x) 64 = x :=
  linear_id (fun x => mSum (l x) 64) (fun a b => by simp only [l_xor, mSum_xor]) 64
    (fun i hi => inverse_basis ⟨i, hi⟩) x hx

theorem rows_lt : ∀ n : Fin 64, A.getD (63 - n.val) 0 < 2 ^ 64 := by decide +kernel

theorem l_lt (x : Nat) : l x < 2 ^ 64 := by
  unfold l
  suffices h : ∀ n, n ≤ 64 → lSum x n < 2 ^ 64 from h 64 (Nat.le_refl _)
  intro n
  induction n with
  | zero => intro _; exact Nat.two_pow_pos 64
  | succ n ih =>
    intro hn
    unfold lSum
    apply Nat.xor_lt_two_pow
    · split
      · exact rows_lt ⟨n, by omega⟩
      · exact Nat.two_pow_pos 64
    · exact ih (by omega)

theorem l_inj {x y : Nat} (hx : x < 2 ^ 64) (hy : y < 2 ^ 64) (h : l x = l y) : x = y := by
  rw [← l_inverse x hx, ← l_inverse y hy, h]

theorem leNat_lt8 (w : Bytes) (hw : w.length = 8) : leNat w < 2 ^ 64 := by
  have := leNat_lt w
  rw [hw] at this
  exact this

theorem word_inj {w w' : Bytes} (hw : w.length = 8) (hw' : w'.length = 8)
    (h : leBytes 8 (l (leNat w)) = leBytes 8 (l (leNat w'))) : w = w' := by
  have e := congrArg leNat h
  rw [leNat_leBytes, leNat_leBytes, show (256 : Nat) ^ 8 = 2 ^ 64 by decide, Nat.mod_eq_of_lt (l_lt _),
    Nat.mod_eq_of_lt (l_lt _)] at e
  exact leNat_inj _ _ (by rw [hw, hw']) (l_inj (leNat_lt8 w hw) (leNat_lt8 w' hw') e)

theorem map_inj_on {α β : Type} (f : α → β) (p : α → Prop) (hf : ∀ a b, p a → p b → f a = f b → a = b) :
    ∀ (u v : List α), (∀ a ∈ u, p a) → (∀ a ∈ v, p a) → u.map f = v.map f → u = v := by
  intro u
  induction u with
  | nil =>
    intro v _ _ h
    cases v with
    | nil => rfl
    | cons b v => simp at h
  | cons a u ih =>
    intro v hu hv h
    cases v with
    | nil => simp at h
    | cons b v =>
      rw [List.map_cons, List.map_cons] at h
      obtain ⟨h1, h2⟩ := List.cons.inj h
      rw [hf a b (hu a List.mem_cons_self) (hv b List.mem_cons_self) h1,
        ih v (fun x hx => hu x (List.mem_cons_of_mem _ hx)) (fun x hx => hv x (List.mem_cons_of_mem _ hx)) h2]

theorem L_inj {a b : Bytes} (ha : a.length = 64) (hb : b.length = 64) (h : L a = L b) : a = b := by
  unfold L at h
  rw [List.flatMap_def, List.flatMap_def] at h
  have hl : ∀ a : Bytes, ∀ w ∈ (blocks 8 a).map (fun w => leBytes 8 (l (leNat w))), w.length = 8 := by
    intro a w hw
    obtain ⟨x, _, rfl⟩ := List.mem_map.1 hw
    exact leBytes_length _ _
  have h2 := congrArg (blocks 8) h
  rw [blocks_flatten 8 (by decide) _ (hl a), blocks_flatten 8 (by decide) _ (hl b)] at h2
  have h3 := map_inj_on _ (fun w : Bytes => w.length = 8) (fun w w' hw hw' e => word_inj hw hw' e) _ _
    (fun w hw => mem_blocks_length hw) (fun w hw => mem_blocks_length hw) h2
  rw [← flatten_blocks 8 (by decide) a (by rw [ha]; decide), ← flatten_blocks 8 (by decide) b (by rw [hb]; decide), h3]

theorem tau_tau : ∀ i : Fin 64, tau (tau i.val) = i.val ∧ tau i.val < 64 := by decide

theorem P_inj {a b : Bytes} (ha : a.length = 64) (hb : b.length = 64) (h : P a = P b) : a = b := by
  apply List.ext_getElem (by rw [ha, hb])
  intro i hi hi'
  obtain ⟨t1, t2⟩ := tau_tau ⟨i, by omega⟩
  simp only at t1 t2
  have e : ∀ a : Bytes, a.length = 64 → (P a)[tau i]? = a[i]? := by
    intro a ha
    unfold P
    rw [List.getElem?_map, List.getElem?_range t2]
    show some (a.getD (tau (tau i)) 0) = _
    rw [t1, List.getD_eq_getElem?_getD, List.getElem?_eq_getElem (by omega)]
    rfl
  have := e a ha
  rw [h, e b hb, List.getElem?_eq_getElem hi, List.getElem?_eq_getElem hi'] at this
  exact (Option.some.inj this).symm

theorem pi_inj_fin : ∀ i j : Fin 256, pi (UInt8.ofNat i.val) = pi (UInt8.ofNat j.val) → i = j := by decide +kernel

theorem pi_inj {x y : UInt8} (h : pi x = pi y) : x = y := by
  have := pi_inj_fin ⟨x.toNat, UInt8.toNat_lt x⟩ ⟨y.toNat, UInt8.toNat_lt y⟩
    (by simpa only [UInt8.ofNat_toNat] using h)
  exact UInt8.toNat_inj.1 (congrArg Fin.val this)

theorem S_inj {a b : Bytes} (h : S a = S b) : a = b :=
  map_inj_on pi (fun _ => True) (fun _ _ _ _ e => pi_inj e) a b (fun _ _ => trivial) (fun _ _ => trivial) h

theorem LPS_inj {a b : Bytes} (ha : a.length = 64) (hb : b.length = 64) (h : LPS a = LPS b) : a = b :=
  S_inj (P_inj (by simp [S, ha]) (by simp [S, hb]) (L_inj (P_length _) (P_length _) h))

theorem addXor_inj {k a b : Bytes} (ha : a.length = k.length) (hb : b.length = k.length)
    (h : addXor k a = addXor k b) : a = b := by
  rw [← addXor_cancel k a (by omega), ← addXor_cancel k b (by omega), h]

end Hash
end Gost
