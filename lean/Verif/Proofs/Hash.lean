import Verif.Proofs.Streebog
import Verif.Spec.HashCalls

/-! The hash object against the specification. -/

namespace Gost
namespace HashObj
open Spec Spec.Streebog Hash

/-- The object stands for the message `M` hashed from the initial value `iv`. -/
structure Holds (iv M : Bytes) (s : HashObj) : Prop where
  h : s.h = (Streebog.absorb iv M).h
  n : s.n = leBytes 64 (Streebog.absorb iv M).N
  sigma : s.sigma = leBytes 64 (Streebog.absorb iv M).sum
  buff : s.buff = rest 64 M

theorem p512 : (256 : Nat) ^ 64 = 2 ^ 512 := by decide +kernel

theorem add512_num (x : Nat) (b : Bytes) (hb : b.length = 64) :
    add512 (leBytes 64 x) b = leBytes 64 ((x + leNat b) % 2 ^ 512) := by
  rw [add512_eq _ _ (leBytes_length 64 x) hb, leNat_leBytes, ← p512, leBytes_mod]
  conv => lhs; rw [← leBytes_mod]
  conv => rhs; rw [← leBytes_mod]
  rw [Nat.mod_add_mod]

theorem v512_eq : v512 = leBytes 64 512 := by decide +kernel

theorem steps_h_length (v : Vars) (hv : v.h.length = 64) (l : List Bytes)
    (hl : ∀ b ∈ l, b.length = 64) : (l.foldl step v).h.length = 64 := by
  induction l generalizing v with
  | nil => exact hv
  | cons b l ih =>
    exact ih _ (g_length _ _ _ hv (hl b (by simp))) (fun x hx => hl x (by simp [hx]))

theorem absorb_h_length (iv M : Bytes) (hiv : iv.length = 64) :
    (Streebog.absorb iv M).h.length = 64 :=
  steps_h_length _ hiv _ (fun _ hb => mem_blocks_length hb)

/-- The part of the object which `absorb` changes. -/
structure Core (v : Vars) (s : HashObj) : Prop where
  h : s.h = v.h
  n : s.n = leBytes 64 v.N
  sigma : s.sigma = leBytes 64 v.sum

theorem Core.absorb {v : Vars} {s : HashObj} (hs : Core v s) (hv : v.h.length = 64) (b : Bytes)
    (hb : b.length = 64) : Core (step v b) (s.absorb b) where
  h := by
    show hashG s.h s.n b = _
    rw [hs.h, hs.n, hashG_eq _ _ _ hv hb]; rfl
  n := by
    show add512 s.n v512 = _
    rw [hs.n, v512_eq, add512_num _ _ (leBytes_length _ _), leNat_leBytes]; rfl
  sigma := by
    show add512 s.sigma b = _
    rw [hs.sigma, add512_num _ _ hb]; rfl

theorem Core.fold {v : Vars} {s : HashObj} (hs : Core v s) (hv : v.h.length = 64)
    (l : List Bytes) (hl : ∀ b ∈ l, b.length = 64) :
    Core (l.foldl step v) (l.foldl HashObj.absorb s) ∧
      (l.foldl HashObj.absorb s).buff = s.buff ∧ (l.foldl HashObj.absorb s).name = s.name := by
  induction l generalizing v s with
  | nil => exact ⟨hs, rfl, rfl⟩
  | cons b l ih =>
    have hb := hl b (by simp)
    exact ih (hs.absorb hv b hb) (g_length _ _ _ hv hb) (fun x hx => hl x (by simp [hx]))

theorem loop_eq (data : Bytes) (s : HashObj) :
    (List.range (data.length / 64)).foldl (fun s i =>
      s.absorb (pySlice data ((i * 64 : Nat) : Int) ((i * 64 + 64 : Nat) : Int))) s =
    (blocks 64 data).foldl HashObj.absorb s := by
  unfold blocks
  rw [List.foldl_map]
  congr 1
  funext s i
  rw [pySlice_nat]
  congr 2
  · omega
  · rw [Nat.mul_comm]

theorem blocks_snoc (M d : Bytes) :
    blocks 64 (M ++ d) = blocks 64 M ++ blocks 64 (rest 64 M ++ d) := by
  conv => lhs; rw [← flatten_blocks_rest 64 (by omega) M, List.append_assoc]
  exact blocks_flatten_append 64 (by omega) _ (fun x hx => mem_blocks_length hx) _

theorem rest_snoc (M d : Bytes) : rest 64 (M ++ d) = rest 64 (rest 64 M ++ d) := by
  conv => lhs; rw [← flatten_blocks_rest 64 (by omega) M, List.append_assoc]
  exact rest_flatten_append 64 (by omega) _ (fun x hx => mem_blocks_length hx) _

/-- What `update` does to the buffer. -/
theorem updateBytes_eq (s : HashObj) (d : Bytes) :
    s.updateBytes d =
      if (s.buff ++ d).length % 64 = 0 then (blocks 64 (s.buff ++ d)).foldl HashObj.absorb s
      else { (blocks 64 (s.buff ++ d)).foldl HashObj.absorb s with
        buff := rest 64 (s.buff ++ d) } := by
  unfold updateBytes
  simp only [loop_eq]
  generalize s.buff ++ d = data
  generalize (blocks 64 data).foldl HashObj.absorb s = t
  have hm : data.length % 64 < 64 := Nat.mod_lt _ (by omega)
  by_cases h0 : data.length % 64 = 0
  · rw [if_neg (by omega), if_pos h0]
  · rw [if_pos (by omega), if_neg h0]
    have hle := Nat.mod_le data.length 64
    have e : 64 - (64 - data.length % 64) = data.length % 64 := by omega
    rw [e, pyFrom_neg data _ (by omega) hle]
    have hd := Nat.div_add_mod data.length 64
    have e2 : data.length - data.length % 64 = 64 * (data.length / 64) := by omega
    rw [e2]
    rfl

theorem Holds.update {iv M : Bytes} {s : HashObj} (hs : Holds iv M s) (hiv : iv.length = 64)
    (d : Bytes) : Holds iv (effective M d) (s.updateBytes d) := by
  have hb := hs.buff
  have hlen : (s.buff ++ d).length % 64 = (M.length + d.length) % 64 := by
    rw [hb, List.length_append, rest_length, Nat.mod_add_mod]
  have hrl := rest_length 64 M
  have core : Core (Streebog.absorb iv M) s := ⟨hs.h, hs.n, hs.sigma⟩
  obtain ⟨c, cb, -⟩ := core.fold (absorb_h_length iv M hiv) (blocks 64 (s.buff ++ d))
    (fun _ hx => mem_blocks_length hx)
  have habs : (blocks 64 (s.buff ++ d)).foldl step (Streebog.absorb iv M) =
      Streebog.absorb iv (M ++ d) := by
    unfold Streebog.absorb
    rw [hb, blocks_snoc M d, List.foldl_append]
  rw [habs] at c
  rw [updateBytes_eq]
  by_cases h0 : (M.length + d.length) % 64 = 0
  · rw [if_pos (by rw [hlen, h0])]
    have hdvd : 64 ∣ (M ++ d).length := by
      rw [List.length_append]; exact Nat.dvd_of_mod_eq_zero h0
    unfold effective
    by_cases hr : (rest 64 M).length = 0
    · rw [if_neg (by simp [hr])]
      refine ⟨c.h, c.n, c.sigma, ?_⟩
      rw [cb, hb, List.eq_nil_of_length_eq_zero hr, rest_aligned 64 _ hdvd]
    · rw [if_pos ⟨hr, h0⟩]
      have e : Streebog.absorb iv (M ++ d ++ rest 64 M) = Streebog.absorb iv (M ++ d) := by
        unfold Streebog.absorb
        rw [blocks_append 64 (by omega) _ _ hdvd,
          blocks_of_lt 64 (rest 64 M) (by rw [hrl]; exact Nat.mod_lt _ (by omega)),
          List.append_nil]
      refine ⟨?_, ?_, ?_, ?_⟩
      · rw [e]; exact c.h
      · rw [e]; exact c.n
      · rw [e]; exact c.sigma
      · rw [cb, hb, rest_append 64 (by omega) _ _ hdvd,
          rest_of_lt 64 (rest 64 M) (by rw [hrl]; exact Nat.mod_lt _ (by omega))]
  · rw [if_neg (by rw [hlen]; exact h0)]
    unfold effective
    rw [if_neg (by intro h; exact h0 h.2)]
    exact ⟨c.h, c.n, c.sigma, by rw [rest_snoc M d, hb]⟩

theorem updateBytes_name (s : HashObj) (d : Bytes) : (s.updateBytes d).name = s.name := by
  rw [updateBytes_eq]
  have : ∀ (l : List Bytes) (s : HashObj), (l.foldl HashObj.absorb s).name = s.name := by
    intro l
    induction l with
    | nil => intro s; rfl
    | cons b l ih => intro s; exact ih _
  split <;> exact this _ _

/-! ### The end of the calculation -/

theorem lengthVector (n : Nat) (hn : n < 64) :
    ((List.replicate 64 (0 : UInt8)).set 1 (UInt8.ofNat (((n * 8) >>> 8) &&& 0xff))).set 0
      (UInt8.ofNat (n * 8 &&& 0xff)) = leBytes 64 (8 * n) := by
  have : ∀ n : Fin 64, ((List.replicate 64 (0 : UInt8)).set 1
      (UInt8.ofNat (((n.val * 8) >>> 8) &&& 0xff))).set 0
      (UInt8.ofNat (n.val * 8 &&& 0xff)) = leBytes 64 (8 * n.val) := by decide +kernel
  exact this ⟨n, hn⟩

theorem Holds.final {iv M : Bytes} {s : HashObj} (hs : Holds iv M s) (hiv : iv.length = 64) :
    s.hashFinal.h = hash iv M := by
  have hb : s.buff.length < 64 := by
    rw [hs.buff, rest_length]; exact Nat.mod_lt _ (by omega)
  have ebits : ((64 - (64 - (s.buff.length : Int))) * 8).toNat = s.buff.length * 8 := by omega
  have ez : zeros (64 - (s.buff.length : Int) - 1) = List.replicate (63 - s.buff.length) 0 := by
    rw [show 64 - (s.buff.length : Int) - 1 = ((63 - s.buff.length : Nat) : Int) by omega]
    exact zeros_nat _
  unfold hashFinal
  simp only
  rw [ebits, lengthVector _ hb, if_pos (by omega), ez]
  have hm : (s.buff ++ [1] ++ List.replicate (63 - s.buff.length) 0).length = 64 := by
    simp; omega
  have hh := absorb_h_length iv M hiv
  have hv0 : v0 = leBytes 64 0 := by rw [leBytes_zero]; rfl
  rw [hs.h, hs.n, hs.sigma, add512_num _ _ (leBytes_length _ _), add512_num _ _ hm, hv0,
    hashG_eq _ _ _ hh hm, leNat_leBytes,
    hashG_eq _ _ _ (g_length _ _ _ hh hm) (leBytes_length _ _),
    hashG_eq _ _ _ (g_length _ _ _ (g_length _ _ _ hh hm) (leBytes_length _ _))
      (leBytes_length _ _), hs.buff]
  have e8 : 8 * (rest 64 M).length % 256 ^ 64 = 8 * (rest 64 M).length := by
    apply Nat.mod_eq_of_lt
    rw [← hs.buff]
    exact Nat.lt_trans (by omega : 8 * s.buff.length < 512) (by decide +kernel)
  rw [e8]
  rfl

theorem hash_length (iv M : Bytes) (hiv : iv.length = 64) : (hash iv M).length = 64 := by
  have hh := absorb_h_length iv M hiv
  have hr : (rest 64 M).length < 64 := by rw [rest_length]; exact Nat.mod_lt _ (by omega)
  have hm : (rest 64 M ++ [1] ++ List.replicate (63 - (rest 64 M).length) 0).length = 64 := by
    simp; omega
  exact g_length _ _ _ (g_length _ _ _ (g_length _ _ _ hh hm) (leBytes_length _ _))
    (leBytes_length _ _)

/-- The initial value for a name. -/
def ivOf (name : String) : Bytes :=
  if name = "streebog256" then List.replicate 64 1 else List.replicate 64 0

theorem ivOf_length (name : String) : (ivOf name).length = 64 := by
  unfold ivOf; split <;> simp

theorem hashInit_holds (name : String) : Holds (ivOf name) [] (hashInit name) where
  h := rfl
  n := by rw [show (Streebog.absorb (ivOf name) []).N = 0 from rfl, leBytes_zero]; rfl
  sigma := by rw [show (Streebog.absorb (ivOf name) []).sum = 0 from rfl, leBytes_zero]; rfl
  buff := rfl

theorem Holds.digest {M : Bytes} {s : HashObj} (hs : Holds (ivOf s.name) M s)
    (hn : s.name = "streebog512" ∨ s.name = "streebog256") : s.digest = hashOf s.name M := by
  unfold HashObj.digest getHash
  have hf := hs.final (ivOf_length _)
  have hl := hash_length (ivOf s.name) M (ivOf_length _)
  have hnm : s.hashFinal.name = s.name := rfl
  rw [hf]
  unfold digestSize hashOf
  rw [hnm]
  rcases hn with hn | hn
  · rw [hn] at hl ⊢
    rw [if_pos rfl, if_pos rfl, pyFrom_neg _ 64 (by omega) (by omega), hl]
    rfl
  · rw [hn] at hl ⊢
    rw [if_neg (by decide), if_neg (by decide), pyFrom_neg _ 32 (by omega) (by omega), hl]
    rfl

end HashObj

open Spec (effective)

theorem effective_harmless {M d : Bytes} (h : Spec.Harmless M d) : effective M d = M ++ d := by
  unfold effective
  rw [if_neg]
  rintro ⟨h1, h2⟩
  rw [rest_length] at h1
  rcases h with h | h
  · exact h1 h
  · exact h h2

theorem effective_all (M : Bytes) (ds : List Bytes) (h : Spec.AllHarmless M ds) :
    ds.foldl effective M = M ++ ds.flatten := by
  induction ds generalizing M with
  | nil => simp
  | cons d ds ih =>
    rw [List.foldl_cons, effective_harmless h.1, ih _ h.2]
    simp

end Gost
