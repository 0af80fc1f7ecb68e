import Verif.Proofs.Mac
import Verif.Props.Examples

/-! Properties C17 to C19: the message authentication code. -/

namespace Gost
open Spec (Alg)

/-! ### C17 -/

/-- C17 for messages which are empty or at least a block long: the digest of an object created
with the message, or created without data and updated with the message, is the MAC of the standard
cut to the requested number of bytes. Missing: messages shorter than a block, for which the code
raises an exception (`C17_negation`). (An empty message can only be given to `new`.) -/
theorem C17_omac_partial (a : Alg) (kv mv : PyVal) (key msg : Bytes) (hk : kv.data? = some key)
    (hkl : key.length = 32) (hm : mv.data? = some msg) (hlen : msg = [] ∨ a.blockSize ≤ msg.length)
    (size : Nat) (hs : size ≤ a.blockSize) :
    (∃ s, newCipher a.name kv modeMac (data := some mv) = .ok (.mac s) ∧
      (s.digest size).2 = .ok ((Spec.omac (a.encrypt key) a.blockSize msg).take size)) ∧
    (∃ s₀, newCipher a.name kv modeMac = .ok (.mac s₀) ∧
      (msg = [] → (s₀.digest size).2 =
        .ok ((Spec.omac (a.encrypt key) a.blockSize msg).take size)) ∧
      (msg ≠ [] → ∃ s, s₀.update mv = (s, .ok ()) ∧ (s.digest size).2 =
        .ok ((Spec.omac (a.encrypt key) a.blockSize msg).take size))) := by
  obtain ⟨o, D, hg, hbs, hI, h1, h2⟩ := new_mac a kv key hk hkl none none
  rw [← hbs] at hlen hs ⊢
  have hdig : ∀ M : Bytes, M = [] ∨ o.blockSize ≤ M.length →
      ((macState o (a.encrypt key) (Spec.macKey1 (a.encrypt key) o.blockSize)
        (Spec.macKey2 (a.encrypt key) o.blockSize) M).digest size).2 =
        .ok ((Spec.omac (a.encrypt key) o.blockSize M).take size) := by
    intro M hM
    rw [Mac.digest_eq _ _ _ (macFinal_macState o hg hI M hM) (by
      show (size : Int) ≤ (o.blockSize : Int); omega), pyUpto_nat]
  refine ⟨?_, _, h1 none rfl, ?_, ?_⟩
  · by_cases h0 : msg = []
    · subst h0
      exact ⟨_, h1 (some mv) hm, hdig [] (Or.inl rfl)⟩
    · have := h2 mv msg hm h0
      rw [if_neg (by rcases hlen with h | h; exact absurd h h0; omega)] at this
      exact ⟨_, this, hdig msg hlen⟩
  · rintro rfl
    exact hdig [] (Or.inl rfl)
  · intro h0
    have hge : o.blockSize ≤ msg.length := by
      rcases hlen with h | h
      · exact absurd h h0
      · exact h
    refine ⟨_, ?_, hdig msg hlen⟩
    rw [update_macState o hI _ _ [] mv msg hm, if_neg (by simp; omega), List.nil_append]

/-- A case for the partial theorem. -/
example : Alg.magma.blockSize ≤ (Ex.count 1 21).length ∧ 4 ≤ Alg.magma.blockSize := by decide

/-- C17 is false of the code: for every key and every message of at least one byte which is shorter
than a block, `new` with the message and `update` with it raise `IndexError`. -/
theorem C17_negation (a : Alg) (kv mv : PyVal) (key msg : Bytes) (hk : kv.data? = some key)
    (hkl : key.length = 32) (hm : mv.data? = some msg) (h0 : msg ≠ [])
    (hlen : msg.length < a.blockSize) :
    newCipher a.name kv modeMac (data := some mv) = .error .indexError ∧
    ∃ s₀, newCipher a.name kv modeMac = .ok (.mac s₀) ∧ s₀.update mv = (s₀, .error .indexError) := by
  obtain ⟨o, D, hg, hbs, hI, h1, h2⟩ := new_mac a kv key hk hkl none none
  rw [← hbs] at hlen
  refine ⟨?_, _, h1 none rfl, ?_⟩
  · rw [h2 mv msg hm h0, if_pos hlen]
  · rw [update_macState o hI _ _ [] mv msg hm, if_pos (by simpa using hlen)]

/-- Such a message: one byte. -/
example : newCipher Alg.magma.name (.bytes Ex.key) modeMac (data := some (.bytes [0x61])) =
    .error .indexError :=
  (C17_negation .magma (.bytes Ex.key) (.bytes [0x61]) Ex.key [0x61] rfl (by decide) rfl (by simp)
    (by decide)).1

/-! ### C18 -/

/-- The data which a MAC object has accepted after a sequence of updates: an update is dropped if
it does not complete a block of `n` bytes. -/
def acceptedData (n : Nat) : Bytes → List Bytes → Bytes
  | M, [] => M
  | M, d :: ds => acceptedData n (if M.length % n + d.length < n then M else M ++ d) ds

/-- C18, exact behaviour: after any sequence of updates with byte data (the caller catching the
exceptions) the digest is the MAC of the accepted data; an update raises `IndexError` exactly if
it does not complete a block together with the data pending. -/
theorem C18_exact (a : Alg) (kv : PyVal) (key : Bytes) (hk : kv.data? = some key)
    (hkl : key.length = 32) (vs : List PyVal) (ds : List Bytes)
    (hds : vs.map PyVal.data? = ds.map some) :
    ∃ s₀, newCipher a.name kv modeMac = .ok (.mac s₀) ∧
      ((vs.foldl (fun s v => (s.update v).1) s₀).digest a.blockSize).2 =
        .ok (Spec.omac (a.encrypt key) a.blockSize (acceptedData a.blockSize [] ds)) ∧
      ∀ (v : PyVal) (d : Bytes), v.data? = some d →
        ((vs.foldl (fun s v => (s.update v).1) s₀).update v).2 =
          if (acceptedData a.blockSize [] ds).length % a.blockSize + d.length < a.blockSize
          then .error .indexError else .ok () := by
  obtain ⟨o, D, hg, hbs, hI, h1, h2⟩ := new_mac a kv key hk hkl none none
  refine ⟨_, h1 none rfl, ?_⟩
  rw [← hbs]
  have main : ∀ (vs : List PyVal) (ds : List Bytes) (M : Bytes), vs.map PyVal.data? = ds.map some →
      (M = [] ∨ o.blockSize ≤ M.length) →
      vs.foldl (fun s v => (s.update v).1) (macState o (a.encrypt key)
        (Spec.macKey1 (a.encrypt key) o.blockSize) (Spec.macKey2 (a.encrypt key) o.blockSize) M) =
        macState o (a.encrypt key) (Spec.macKey1 (a.encrypt key) o.blockSize)
          (Spec.macKey2 (a.encrypt key) o.blockSize) (acceptedData o.blockSize M ds) ∧
      (acceptedData o.blockSize M ds = [] ∨ o.blockSize ≤ (acceptedData o.blockSize M ds).length) := by
    intro vs
    induction vs with
    | nil =>
      intro ds M hds hM
      cases ds with
      | nil => exact ⟨rfl, hM⟩
      | cons d ds => simp at hds
    | cons v vs ih =>
      intro ds M hds hM
      cases ds with
      | nil => simp at hds
      | cons d ds =>
        simp only [List.map_cons, List.cons.injEq] at hds
        rw [List.foldl_cons, update_macState o hI _ _ M v d hds.1]
        simp only [acceptedData]
        by_cases hlt : M.length % o.blockSize + d.length < o.blockSize
        · simp only [if_pos hlt]
          exact ih ds M hds.2 hM
        · simp only [if_neg hlt]
          refine ih ds (M ++ d) hds.2 (Or.inr ?_)
          have := Nat.mod_le M.length o.blockSize
          rw [List.length_append]; omega
  obtain ⟨m1, m2⟩ := main vs ds [] hds (Or.inl rfl)
  rw [m1]
  constructor
  · rw [Mac.digest_eq _ (o.blockSize : Nat) _ (macFinal_macState o hg hI _ m2) (Int.le_refl _), pyUpto_nat]
    refine congrArg Except.ok (List.take_of_length_le ?_)
    obtain ⟨r, e1, e2⟩ := Mac.digest_ok _ (macState_inv o hg hI (Spec.macKey1 (a.encrypt key) o.blockSize)
      (Spec.macKey2 (a.encrypt key) o.blockSize) _ (macDouble_length _ _) (macDouble_length _ _) m2)
    rw [macFinal_macState o hg hI _ m2] at e1
    cases e1
    exact Nat.le_of_eq e2
  · intro v d hv
    rw [update_macState o hI _ _ _ v d hv]
    split <;> rfl

/-- C18 if every piece is at least one block long: all updates succeed and leave the object in the
state which one update with the concatenation leaves. Missing: shorter pieces, for which the claim is
false (`C18_negation`). -/
theorem C18_concat_partial (a : Alg) (kv : PyVal) (key : Bytes) (hk : kv.data? = some key)
    (hkl : key.length = 32) (vs : List PyVal) (ds : List Bytes)
    (hds : vs.map PyVal.data? = ds.map some) (hne : ds ≠ []) (hlen : ∀ d ∈ ds, a.blockSize ≤ d.length) :
    ∃ s₀ s, newCipher a.name kv modeMac = .ok (.mac s₀) ∧
      runUpdates Mac.update s₀ vs = (s, .ok ()) ∧ s₀.update (.bytes ds.flatten) = (s, .ok ()) := by
  obtain ⟨o, D, hg, hbs, hI, h1, h2⟩ := new_mac a kv key hk hkl none none
  rw [← hbs] at hlen
  have main : ∀ (vs : List PyVal) (ds : List Bytes) (M : Bytes), vs.map PyVal.data? = ds.map some →
      (∀ d ∈ ds, o.blockSize ≤ d.length) →
      runUpdates Mac.update (macState o (a.encrypt key)
        (Spec.macKey1 (a.encrypt key) o.blockSize) (Spec.macKey2 (a.encrypt key) o.blockSize) M) vs =
        (macState o (a.encrypt key) (Spec.macKey1 (a.encrypt key) o.blockSize)
          (Spec.macKey2 (a.encrypt key) o.blockSize) (M ++ ds.flatten), .ok ()) := by
    intro vs
    induction vs with
    | nil =>
      intro ds M hds hl
      cases ds with
      | nil => simp [runUpdates]
      | cons d ds => simp at hds
    | cons v vs ih =>
      intro ds M hds hl
      cases ds with
      | nil => simp at hds
      | cons d ds =>
        simp only [List.map_cons, List.cons.injEq] at hds
        have hd := hl d (by simp)
        unfold runUpdates
        rw [update_macState o hI _ _ M v d hds.1, if_neg (by omega)]
        simp only []
        rw [ih ds (M ++ d) hds.2 (fun x hx => hl x (by simp [hx])), List.flatten_cons, List.append_assoc]
  refine ⟨_, _, h1 none rfl, main vs ds [] hds hlen, ?_⟩
  rw [update_macState o hI _ _ [] (.bytes ds.flatten) ds.flatten rfl, if_neg]
  cases ds with
  | nil => exact absurd rfl hne
  | cons d ds =>
    have := hlen d (by simp)
    simp only [List.flatten_cons, List.length_append, List.length_nil, Nat.zero_mod]
    omega

/-- A case for the partial theorem. -/
example : ∀ d ∈ [Ex.count 0 9, Ex.count 1 8, Ex.count 7 23], Alg.magma.blockSize ≤ d.length := by decide

/-- C18 is false of the code: for every key, an update which does not complete a block raises
`IndexError`, although the concatenation of the pieces is accepted in one call. -/
theorem C18_negation (a : Alg) (kv mv v : PyVal) (key msg d : Bytes) (hk : kv.data? = some key)
    (hkl : key.length = 32) (hm : mv.data? = some msg) (hlen : a.blockSize ≤ msg.length)
    (hv : v.data? = some d) (hd : msg.length % a.blockSize + d.length < a.blockSize) :
    ∃ s₀ s s', newCipher a.name kv modeMac = .ok (.mac s₀) ∧ s₀.update mv = (s, .ok ()) ∧
      s.update v = (s, .error .indexError) ∧ s₀.update (.bytes (msg ++ d)) = (s', .ok ()) := by
  obtain ⟨o, D, hg, hbs, hI, h1, h2⟩ := new_mac a kv key hk hkl none none
  rw [← hbs] at hlen hd
  refine ⟨_, macState o (a.encrypt key) (Spec.macKey1 (a.encrypt key) o.blockSize)
      (Spec.macKey2 (a.encrypt key) o.blockSize) msg,
    macState o (a.encrypt key) (Spec.macKey1 (a.encrypt key) o.blockSize)
      (Spec.macKey2 (a.encrypt key) o.blockSize) (msg ++ d), h1 none rfl, ?_, ?_, ?_⟩
  · rw [update_macState o hI _ _ [] mv msg hm, if_neg (by simp; omega), List.nil_append]
  · rw [update_macState o hI _ _ msg v d hv, if_pos hd]
  · rw [update_macState o hI _ _ [] (.bytes (msg ++ d)) (msg ++ d) rfl, if_neg (by simp; omega),
      List.nil_append]

/-- Data as in the negation: a block and then a byte. -/
example : Alg.magma.blockSize ≤ (Ex.count 0 8).length ∧
    (Ex.count 0 8).length % Alg.magma.blockSize + [(1 : UInt8)].length < Alg.magma.blockSize := by decide

/-! ### C19 -/

/-- C19: in every reachable state and for every integer size, `digest` leaves the object as it is;
it succeeds exactly if the size is not above the block size, and the result is then the first `size`
bytes of the full digest (a negative size counts from the end, as in every Python slice). The same
for `hexdigest`. -/
theorem C19_digest_observation (s : Mac) (hs : Mac.Reachable s) :
    ∃ full : Bytes, full.length = s.obj.blockSize ∧
      s.digest s.obj.blockSize = (s, .ok full) ∧
      ∀ size : Int,
        (size ≤ s.obj.blockSize → s.digest size =
          (s, .ok (full.take (if 0 ≤ size then size.toNat else (size + s.obj.blockSize).toNat)))) ∧
        (s.obj.blockSize < size → s.digest size =
          (s, .error (.cipherError "GOSTCipherError: invalid message authentication code size"))) ∧
        (s.hexdigest size).1 = s := by
  obtain ⟨r, h1, h2⟩ := Mac.digest_ok s hs.inv
  refine ⟨r, h2, ?_, ?_⟩
  · rw [Mac.digest_eq s _ r h1 (Int.le_refl _), pyUpto_nat, List.take_of_length_le (Nat.le_of_eq h2)]
  · intro size
    refine ⟨?_, ?_, ?_⟩
    · intro hle
      rw [Mac.digest_eq s size r h1 hle]
      congr 2
      split
      · next h0 =>
        rw [show pyUpto r size = pyUpto r ((size.toNat : Nat) : Int) by rw [Int.toNat_of_nonneg h0],
          pyUpto_nat]
      · next h0 =>
        unfold pyUpto sliceBound
        rw [if_pos (by omega), h2]
    · intro hlt
      unfold Mac.digest
      simp only []
      rw [if_pos (by omega)]
    · rw [Mac.hexdigest_eq]
      exact Mac.digest_state s size

/-- A case for C19: an object which has accepted 21 bytes. -/
example : ∃ s, Mac.Reachable s ∧ s.iterBuf.length = 5 := by
  obtain ⟨o, D, hg, hbs, hI, h1, h2⟩ := new_mac .magma (.bytes Ex.key) Ex.key rfl (by decide) none none
  have := h2 (.bytes (Ex.count 1 21)) (Ex.count 1 21) rfl (by decide)
  rw [hbs, if_neg (by decide)] at this
  refine ⟨_, .new this, ?_⟩
  simp only [macState, rest_length, hbs, Ex.count_length]
  decide

/-- The public method `mac_final`, which `digest` calls on a copy, is no observation: called twice on
a Magma object without data it returns two different values. -/
theorem C19_mac_final_changes : ∃ s r₁ r₂, newCipher Alg.magma.name (.bytes Ex.key) modeMac = .ok (.mac s) ∧
    s.macFinal.2 = .ok r₁ ∧ s.macFinal.1.macFinal.2 = .ok r₂ ∧ r₁ ≠ r₂ := by
  have h : (match newCipher Alg.magma.name (.bytes Ex.key) modeMac with
      | .ok (.mac s) => (match s.macFinal.2, s.macFinal.1.macFinal.2 with
        | .ok r₁, .ok r₂ => decide (r₁ ≠ r₂)
        | _, _ => false)
      | _ => false) = true := by decide +kernel
  split at h
  · next s hs =>
    split at h
    · next r₁ r₂ e1 e2 => exact ⟨s, r₁, r₂, hs, e1, e2, by simpa using h⟩
    · cases h
  · cases h

end Gost
