import Verif.Proofs.Hmac
import Verif.Proofs.Clear
import Verif.Props.Examples

/-! Properties C27 to C30: HMAC. -/

namespace Gost
open Spec (hashOf IsHashName effective hmacKey xorByte hmac hmacHash IsHmacName HmacCall hmacStarted)

/-! ### C27 -/

theorem take_hmacKey (k : Bytes) (hk : k.length ≤ 64) : (hmacKey k).take 64 = hmacKey k :=
  List.take_of_length_le (by rw [hmacKey_length k hk]; omega)

theorem hmac_one_update (name : String) (k : Bytes) (hk : k.length ≤ 64) (d : Bytes) :
    ((⟨hmacKey k, HashObj.hashInit (hmacHash name), 0⟩ : Hmac).updateBytes d).digest =
      hmac (hashOf (hmacHash name)) k d := by
  rw [((Hmac.new_st (hmacHash name) (hmacKey k)).first d).digest (hmacHash_valid name),
    take_hmacKey k hk]
  rfl

/-- C27: a message given in one update, to `update` or to `new` (there a non-empty one, see C28). -/
theorem C27_hmac (name : String) (hname : IsHmacName name) (kv mv : PyVal) (k d : Bytes)
    (hkv : kv.data? = some k) (hk : k.length ≤ 64) (hmv : mv.data? = some d) :
    (∃ s, Hmac.new name kv = .ok s ∧ (s.update mv).2 = .ok () ∧
      (s.update mv).1.digest = hmac (hashOf (hmacHash name)) k d) ∧
    (d ≠ [] → ∃ s, Hmac.new name kv (some mv) = .ok s ∧
      s.digest = hmac (hashOf (hmacHash name)) k d) := by
  refine ⟨⟨_, Hmac.new_ok name hname kv k hkv hk, ?_⟩, ?_⟩
  · simp only [Hmac.update, hmv]
    exact ⟨trivial, hmac_one_update name k hk d⟩
  · intro hd
    have he : mv.isEmpty = false := by
      cases mv with
      | bytes b => simp [PyVal.data?] at hmv; subst hmv; simpa [PyVal.isEmpty] using hd
      | bytearray b => simp [PyVal.data?] at hmv; subst hmv; simpa [PyVal.isEmpty] using hd
      | other => simp [PyVal.data?] at hmv
    refine ⟨_, ?_, hmac_one_update name k hk d⟩
    unfold Hmac.new
    rw [Hmac.initKey_ok name hname kv k hkv hk]
    simp only [Res.bind_ok, Option.getD_some, he, Hmac.update, hmv]
    rfl

/-- C27, the rejected arguments: `new` without data succeeds exactly for the two names and byte
objects of at most 64 bytes as keys; the errors. -/
theorem C27_accepts (name : String) (kv : PyVal) :
    (∃ s, Hmac.new name kv = .ok s) ↔
      IsHmacName name ∧ ∃ k, kv.data? = some k ∧ k.length ≤ 64 := by
  constructor
  · rintro ⟨s, hs⟩
    unfold Hmac.new Hmac.initKey at hs
    by_cases h1 : IsHmacName name
    · refine ⟨h1, ?_⟩
      rw [if_neg (by rcases h1 with h | h <;> simp [h])] at hs
      cases hd : kv.data? with
      | none => rw [hd] at hs; cases hs
      | some k =>
        refine ⟨k, rfl, ?_⟩
        rw [hd] at hs
        by_cases hl : k.length ≤ 64
        · exact hl
        · simp only at hs
          rw [if_pos (by omega)] at hs
          cases hs
    · rw [if_pos (by
        constructor
        · intro h; exact h1 (Or.inl h)
        · intro h; exact h1 (Or.inr h))] at hs
      cases hs
  · rintro ⟨h1, k, hk, hl⟩
    exact ⟨_, Hmac.new_ok name h1 kv k hk hl⟩

/-- The error for a key which is not accepted. -/
theorem C27_rejects (name : String) (hname : IsHmacName name) (kv : PyVal) (data : Option PyVal)
    (h : ∀ k, kv.data? = some k → 64 < k.length) :
    Hmac.new name kv data = .error (.hmacError "GOSTHMACError: invalid key value") := by
  unfold Hmac.new Hmac.initKey
  rw [if_neg (by rcases hname with h | h <;> simp [h])]
  cases hd : kv.data? with
  | none => rfl
  | some k =>
    simp only
    rw [if_pos (h k hd)]
    rfl

/-- Cases: a key of 32 bytes is accepted, one of 65 bytes is not. -/
example : IsHmacName "HMAC_GOSTR3411_2012_512" ∧ (PyVal.bytes Ex.key).data? = some Ex.key ∧
    Ex.key.length ≤ 64 := ⟨Or.inr rfl, rfl, by decide⟩

example : ∀ k, (PyVal.bytes (Ex.count 0 65)).data? = some k → 64 < k.length := by
  intro k h
  cases h
  decide

/-! ### C28 -/

/-- C28, exact behaviour: an object without data, or created with empty data, uses the hash of the
empty string as the inner hash, so the key does not enter the inner hash. -/
theorem C28_exact (name : String) (hname : IsHmacName name) (kv : PyVal) (k : Bytes)
    (hkv : kv.data? = some k) (hk : k.length ≤ 64) (data : Option PyVal)
    (hdata : data = none ∨ ∃ v, data = some v ∧ v.isEmpty = true) :
    ∃ s, Hmac.new name kv data = .ok s ∧
      s.digest = hashOf (hmacHash name) (xorByte (hmacKey k) 0x5c ++ hashOf (hmacHash name) []) := by
  refine ⟨⟨hmacKey k, HashObj.hashInit (hmacHash name), 0⟩, ?_, ?_⟩
  · unfold Hmac.new
    rw [Hmac.initKey_ok name hname kv k hkv hk]
    rcases hdata with rfl | ⟨v, rfl, hv⟩
    · rfl
    · simp only [Res.bind_ok, Option.getD_some, hv]
      rfl
  · rw [(Hmac.new_st (hmacHash name) (hmacKey k)).digest (hmacHash_valid name), take_hmacKey k hk]

/-- The statement of C28. -/
def C28_statement : Prop :=
  ∀ name, IsHmacName name → ∀ (kv : PyVal) k, kv.data? = some k → k.length ≤ 64 →
    ∀ s, Hmac.new name kv = .ok s → s.digest = hmac (hashOf (hmacHash name)) k []

/-- C28 holds once `update` was called with empty data. Missing: the object which received no
`update` call, where the claim is false (`C28_negation`). -/
theorem C28_update_partial (name : String) (hname : IsHmacName name) (kv mv : PyVal) (k : Bytes)
    (hkv : kv.data? = some k) (hk : k.length ≤ 64) (hmv : mv.data? = some []) :
    ∃ s, Hmac.new name kv = .ok s ∧ (s.update mv).2 = .ok () ∧
      (s.update mv).1.digest = hmac (hashOf (hmacHash name)) k [] :=
  (C27_hmac name hname kv mv k [] hkv hk hmv).1

example : (PyVal.bytes []).data? = some [] := rfl

theorem hash512_fast (M : Bytes) : hashOf "streebog512" M = Spec.leBytes 64 (Fast.hash 0 M) := by
  show Spec.Streebog.hash _ M = _
  rw [Fast.hash_eq _ _ (by simp)]
  rw [Hash.leNat_zeros]

theorem hash256_fast (M : Bytes) : hashOf "streebog256" M = (Spec.leBytes 64
    (Fast.hash (Spec.leNat (List.replicate 64 1)) M)).drop 32 := by
  show (Spec.Streebog.hash _ M).drop 32 = _
  rw [Fast.hash_eq _ _ (by simp)]

/-- C28 is false of the code, for both variants (key: 32 bytes). -/
theorem C28_negation (name : String) (hname : IsHmacName name) :
    ∃ s, Hmac.new name (.bytes Ex.key) = .ok s ∧
      s.digest ≠ hmac (hashOf (hmacHash name)) Ex.key [] := by
  obtain ⟨s, h1, h2⟩ := C28_exact name hname (.bytes Ex.key) Ex.key rfl (by decide) none (Or.inl rfl)
  refine ⟨s, h1, ?_⟩
  rw [h2]
  unfold hmac
  rcases hname with rfl | rfl
  · rw [show hmacHash "HMAC_GOSTR3411_2012_256" = "streebog256" from rfl, hash256_fast, hash256_fast,
      hash256_fast, hash256_fast]
    decide +kernel
  · rw [show hmacHash "HMAC_GOSTR3411_2012_512" = "streebog512" from rfl, hash512_fast, hash512_fast,
      hash512_fast, hash512_fast]
    decide +kernel

theorem C28_statement_false : ¬ C28_statement := by
  intro h
  obtain ⟨s, h1, h2⟩ := C28_negation "HMAC_GOSTR3411_2012_256" (Or.inl rfl)
  exact h2 (h _ (Or.inl rfl) _ Ex.key rfl (by decide) s h1)

/-! ### C29 -/

theorem hmac_updates (name : String) (k : Bytes) (hk : k.length ≤ 64) (d : Bytes) (ds : List Bytes) :
    ((d :: ds).foldl Hmac.updateBytes
      (⟨hmacKey k, HashObj.hashInit (hmacHash name), 0⟩ : Hmac)).digest =
      hmac (hashOf (hmacHash name)) k ((d :: ds).foldl effective []) := by
  have h := ((Hmac.new_st (hmacHash name) (hmacKey k)).first d).nexts (by omega) ds
  rw [List.foldl_cons, h.digest (hmacHash_valid name), take_hmacKey k hk,
    effective_prefix_all _ _ _ (by rw [xorByte_length, hmacKey_length k hk]), List.foldl_cons,
    effective_nil]
  rfl

/-- C29, exact behaviour: after one or more updates the digest is the HMAC of the effective
message (the one described in C25). -/
theorem C29_exact (name : String) (hname : IsHmacName name) (kv : PyVal) (k : Bytes)
    (hkv : kv.data? = some k) (hk : k.length ≤ 64) (ds : List Bytes) (hds : ds ≠ []) :
    ∃ s, Hmac.new name kv = .ok s ∧ (ds.foldl Hmac.updateBytes s).digest =
      hmac (hashOf (hmacHash name)) k (ds.foldl effective []) := by
  refine ⟨_, Hmac.new_ok name hname kv k hkv hk, ?_⟩
  cases ds with
  | nil => exact absurd rfl hds
  | cons d ds => exact hmac_updates name k hk d ds

/-- The statement of C29. -/
def C29_statement : Prop :=
  ∀ name, IsHmacName name → ∀ (kv : PyVal) k, kv.data? = some k → k.length ≤ 64 →
    ∀ ds : List Bytes, ds ≠ [] → ∀ s, Hmac.new name kv = .ok s →
      (ds.foldl Hmac.updateBytes s).digest = (s.updateBytes ds.flatten).digest

/-- C29 when no update completes a started block exactly. Missing: the other sequences, where the
claim is false (`C29_negation`). -/
theorem C29_concat_partial (name : String) (hname : IsHmacName name) (kv : PyVal) (k : Bytes)
    (hkv : kv.data? = some k) (hk : k.length ≤ 64) (ds : List Bytes) (hds : ds ≠ [])
    (hh : Spec.AllHarmless [] ds) (s : Hmac) (hs : Hmac.new name kv = .ok s) :
    (ds.foldl Hmac.updateBytes s).digest = (s.updateBytes ds.flatten).digest := by
  obtain ⟨s', h1, h2⟩ := C29_exact name hname kv k hkv hk ds hds
  rw [h1] at hs
  cases hs
  rw [h2, effective_all _ _ hh, List.nil_append]
  rw [Hmac.new_ok name hname kv k hkv hk] at h1
  cases h1
  exact (hmac_one_update name k hk _).symm

example : Spec.AllHarmless [] [Ex.count 0 10, Ex.count 0 60, [], Ex.count 0 64] := by
  simp [Spec.AllHarmless, Spec.Harmless, Ex.count_length]

/-- C29 is false of the code, for both variants: two updates with 32 zero bytes. -/
theorem C29_negation (name : String) (hname : IsHmacName name) :
    ∃ s, Hmac.new name (.bytes Ex.key) = .ok s ∧
      ([List.replicate 32 0, List.replicate 32 0].foldl Hmac.updateBytes s).digest ≠
        (s.updateBytes [List.replicate 32 0, List.replicate 32 0].flatten).digest := by
  obtain ⟨s, h1, h2⟩ := C29_exact name hname (.bytes Ex.key) Ex.key rfl (by decide)
    [List.replicate 32 0, List.replicate 32 0] (by simp)
  refine ⟨s, h1, ?_⟩
  rw [h2, show [List.replicate 32 0, List.replicate 32 0].foldl effective [] = List.replicate 96 0
    by decide]
  rw [Hmac.new_ok name hname (.bytes Ex.key) Ex.key rfl (by decide)] at h1
  cases h1
  rw [hmac_one_update name Ex.key (by decide)]
  unfold hmac
  rcases hname with rfl | rfl
  · rw [show hmacHash "HMAC_GOSTR3411_2012_256" = "streebog256" from rfl, hash256_fast, hash256_fast,
      hash256_fast, hash256_fast]
    decide +kernel
  · rw [show hmacHash "HMAC_GOSTR3411_2012_512" = "streebog512" from rfl, hash512_fast, hash512_fast,
      hash512_fast, hash512_fast]
    decide +kernel

theorem C29_statement_false : ¬ C29_statement := by
  intro h
  obtain ⟨s, h1, h2⟩ := C29_negation "HMAC_GOSTR3411_2012_256" (Or.inl rfl)
  exact h2 (h _ (Or.inl rfl) _ Ex.key rfl (by decide) _ (by simp) s h1)

/-! ### C30 -/

/-- What a call returns. -/
inductive HmacOut where
  | done
  | rejected
  | bytes (b : Bytes)
  | text (t : List Char)
deriving DecidableEq

/-- One call on an object of the model. -/
def hmacStep (s : Hmac) : HmacCall → Hmac × HmacOut
  | .update v =>
    match s.update (match v with | some d => .bytes d | none => .other) with
    | (s, .ok ()) => (s, .done)
    | (s, .error _) => (s, .rejected)
  | .digest => (s, .bytes s.digest)
  | .hexdigest => (s, .text s.hexdigest)
  | .reset => (s.reset, .done)
  | .clear => (s.clear, .done)

/-- The object after a sequence of calls. -/
def hmacAfter (s : Hmac) (cs : List HmacCall) : Hmac := cs.foldl (fun s c => (hmacStep s c).1) s

/-- The results of a sequence of calls. -/
def hmacOuts (s : Hmac) : List HmacCall → List HmacOut
  | [] => []
  | c :: cs => (hmacStep s c).2 :: hmacOuts (hmacStep s c).1 cs

theorem hmacStep_update_some (s : Hmac) (d : Bytes) :
    hmacStep s (.update (some d)) = (s.updateBytes d, .done) := rfl

theorem hmacStep_update_none (s : Hmac) : hmacStep s (.update none) = (s, .rejected) := rfl

theorem hmacAfter_reset (s : Hmac) (cs : List HmacCall) (h : HmacCall.clear ∉ cs) :
    (hmacAfter s cs).reset = s.reset := by
  unfold hmacAfter
  induction cs generalizing s with
  | nil => rfl
  | cons c cs ih =>
    rw [List.foldl_cons, ih _ (fun hc => h (by simp [hc]))]
    cases c with
    | update v =>
      cases v with
      | none => rfl
      | some d =>
        rw [hmacStep_update_some]
        unfold Hmac.reset HashObj.reset
        rw [Hmac.updateBytes_name, Hmac.updateBytes_key]
    | digest => rfl
    | hexdigest => rfl
    | reset => rfl
    | clear => exact absurd (by simp) h

/-- C30, reset: whatever was called before (except `clear`), `reset` gives exactly the state of a
new object with the same key. -/
theorem C30_reset (name : String) (hname : IsHmacName name) (kv : PyVal) (k : Bytes)
    (hkv : kv.data? = some k) (hk : k.length ≤ 64) (cs : List HmacCall) (hc : HmacCall.clear ∉ cs) :
    ∃ s, Hmac.new name kv = .ok s ∧ (hmacAfter s cs).reset = s := by
  refine ⟨_, Hmac.new_ok name hname kv k hkv hk, ?_⟩
  rw [hmacAfter_reset _ _ hc]
  rfl

example : HmacCall.clear ∉ [HmacCall.update (some [1]), .digest, .reset, .update none] := by decide

/-- Two objects which cannot be told apart by later calls. -/
structure HSame (s t : Hmac) : Prop where
  hash : s.hasher = t.hasher
  key : s.key.take 64 = t.key.take 64
  ls : 64 ≤ s.key.length
  lt : 64 ≤ t.key.length
  counter : s.counter = 0 ↔ t.counter = 0

theorem HSame.digest {s t : Hmac} (h : HSame s t) : s.digest = t.digest := by
  unfold Hmac.digest
  simp only [oPad, addXor_const_take, h.hash, h.key]

theorem HSame.update {s t : Hmac} (h : HSame s t) (d : Bytes) :
    HSame (s.updateBytes d) (t.updateBytes d) := by
  unfold Hmac.updateBytes
  simp only
  by_cases h0 : s.counter = 0
  · rw [if_pos (by omega), if_pos (by have := h.counter.1 h0; omega)]
    refine ⟨?_, h.key, h.ls, h.lt, by simp⟩
    simp only [iPad, addXor_const_take, h.hash, h.key]
  · rw [if_neg (by omega), if_neg (by intro hx; exact h0 (h.counter.2 (by omega)))]
    refine ⟨?_, h.key, h.ls, h.lt, by simp⟩
    simp only [h.hash]

theorem HSame.clear {s t : Hmac} (h : HSame s t) : HSame s.clear t.clear := by
  have hs := h.ls
  have ht := h.lt
  unfold Hmac.clear
  refine ⟨by simp only [h.hash], ?_, ?_, ?_, h.counter⟩
  · simp only
    rw [zeroFill_take _ 16 (by omega), zeroFill_take _ 16 (by omega)]
  · simp only [zeroFill_length]; omega
  · simp only [zeroFill_length]; omega

theorem HSame.step {s t : Hmac} (h : HSame s t) (c : HmacCall) :
    (hmacStep s c).2 = (hmacStep t c).2 ∧ HSame (hmacStep s c).1 (hmacStep t c).1 := by
  cases c with
  | update v =>
    cases v with
    | none => exact ⟨rfl, h⟩
    | some d => exact ⟨rfl, h.update d⟩
  | digest => exact ⟨by simp only [hmacStep, h.digest], h⟩
  | hexdigest => exact ⟨by simp only [hmacStep, Hmac.hexdigest, h.digest], h⟩
  | reset =>
    refine ⟨rfl, ?_, h.key, h.ls, h.lt, by simp [hmacStep, Hmac.reset]⟩
    simp only [hmacStep, Hmac.reset, h.hash]
  | clear => exact ⟨rfl, h.clear⟩

theorem HSame.outs {s t : Hmac} (h : HSame s t) (cs : List HmacCall) :
    hmacOuts s cs = hmacOuts t cs := by
  induction cs generalizing s t with
  | nil => rfl
  | cons c cs ih =>
    obtain ⟨h1, h2⟩ := h.step c
    simp only [hmacOuts]
    rw [h1, ih h2]

/-- The invariant of an object: name of the hash, length of the key, and the counter. -/
theorem hmacAfter_inv (hn : String) (s : Hmac) (hs : s.hasher.name = hn) (hl : 64 ≤ s.key.length)
    (st : Bool) (hc : s.counter = 0 ↔ st = false) (cs : List HmacCall) :
    (hmacAfter s cs).hasher.name = hn ∧ 64 ≤ (hmacAfter s cs).key.length ∧
      ((hmacAfter s cs).counter = 0 ↔ cs.foldl Spec.hmacStartStep st = false) := by
  unfold hmacAfter
  induction cs generalizing s st with
  | nil => exact ⟨hs, hl, hc⟩
  | cons c cs ih =>
    rw [List.foldl_cons, List.foldl_cons]
    cases c with
    | update v =>
      cases v with
      | none => exact ih s hs hl st hc
      | some d =>
        refine ih (s.updateBytes d) (by rw [Hmac.updateBytes_name, hs])
          (by rw [Hmac.updateBytes_key]; exact hl) true ?_
        unfold Hmac.updateBytes
        dsimp only
        split <;> simp
    | digest => exact ih s hs hl st hc
    | hexdigest => exact ih s hs hl st hc
    | reset => exact ih s.reset hs hl false (by simp [Hmac.reset])
    | clear =>
      refine ih s.clear hs ?_ st hc
      simp only [Hmac.clear, zeroFill_length]
      omega

/-- C30, clear: take two objects with any two keys and any histories before `clear`; if an
update was accepted since creation or the last reset in both histories or in neither, all later
calls give the same results. In particular the key has no influence (same history), and the data
received have none. Missing: a started and a not started history, where the later results differ
(`C30_negation`). -/
theorem C30_clear_partial (name : String) (hname : IsHmacName name) (kv kv' : PyVal) (k k' : Bytes)
    (hkv : kv.data? = some k) (hk : k.length ≤ 64) (hkv' : kv'.data? = some k')
    (hk' : k'.length ≤ 64) (before before' : List HmacCall)
    (hst : hmacStarted before = hmacStarted before') :
    ∃ s s', Hmac.new name kv = .ok s ∧ Hmac.new name kv' = .ok s' ∧
      ∀ after, hmacOuts (hmacAfter s before).clear after =
        hmacOuts (hmacAfter s' before').clear after := by
  refine ⟨_, _, Hmac.new_ok name hname kv k hkv hk, Hmac.new_ok name hname kv' k' hkv' hk', ?_⟩
  obtain ⟨a1, a2, a3⟩ := hmacAfter_inv (hmacHash name)
    ⟨hmacKey k, HashObj.hashInit (hmacHash name), 0⟩ rfl
    (by show 64 ≤ (hmacKey k).length; rw [hmacKey_length k hk]; omega) false (by simp) before
  obtain ⟨b1, b2, b3⟩ := hmacAfter_inv (hmacHash name)
    ⟨hmacKey k', HashObj.hashInit (hmacHash name), 0⟩ rfl
    (by show 64 ≤ (hmacKey k').length; rw [hmacKey_length k' hk']; omega) false (by simp) before'
  intro after
  apply HSame.outs
  unfold Hmac.clear
  refine ⟨?_, ?_, ?_, ?_, ?_⟩
  · simp only [HashObj.reset, a1, b1]
  · simp only
    rw [zeroFill_take _ 16 (by omega), zeroFill_take _ 16 (by omega)]
  · simp only [zeroFill_length]; omega
  · simp only [zeroFill_length]; omega
  · simp only
    rw [a3, b3]
    unfold hmacStarted at hst
    rw [hst]

/-- Two different keys and histories of this kind. -/
example : hmacStarted [.update (some [1, 2]), .digest] = hmacStarted [.update (some [7])] ∧
    Ex.key ≠ Ex.key' := by decide

/-- C30, the key alone: same history, any two keys. -/
theorem C30_clear_key (name : String) (hname : IsHmacName name) (kv kv' : PyVal) (k k' : Bytes)
    (hkv : kv.data? = some k) (hk : k.length ≤ 64) (hkv' : kv'.data? = some k')
    (hk' : k'.length ≤ 64) (before : List HmacCall) :
    ∃ s s', Hmac.new name kv = .ok s ∧ Hmac.new name kv' = .ok s' ∧
      ∀ after, hmacOuts (hmacAfter s before).clear after =
        hmacOuts (hmacAfter s' before).clear after :=
  C30_clear_partial name hname kv kv' k k' hkv hk hkv' hk' before before rfl

/-- C30 is false of the code as far as the data received before is concerned: `clear` keeps the
update counter, so for every key an object which received an (empty) update before `clear` leaves
the key out of the next message, an object which did not puts it in. -/
theorem C30_negation (kv : PyVal) (k : Bytes) (hkv : kv.data? = some k) (hk : k.length ≤ 64) :
    ∃ s, Hmac.new "HMAC_GOSTR3411_2012_512" kv = .ok s ∧
      hmacOuts (hmacAfter s []).clear [.update (some []), .digest] ≠
        hmacOuts (hmacAfter s [.update (some [])]).clear [.update (some []), .digest] := by
  refine ⟨_, Hmac.new_ok _ (Or.inr rfl) kv k hkv hk, ?_⟩
  have hkl := hmacKey_length k hk
  have hz : (zeroFill (hmacKey k)).take 64 = (List.replicate 16 slashX00).flatten := by
    rw [zeroFill_take _ 16 (by omega)]
  have hdig : ∀ s : Hmac, hmacStep s .digest = (s, .bytes s.digest) := fun _ => rfl
  intro h
  simp only [hmacOuts, hmacStep_update_some, hdig, hmacAfter, List.foldl_nil, List.foldl_cons,
    List.cons.injEq, HmacOut.bytes.injEq, and_true, true_and] at h
  have e1 : (⟨hmacKey k, HashObj.hashInit (hmacHash "HMAC_GOSTR3411_2012_512"), 0⟩ : Hmac).clear =
      ⟨zeroFill (hmacKey k), HashObj.hashInit "streebog512", 0⟩ := rfl
  have e2 : ((⟨hmacKey k, HashObj.hashInit (hmacHash "HMAC_GOSTR3411_2012_512"), 0⟩ :
      Hmac).updateBytes []).clear = ⟨zeroFill (hmacKey k), HashObj.hashInit "streebog512", 1⟩ := by
    unfold Hmac.clear HashObj.reset
    rw [Hmac.updateBytes_name, Hmac.updateBytes_key]
    rfl
  rw [e1, e2] at h
  have h1 := ((Hmac.new_st "streebog512" (zeroFill (hmacKey k))).first []).digest (Or.inl rfl)
  have s2 : Hmac.St "streebog512" (zeroFill (hmacKey k)) [] 1
      ⟨zeroFill (hmacKey k), HashObj.hashInit "streebog512", 1⟩ := ⟨rfl, HStands.init _, rfl⟩
  have h2 := (s2.next (by omega) []).digest (Or.inl rfl)
  rw [h1, h2, hz, effective_nil] at h
  revert h
  rw [hash512_fast, hash512_fast, hash512_fast, hash512_fast]
  decide +kernel

/-- After `clear` followed by `reset` even that difference is gone: the object is the one with the
fixed key "/x00/x00…". -/
theorem C30_clear_reset (name : String) (hname : IsHmacName name) (kv : PyVal) (k : Bytes)
    (hkv : kv.data? = some k) (hk : k.length ≤ 64) (before : List HmacCall) (d : Bytes) :
    ∃ s, Hmac.new name kv = .ok s ∧
      ((hmacAfter s before).clear.reset.updateBytes d).digest =
        hmac (hashOf (hmacHash name)) (List.replicate 16 slashX00).flatten d := by
  refine ⟨_, Hmac.new_ok name hname kv k hkv hk, ?_⟩
  obtain ⟨a1, a2, -⟩ := hmacAfter_inv (hmacHash name)
    ⟨hmacKey k, HashObj.hashInit (hmacHash name), 0⟩ rfl
    (by show 64 ≤ (hmacKey k).length; rw [hmacKey_length k hk]; omega) false (by simp) before
  generalize hmacAfter _ before = t at a1 a2
  have e : t.clear.reset = ⟨zeroFill t.key, HashObj.hashInit (hmacHash name), 0⟩ := by
    unfold Hmac.clear Hmac.reset HashObj.reset
    simp only [a1]
    rfl
  rw [e, ((Hmac.new_st (hmacHash name) (zeroFill t.key)).first d).digest (hmacHash_valid name),
    zeroFill_take _ 16 (by omega)]
  rfl

end Gost
