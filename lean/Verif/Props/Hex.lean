import Verif.Props.Hmac
import Verif.Props.Pbkdf
import Verif.Proofs.Mac
import Verif.Spec.Hex

/-! Properties C56 (hexadecimal results) and C57 (zero bytes at the end of a key or password). -/

namespace Gost
open Spec (unhex digitValue hmacKey hmacHash IsHmacName)

theorem digitValue_hexDigit (n : Nat) (h : n < 16) : digitValue (hexDigit n) = some n := by
  have : ∀ m : Fin 16, digitValue (hexDigit m.val) = some m.val := by decide
  exact this ⟨n, h⟩

theorem unhex_pyHex (b : Bytes) : unhex (pyHex b) = some b := by
  induction b with
  | nil => rfl
  | cons x b ih =>
    have hx : x.toNat < 256 := x.toNat_lt
    show unhex (hexDigit (x.toNat / 16) :: hexDigit (x.toNat % 16) :: pyHex b) = _
    simp only [unhex]
    rw [digitValue_hexDigit _ (by omega), digitValue_hexDigit _ (by omega), ih]
    simp only [Nat.div_add_mod]
    rw [UInt8.ofNat_toNat]

theorem pyHex_length (b : Bytes) : (pyHex b).length = 2 * b.length := by
  induction b with
  | nil => rfl
  | cons x b ih =>
    show (hexDigit (x.toNat / 16) :: hexDigit (x.toNat % 16) :: pyHex b).length = _
    simp only [List.length_cons, ih]
    omega

/-- C56, hash objects: in every state `hexdigest` is the string of lower case hexadecimal digits
which stands for the result of `digest`; it has twice as many characters. -/
theorem C56_hash (s : HashObj) :
    unhex s.hexdigest = some s.digest ∧ s.hexdigest.length = 2 * s.digest.length :=
  ⟨unhex_pyHex _, pyHex_length _⟩

/-- C56, HMAC objects. -/
theorem C56_hmac (s : Hmac) :
    unhex s.hexdigest = some s.digest ∧ s.hexdigest.length = 2 * s.digest.length :=
  ⟨unhex_pyHex _, pyHex_length _⟩

/-- C56, objects of the MAC mode: `hexdigest` is accepted for exactly the sizes for which `digest`
is, has the same effect on the object and the same error. -/
theorem C56_mac (s : Mac) (n : Int) :
    (s.hexdigest n).1 = (s.digest n).1 ∧
    (∀ r, (s.digest n).2 = .ok r →
      ∃ t, (s.hexdigest n).2 = .ok t ∧ unhex t = some r ∧ t.length = 2 * r.length) ∧
    (∀ e, (s.digest n).2 = .error e → (s.hexdigest n).2 = .error e) := by
  rw [Mac.hexdigest_eq]
  refine ⟨rfl, ?_, ?_⟩
  · intro r h
    refine ⟨pyHex r, ?_, unhex_pyHex _, pyHex_length _⟩
    simp only [h]; rfl
  · intro e h
    simp only [h]; rfl

/-- C56, key derivation objects: `hexderive` against `derive`. -/
theorem C56_pbkdf (s : Pbkdf) (n : Int) :
    (s.hexderive n).1 = (s.derive n).1 ∧
    (∀ r, (s.derive n).2 = .ok r →
      ∃ t, (s.hexderive n).2 = .ok t ∧ unhex t = some r ∧ t.length = 2 * r.length) ∧
    (∀ e, (s.derive n).2 = .error e → (s.hexderive n).2 = .error e) := by
  unfold Pbkdf.hexderive
  rcases h : s.derive n with ⟨s', r | r⟩
  · refine ⟨rfl, ?_, ?_⟩
    · intro r' h'; cases h'
    · intro e h'; cases h'; rfl
  · refine ⟨rfl, ?_, ?_⟩
    · intro r' h'; cases h'; exact ⟨pyHex r, rfl, unhex_pyHex _, pyHex_length _⟩
    · intro e h'; cases h'

/-- The strings determine the results. -/
theorem C56_injective (a b : Bytes) : pyHex a = pyHex b ↔ a = b := by
  constructor
  · intro h
    have := unhex_pyHex a
    rw [h, unhex_pyHex b] at this
    exact (Option.some.inj this).symm
  · rintro rfl; rfl

example : unhex "00ff1a".toList = some [0, 255, 26] ∧ unhex "00FF".toList = none ∧
    pyHex [0, 255, 26] = "00ff1a".toList := by decide

/-! ### C57 -/

theorem hmacKey_append_zeros (k : Bytes) (m : Nat) (h : k.length + m ≤ 64) :
    hmacKey (k ++ List.replicate m 0) = hmacKey k := by
  unfold hmacKey
  rw [List.append_assoc, List.replicate_append_replicate]
  congr 2
  simp; omega

theorem hmacKey_eq_iff {k k' : Bytes} (hl : k.length ≤ k'.length) (hk : k'.length ≤ 64) :
    hmacKey k = hmacKey k' ↔ k' = k ++ List.replicate (k'.length - k.length) 0 := by
  constructor
  · intro h
    have h1 : (hmacKey k').take k'.length = k' := by unfold hmacKey; simp
    rw [← h] at h1
    refine h1.symm.trans ?_
    unfold hmacKey
    rw [List.take_append, List.take_of_length_le hl, List.take_replicate]
    congr 2
    omega
  · intro h
    rw [h, hmacKey_append_zeros k _ (by omega)]

/-- C57, HMAC. Two keys of up to 64 bytes make objects in the same state exactly when the longer
one is the shorter one followed by zero bytes. -/
theorem C57_hmac (name : String) (hname : IsHmacName name) (k k' : Bytes)
    (hl : k.length ≤ k'.length) (hk : k'.length ≤ 64) (data : Option PyVal) :
    (k' = k ++ List.replicate (k'.length - k.length) 0 →
      Hmac.new name (.bytes k') data = Hmac.new name (.bytes k) data) ∧
    (Hmac.new name (.bytes k') = Hmac.new name (.bytes k) →
      k' = k ++ List.replicate (k'.length - k.length) 0) := by
  constructor
  · intro h
    unfold Hmac.new
    rw [Hmac.initKey_ok name hname (.bytes k') k' rfl hk,
      Hmac.initKey_ok name hname (.bytes k) k rfl (by omega), (hmacKey_eq_iff hl hk).2 h]
  · intro h
    rw [Hmac.new_ok name hname (.bytes k') k' rfl hk,
      Hmac.new_ok name hname (.bytes k) k rfl (by omega)] at h
    have h' := congrArg (fun r => match r with | .ok s => Hmac.key s | .error _ => []) h
    exact (hmacKey_eq_iff hl hk).1 h'.symm

end Gost
