import Verif.Proofs.RoundTrip
import Verif.Props.Examples

/-! Properties C05 to C09, C11, C12 and C50: round trips and padding. `newCipher` is the model
of `gostcipher.new`; an object built again from the same arguments is the same value, so the
"fresh object" of the properties is the same `s`. -/

namespace Gost
open Spec (Alg)

/-! ### C05 -/

/-- C05. ECB: `new` succeeds, encryption succeeds, and a fresh object decrypts the ciphertext to
the padded plaintext. -/
theorem C05_ecb_round_trip (a : Alg) (kv mv : PyVal) (key msg : Bytes)
    (hk : kv.data? = some key) (hkl : key.length = 32) (hm : mv.data? = some msg)
    (pad : Int) (hp : pad = padMode1 ∨ pad = padMode2) :
    ∃ s ct out, newCipher a.name kv modeEcb (padMode := some pad) = .ok (.ecb s) ∧
      (s.encrypt mv).2 = .ok ct ∧
      (∀ cv : PyVal, cv.data? = some ct → (s.decrypt cv).2 = .ok out) ∧
      ct.length = out.length ∧
      (pad = padMode1 → Spec.ZeroPadded a.blockSize msg out) ∧
      (pad = padMode2 → Spec.MarkPadded a.blockSize msg out) := by
  obtain ⟨o, D, h1, _, h3, hI⟩ := new_ecb a kv key hk hkl pad hp none none
  obtain ⟨ct, e1, e2, e3⟩ := Ecb.round_trip ⟨o, pad⟩ hI hp mv msg hm
  refine ⟨_, ct, _, h1, by rw [e1], fun cv hcv => by rw [e3 cv hcv], e2, ?_, ?_⟩
  · rintro rfl
    rw [← h3]; exact zeroPadded_setPadding o.blockSize Implements.pos msg
  · rintro rfl
    rw [← h3]; exact markPadded_setPadding o.blockSize Implements.pos msg

/-- A case for C05: a message which is not a multiple of the block size. -/
example : ∃ s ct out, newCipher Alg.magma.name (.bytes Ex.key) modeEcb (padMode := some padMode2) =
      .ok (.ecb s) ∧ (s.encrypt (.bytearray (Ex.count 1 11))).2 = .ok ct ∧
      (s.decrypt (.bytes ct)).2 = .ok out ∧ out.take 12 = Ex.count 1 11 ++ [0x80] := by
  obtain ⟨s, ct, out, h1, h2, h3, _, _, h5⟩ := C05_ecb_round_trip .magma (.bytes Ex.key)
    (.bytearray (Ex.count 1 11)) _ _ rfl (by decide) rfl padMode2 (Or.inr rfl)
  obtain ⟨k, rfl, _⟩ := h5 rfl
  exact ⟨s, ct, _, h1, h2, h3 _ rfl, rfl⟩

/-! ### C06 -/

/-- C06. CBC with an initialisation vector of any positive number of blocks. -/
theorem C06_cbc_round_trip (a : Alg) (kv ivv mv : PyVal) (key iv msg : Bytes)
    (hk : kv.data? = some key) (hkl : key.length = 32) (hiv : ivv.data? = some iv)
    (hiv0 : 0 < iv.length) (hivl : iv.length % a.blockSize = 0) (hm : mv.data? = some msg)
    (pad : Int) (hp : pad = padMode1 ∨ pad = padMode2) :
    ∃ s ct out, newCipher a.name kv modeCbc (padMode := some pad) (initVect := some ivv) =
        .ok (.cbc s) ∧
      (s.encrypt mv).2 = .ok ct ∧
      (∀ cv : PyVal, cv.data? = some ct → (s.decrypt cv).2 = .ok out) ∧
      ct.length = out.length ∧
      (pad = padMode1 → Spec.ZeroPadded a.blockSize msg out) ∧
      (pad = padMode2 → Spec.MarkPadded a.blockSize msg out) := by
  obtain ⟨o, D, h1, _, h3, hI⟩ := new_cbc a kv ivv key iv hk hkl hiv hivl pad hp none
  have hR := goodReg_blocks (Alg.blockSize_pos a) hiv0 hivl
  rw [← h3] at hR
  obtain ⟨s', ct, e1, e2, e3⟩ := Cbc.round_trip ⟨o, iv, pad⟩ hI _ hR.1 hR.2.symm hp mv msg hm
  refine ⟨_, ct, _, h1, by rw [e1], fun cv hcv => by rw [e3 cv hcv], e2, ?_, ?_⟩
  · rintro rfl
    rw [← h3]; exact zeroPadded_setPadding o.blockSize Implements.pos msg
  · rintro rfl
    rw [← h3]; exact markPadded_setPadding o.blockSize Implements.pos msg

/-- A case for C06: an IV of two blocks, a message with a short last block. -/
example : ∃ s ct, newCipher Alg.kuznechik.name (.bytes Ex.key) modeCbc (padMode := some padMode1)
      (initVect := some (.bytes (Ex.count 9 32))) = .ok (.cbc s) ∧
      (s.encrypt (.bytes (Ex.count 1 20))).2 = .ok ct ∧ ct.length = 32 := by
  obtain ⟨s, ct, out, h1, h2, _, h4, h5, _⟩ := C06_cbc_round_trip .kuznechik (.bytes Ex.key)
    (.bytes (Ex.count 9 32)) (.bytes (Ex.count 1 20)) _ _ _ rfl (by decide) rfl (by decide)
    (by decide) rfl padMode1 (Or.inl rfl)
  obtain ⟨k, rfl, hd, hk, _⟩ := h5 rfl
  refine ⟨s, ct, h1, h2, ?_⟩
  have hk := hk (by decide)
  rw [h4]
  simp only [Alg.blockSize, List.length_append, List.length_replicate, Ex.count_length] at *
  omega

/-! ### C07 -/

/-- C07. CFB gives back the plaintext exactly. -/
theorem C07_cfb_round_trip (a : Alg) (kv ivv mv : PyVal) (key iv msg : Bytes)
    (hk : kv.data? = some key) (hkl : key.length = 32) (hiv : ivv.data? = some iv)
    (hiv0 : 0 < iv.length) (hivl : iv.length % a.blockSize = 0) (hm : mv.data? = some msg) :
    ∃ s ct, newCipher a.name kv modeCfb (initVect := some ivv) = .ok (.cfb s) ∧
      (Cfb.encrypt s mv).2 = .ok ct ∧ ct.length = msg.length ∧
      ∀ cv : PyVal, cv.data? = some ct → (Cfb.decrypt s cv).2 = .ok msg := by
  obtain ⟨o, D, h1, _, h3, hI⟩ := new_cfb a kv ivv key iv hk hkl hiv hivl none none
  have hR := goodReg_blocks (Alg.blockSize_pos a) hiv0 hivl
  rw [← h3] at hR
  obtain ⟨s', ct, e1, e2, e3⟩ := Cfb.round_trip ⟨o, iv⟩ hI _ hR.1 hR.2.symm mv msg hm
  exact ⟨_, ct, h1, by rw [e1], e2, fun cv hcv => by rw [e3 cv hcv]⟩

/-- A case for C07. -/
example : ∃ s ct, newCipher Alg.magma.name (.bytes Ex.key) modeCfb
      (initVect := some (.bytes (Ex.count 9 16))) = .ok (.cfb s) ∧
      (Cfb.encrypt s (.bytes (Ex.count 1 13))).2 = .ok ct ∧ ct.length = 13 ∧
      (Cfb.decrypt s (.bytes ct)).2 = .ok (Ex.count 1 13) := by
  obtain ⟨s, ct, h1, h2, h3, h4⟩ := C07_cfb_round_trip .magma (.bytes Ex.key)
    (.bytes (Ex.count 9 16)) (.bytes (Ex.count 1 13)) _ _ _ rfl (by decide) rfl (by decide)
    (by decide) rfl
  exact ⟨s, ct, h1, h2, h3, h4 _ rfl⟩

/-! ### C08 -/

/-- C08. OFB gives back the plaintext exactly. -/
theorem C08_ofb_round_trip (a : Alg) (kv ivv mv : PyVal) (key iv msg : Bytes)
    (hk : kv.data? = some key) (hkl : key.length = 32) (hiv : ivv.data? = some iv)
    (hiv0 : 0 < iv.length) (hivl : iv.length % a.blockSize = 0) (hm : mv.data? = some msg) :
    ∃ s ct, newCipher a.name kv modeOfb (initVect := some ivv) = .ok (.ofb s) ∧
      (Ofb.encrypt s mv).2 = .ok ct ∧ ct.length = msg.length ∧
      ∀ cv : PyVal, cv.data? = some ct → (Ofb.decrypt s cv).2 = .ok msg := by
  obtain ⟨o, D, h1, _, h3, hI⟩ := new_ofb a kv ivv key iv hk hkl hiv hivl none none
  have hR := goodReg_blocks (Alg.blockSize_pos a) hiv0 hivl
  rw [← h3] at hR
  obtain ⟨s', ct, e1, e2, e3⟩ := Ofb.round_trip ⟨o, iv⟩ hI _ hR.1 hR.2.symm mv msg hm
  exact ⟨_, ct, h1, by rw [e1], e2, fun cv hcv => by rw [e3 cv hcv]⟩

/-- A case for C08. -/
example : ∃ s ct, newCipher Alg.kuznechik.name (.bytes Ex.key) modeOfb
      (initVect := some (.bytearray (Ex.count 9 48))) = .ok (.ofb s) ∧
      (Ofb.encrypt s (.bytes (Ex.count 1 33))).2 = .ok ct ∧ ct.length = 33 ∧
      (Ofb.decrypt s (.bytes ct)).2 = .ok (Ex.count 1 33) := by
  obtain ⟨s, ct, h1, h2, h3, h4⟩ := C08_ofb_round_trip .kuznechik (.bytes Ex.key)
    (.bytearray (Ex.count 9 48)) (.bytes (Ex.count 1 33)) _ _ _ rfl (by decide) rfl (by decide)
    (by decide) rfl
  exact ⟨s, ct, h1, h2, h3, h4 _ rfl⟩

/-! ### C09 -/

/-- C09. CTR gives back the plaintext exactly. -/
theorem C09_ctr_round_trip (a : Alg) (kv ivv mv : PyVal) (key iv msg : Bytes)
    (hk : kv.data? = some key) (hkl : key.length = 32) (hiv : ivv.data? = some iv)
    (hivl : iv.length = a.blockSize / 2) (hm : mv.data? = some msg) :
    ∃ s ct, newCipher a.name kv modeCtr (initVect := some ivv) = .ok (.ctr s) ∧
      (s.encrypt mv).2 = .ok ct ∧ ct.length = msg.length ∧
      ∀ cv : PyVal, cv.data? = some ct → (s.decrypt cv).2 = .ok msg := by
  obtain ⟨o, D, h1, _, h3, hI⟩ := new_ctr a kv ivv key iv hk hkl hiv hivl none none
  obtain ⟨s', ct, e1, e2, e3⟩ := Ctr.round_trip ⟨o, iv, ctr0 a.blockSize iv⟩ hI
    (by simp only [h3]; exact ctr0_length a iv hivl) mv msg hm
  exact ⟨_, ct, h1, by rw [e1], e2, fun cv hcv => by rw [e3 cv hcv]⟩

/-- A case for C09. -/
example : ∃ s ct, newCipher Alg.magma.name (.bytes Ex.key) modeCtr
      (initVect := some (.bytearray (Ex.count 9 4))) = .ok (.ctr s) ∧
      (s.encrypt (.bytes (Ex.count 1 21))).2 = .ok ct ∧ ct.length = 21 ∧
      (s.decrypt (.bytes ct)).2 = .ok (Ex.count 1 21) := by
  obtain ⟨s, ct, h1, h2, h3, h4⟩ := C09_ctr_round_trip .magma (.bytes Ex.key)
    (.bytearray (Ex.count 9 4)) (.bytes (Ex.count 1 21)) _ _ _ rfl (by decide) rfl (by decide) rfl
  exact ⟨s, ct, h1, h2, h3, h4 _ rfl⟩

/-! ### C11 -/

theorem dropWhile_replicate (n : Nat) (l : Bytes) :
    (List.replicate n (0 : UInt8) ++ l).dropWhile (· == 0) = l.dropWhile (· == 0) := by
  induction n with
  | zero => rfl
  | succ n ih => simp [List.replicate_succ, ih]

theorem stripZeros_append (d : Bytes) (n : Nat) :
    Spec.stripZeros (d ++ List.replicate n 0) = Spec.stripZeros d := by
  unfold Spec.stripZeros
  rw [List.reverse_append, List.reverse_replicate, dropWhile_replicate]

theorem unpad_mark {n : Nat} {msg out : Bytes} (h : Spec.MarkPadded n msg out) :
    Spec.unpad out = msg := by
  obtain ⟨k, rfl, _⟩ := h
  unfold Spec.unpad
  rw [show msg ++ 0x80 :: List.replicate k 0 = (msg ++ [0x80]) ++ List.replicate k 0 by simp,
    stripZeros_append]
  unfold Spec.stripZeros
  simp

/-- C11, recovery, ECB and CBC, PAD_MODE_2: removing the zeros and the mark from the decryption
gives the message. -/
theorem C11_pad_mode_2_recover (a : Alg) (kv ivv mv : PyVal) (key iv msg : Bytes)
    (hk : kv.data? = some key) (hkl : key.length = 32) (hiv : ivv.data? = some iv)
    (hiv0 : 0 < iv.length) (hivl : iv.length % a.blockSize = 0) (hm : mv.data? = some msg) :
    (∃ s ct out, newCipher a.name kv modeEcb (padMode := some padMode2) = .ok (.ecb s) ∧
      (s.encrypt mv).2 = .ok ct ∧ (s.decrypt (.bytes ct)).2 = .ok out ∧ Spec.unpad out = msg) ∧
    (∃ s ct out, newCipher a.name kv modeCbc (padMode := some padMode2) (initVect := some ivv) =
        .ok (.cbc s) ∧
      (s.encrypt mv).2 = .ok ct ∧ (s.decrypt (.bytes ct)).2 = .ok out ∧ Spec.unpad out = msg) := by
  obtain ⟨s, ct, out, h1, h2, h3, _, _, h5⟩ :=
    C05_ecb_round_trip a kv mv key msg hk hkl hm padMode2 (Or.inr rfl)
  obtain ⟨s', ct', out', h1', h2', h3', _, _, h5'⟩ :=
    C06_cbc_round_trip a kv ivv mv key iv msg hk hkl hiv hiv0 hivl hm padMode2 (Or.inr rfl)
  exact ⟨⟨s, ct, out, h1, h2, h3 _ rfl, unpad_mark (h5 rfl)⟩,
    ⟨s', ct', out', h1', h2', h3' _ rfl, unpad_mark (h5' rfl)⟩⟩

/-- C11, ECB: equal ciphertexts mean equal messages (PAD_MODE_2) or messages which differ only
in trailing zeros (PAD_MODE_1). -/
theorem C11_ecb_injective (a : Alg) (kv m₁ m₂ : PyVal) (key msg₁ msg₂ : Bytes)
    (hk : kv.data? = some key) (hkl : key.length = 32) (hm₁ : m₁.data? = some msg₁)
    (hm₂ : m₂.data? = some msg₂) (pad : Int) (hp : pad = padMode1 ∨ pad = padMode2) (s : Ecb)
    (hs : newCipher a.name kv modeEcb (padMode := some pad) = .ok (.ecb s)) (ct : Bytes)
    (h₁ : (s.encrypt m₁).2 = .ok ct) (h₂ : (s.encrypt m₂).2 = .ok ct) :
    (pad = padMode2 → msg₁ = msg₂) ∧
    (pad = padMode1 → Spec.stripZeros msg₁ = Spec.stripZeros msg₂) := by
  obtain ⟨s1, ct1, out1, a1, a2, a3, _, a4, a5⟩ := C05_ecb_round_trip a kv m₁ key msg₁ hk hkl hm₁ pad hp
  obtain ⟨s2, ct2, out2, b1, b2, b3, _, b4, b5⟩ := C05_ecb_round_trip a kv m₂ key msg₂ hk hkl hm₂ pad hp
  rw [a1] at hs
  rw [a1] at b1
  cases b1
  cases hs
  rw [a2] at h₁
  rw [b2] at h₂
  cases h₁
  cases h₂
  have h := a3 (.bytes ct) rfl
  rw [b3 (.bytes ct) rfl] at h
  cases h
  constructor
  · intro e
    rw [← unpad_mark (a5 e), unpad_mark (b5 e)]
  · intro e
    obtain ⟨k, hk1, _⟩ := a4 e
    obtain ⟨k', hk2, _⟩ := b4 e
    rw [← stripZeros_append msg₁ k, ← hk1, hk2, stripZeros_append]

/-- C11, CBC. -/
theorem C11_cbc_injective (a : Alg) (kv ivv m₁ m₂ : PyVal) (key iv msg₁ msg₂ : Bytes)
    (hk : kv.data? = some key) (hkl : key.length = 32) (hiv : ivv.data? = some iv)
    (hiv0 : 0 < iv.length) (hivl : iv.length % a.blockSize = 0) (hm₁ : m₁.data? = some msg₁)
    (hm₂ : m₂.data? = some msg₂) (pad : Int) (hp : pad = padMode1 ∨ pad = padMode2) (s : Cbc)
    (hs : newCipher a.name kv modeCbc (padMode := some pad) (initVect := some ivv) = .ok (.cbc s))
    (ct : Bytes) (h₁ : (s.encrypt m₁).2 = .ok ct) (h₂ : (s.encrypt m₂).2 = .ok ct) :
    (pad = padMode2 → msg₁ = msg₂) ∧
    (pad = padMode1 → Spec.stripZeros msg₁ = Spec.stripZeros msg₂) := by
  obtain ⟨s1, ct1, out1, a1, a2, a3, _, a4, a5⟩ :=
    C06_cbc_round_trip a kv ivv m₁ key iv msg₁ hk hkl hiv hiv0 hivl hm₁ pad hp
  obtain ⟨s2, ct2, out2, b1, b2, b3, _, b4, b5⟩ :=
    C06_cbc_round_trip a kv ivv m₂ key iv msg₂ hk hkl hiv hiv0 hivl hm₂ pad hp
  rw [a1] at hs
  rw [a1] at b1
  cases b1
  cases hs
  rw [a2] at h₁
  rw [b2] at h₂
  cases h₁
  cases h₂
  have h := a3 (.bytes ct) rfl
  rw [b3 (.bytes ct) rfl] at h
  cases h
  constructor
  · intro e
    rw [← unpad_mark (a5 e), unpad_mark (b5 e)]
  · intro e
    obtain ⟨k, hk1, _⟩ := a4 e
    obtain ⟨k', hk2, _⟩ := b4 e
    rw [← stripZeros_append msg₁ k, ← hk1, hk2, stripZeros_append]

/-- A case for C11, and the reason for the weaker claim in PAD_MODE_1: `[1]` and `[1, 0]` do
give the same ciphertext there (Magma, ECB). -/
example : ∀ s, newCipher Alg.magma.name (.bytes Ex.key) modeEcb (padMode := some padMode1) =
      .ok (.ecb s) → s.encrypt (.bytes [1]) = s.encrypt (.bytes [1, 0]) := by
  intro s hs
  obtain ⟨o, D, h1, _, h3, hI⟩ := new_ecb .magma (.bytes Ex.key) _ rfl (by decide) padMode1
    (Or.inl rfl) none none
  rw [h1] at hs
  cases hs
  rw [Ecb.encrypt_ok _ hI _ _ rfl, Ecb.encrypt_ok _ hI _ _ rfl]
  simp only [h3]
  rfl

/-! ### C12 -/

/-- C12, exact behaviour of PAD_MODE_2 in ECB and CBC: a fresh object decrypts the ciphertext to
procedure 2 of the standard for a message of one or more whole blocks, and to procedure 2 followed
by one more block of zeros otherwise. -/
theorem C12_pad_mode_2_exact (a : Alg) (kv ivv mv : PyVal) (key iv msg : Bytes)
    (hk : kv.data? = some key) (hkl : key.length = 32) (hiv : ivv.data? = some iv)
    (hiv0 : 0 < iv.length) (hivl : iv.length % a.blockSize = 0) (hm : mv.data? = some msg) :
    (∃ s ct, newCipher a.name kv modeEcb (padMode := some padMode2) = .ok (.ecb s) ∧
      (s.encrypt mv).2 = .ok ct ∧
      (s.decrypt (.bytes ct)).2 = .ok (if msg ≠ [] ∧ msg.length % a.blockSize = 0
        then Spec.procedure2 a.blockSize msg
        else Spec.procedure2 a.blockSize msg ++ List.replicate a.blockSize 0)) ∧
    (∃ s ct, newCipher a.name kv modeCbc (padMode := some padMode2) (initVect := some ivv) =
        .ok (.cbc s) ∧
      (s.encrypt mv).2 = .ok ct ∧
      (s.decrypt (.bytes ct)).2 = .ok (if msg ≠ [] ∧ msg.length % a.blockSize = 0
        then Spec.procedure2 a.blockSize msg
        else Spec.procedure2 a.blockSize msg ++ List.replicate a.blockSize 0)) := by
  rw [← setPadding_procedure2 _ (Alg.blockSize_pos a)]
  constructor
  · obtain ⟨o, D, h1, _, h3, hI⟩ := new_ecb a kv key hk hkl padMode2 (Or.inr rfl) none none
    obtain ⟨ct, e1, e2, e3⟩ := Ecb.round_trip ⟨o, padMode2⟩ hI (Or.inr rfl) mv msg hm
    refine ⟨_, ct, h1, by rw [e1], ?_⟩
    rw [e3 _ rfl]
    simp only [h3]
  · obtain ⟨o, D, h1, _, h3, hI⟩ := new_cbc a kv ivv key iv hk hkl hiv hivl padMode2 (Or.inr rfl) none
    have hR := goodReg_blocks (Alg.blockSize_pos a) hiv0 hivl
    rw [← h3] at hR
    obtain ⟨s', ct, e1, e2, e3⟩ := Cbc.round_trip ⟨o, iv, padMode2⟩ hI _ hR.1 hR.2.symm (Or.inr rfl)
      mv msg hm
    refine ⟨_, ct, h1, by rw [e1], ?_⟩
    rw [e3 _ rfl]
    simp only [h3]

/-- C12 holds for block-aligned messages: what a fresh ECB object decrypts is procedure 2. The
rest of the claim is false, see `C12_negation`. -/
theorem C12_procedure_2_partial (a : Alg) (kv mv : PyVal) (key msg : Bytes)
    (hk : kv.data? = some key) (hkl : key.length = 32) (hm : mv.data? = some msg)
    (hne : msg ≠ []) (hal : msg.length % a.blockSize = 0) :
    ∃ s ct, newCipher a.name kv modeEcb (padMode := some padMode2) = .ok (.ecb s) ∧
      (s.encrypt mv).2 = .ok ct ∧
      (s.decrypt (.bytes ct)).2 = .ok (Spec.procedure2 a.blockSize msg) := by
  obtain ⟨o, D, h1, _, h3, hI⟩ := new_ecb a kv key hk hkl padMode2 (Or.inr rfl) none none
  obtain ⟨ct, e1, e2, e3⟩ := Ecb.round_trip ⟨o, padMode2⟩ hI (Or.inr rfl) mv msg hm
  refine ⟨_, ct, h1, by rw [e1], ?_⟩
  rw [e3 _ rfl]
  simp only [h3]
  rw [setPadding_procedure2 _ (Alg.blockSize_pos a), if_pos ⟨hne, hal⟩]

/-- C12 is false of the code: for every key and every message which is empty or not a multiple
of the block size, encryption uses a longer padding than procedure 2. -/
theorem C12_negation (a : Alg) (kv mv : PyVal) (key msg : Bytes)
    (hk : kv.data? = some key) (hkl : key.length = 32) (hm : mv.data? = some msg)
    (hbad : msg = [] ∨ msg.length % a.blockSize ≠ 0) :
    ∃ s ct out, newCipher a.name kv modeEcb (padMode := some padMode2) = .ok (.ecb s) ∧
      (s.encrypt mv).2 = .ok ct ∧ (s.decrypt (.bytes ct)).2 = .ok out ∧
      out ≠ Spec.procedure2 a.blockSize msg ∧
      ct.length = (Spec.procedure2 a.blockSize msg).length + a.blockSize := by
  obtain ⟨o, D, h1, _, h3, hI⟩ := new_ecb a kv key hk hkl padMode2 (Or.inr rfl) none none
  obtain ⟨ct, e1, e2, e3⟩ := Ecb.round_trip ⟨o, padMode2⟩ hI (Or.inr rfl) mv msg hm
  have hb := Alg.blockSize_pos a
  have hx := setPadding_procedure2 a.blockSize hb msg
  rw [if_neg (by rcases hbad with h | h <;> simp [h])] at hx
  refine ⟨_, ct, _, h1, by rw [e1], by rw [e3 _ rfl], ?_, ?_⟩
  · simp only [h3, hx]
    intro h
    have := congrArg List.length h
    simp at this
    omega
  · rw [e2]
    simp only [h3, hx]
    simp

/-- The smallest message of the negation. -/
example : setPadding 8 [0xaa] padMode2 = [0xaa, 0x80, 0, 0, 0, 0, 0, 0, 0, 0, 0, 0, 0, 0, 0, 0] ∧
    Spec.procedure2 8 [0xaa] = [0xaa, 0x80, 0, 0, 0, 0, 0, 0] := by decide

/-! ### C50 -/

theorem blocks_take (n : Nat) (hn : 0 < n) (d : Bytes) :
    Spec.blocks n (d.take (d.length / n * n)) = Spec.blocks n d := by
  have h := flatten_blocks_rest n hn d
  have hl : ∀ b ∈ Spec.blocks n d, b.length = n := fun b hb => mem_blocks_length hb
  have e : d.take (d.length / n * n) = (Spec.blocks n d).flatten := by
    have hlen := flatten_length_const n _ hl
    rw [blocks_length] at hlen
    conv => lhs; rw [← h]
    rw [show ((Spec.blocks n d).flatten ++ Spec.rest n d).length / n * n =
      (Spec.blocks n d).flatten.length by rw [h, hlen, Nat.mul_comm]]
    exact List.take_left' rfl
  rw [e, blocks_flatten n hn _ hl]

/-- C50, exact behaviour: decryption of any data succeeds and is the decryption of its whole
blocks; the bytes after the last whole block have no influence. -/
theorem C50_truncated_exact (a : Alg) (kv ivv cv : PyVal) (key iv d : Bytes)
    (hk : kv.data? = some key) (hkl : key.length = 32) (hiv : ivv.data? = some iv)
    (hiv0 : 0 < iv.length) (hivl : iv.length % a.blockSize = 0) (hd : cv.data? = some d)
    (pad : Int) (hp : pad = padMode1 ∨ pad = padMode2) :
    (∃ s out, newCipher a.name kv modeEcb (padMode := some pad) = .ok (.ecb s) ∧
      s.decrypt cv = (s, .ok out) ∧ out.length = d.length / a.blockSize * a.blockSize ∧
      s.decrypt (.bytes (d.take (d.length / a.blockSize * a.blockSize))) = (s, .ok out)) ∧
    (∃ s s' out, newCipher a.name kv modeCbc (padMode := some pad) (initVect := some ivv) =
        .ok (.cbc s) ∧
      s.decrypt cv = (s', .ok out) ∧ out.length = d.length / a.blockSize * a.blockSize ∧
      s.decrypt (.bytes (d.take (d.length / a.blockSize * a.blockSize))) = (s', .ok out)) := by
  have hpos := Alg.blockSize_pos a
  constructor
  · obtain ⟨o, D, h1, _, h3, hI⟩ := new_ecb a kv key hk hkl pad hp none none
    refine ⟨_, _, h1, Ecb.decrypt_ok _ hI cv d hd, ?_, ?_⟩
    · rw [flatten_length_const o.blockSize]
      · rw [List.length_map, blocks_length, Nat.mul_comm]
        simp only [h3]
      · intro b hb
        obtain ⟨c, hc, rfl⟩ := List.mem_map.1 hb
        exact hI.dec_len c (mem_blocks_length hc)
    · rw [Ecb.decrypt_ok _ hI _ _ rfl]
      simp only [h3, blocks_take _ hpos]
  · obtain ⟨o, D, h1, _, h3, hI⟩ := new_cbc a kv ivv key iv hk hkl hiv hivl pad hp none
    have hR := goodReg_blocks hpos hiv0 hivl
    rw [← h3] at hR
    refine ⟨_, _, _, h1, Cbc.decrypt_ok ⟨o, iv, pad⟩ hI _ hR.1 hR.2.symm cv d hd, ?_, ?_⟩
    · rw [flatten_length_const o.blockSize]
      · rw [mapAccum_length, blocks_length, Nat.mul_comm]
        simp only [h3]
      · exact (regRun_good o.blockSize o.blockSize (cbcG' D) sndB (fun _ _ _ hb => hb)
          (fun r b hr hb => by simp [cbcG', hr, hI.dec_len b hb]) _ _ hR.1
          (fun b hb => mem_blocks_length hb)).2
    · rw [Cbc.decrypt_ok ⟨o, iv, pad⟩ hI _ hR.1 hR.2.symm _ _ rfl]
      simp only [h3, blocks_take _ hpos]

/-- C50 is false of the code: for every key and every input whose length is not a multiple of
the block size, ECB decryption returns a shorter result instead of an error. -/
theorem C50_negation (a : Alg) (kv cv : PyVal) (key d : Bytes)
    (hk : kv.data? = some key) (hkl : key.length = 32) (hd : cv.data? = some d)
    (hbad : d.length % a.blockSize ≠ 0) :
    ∃ s out, newCipher a.name kv modeEcb (padMode := some padMode1) = .ok (.ecb s) ∧
      (s.decrypt cv).2 = .ok out ∧ out.length < d.length := by
  have hiv : ∃ iv : Bytes, 0 < iv.length ∧ iv.length % a.blockSize = 0 :=
    ⟨List.replicate a.blockSize 0, by simpa using Alg.blockSize_pos a, by simp⟩
  obtain ⟨iv, h0, h1⟩ := hiv
  obtain ⟨⟨s, out, e1, e2, e3, _⟩, _⟩ := C50_truncated_exact a kv (.bytes iv) cv key iv d hk hkl rfl
    h0 h1 hd padMode1 (Or.inl rfl)
  refine ⟨s, out, e1, by rw [e2], ?_⟩
  have := Nat.div_add_mod d.length a.blockSize
  rw [e3, Nat.mul_comm]
  omega

/-- Such an input. -/
example : (Ex.count 0 13).length % Alg.magma.blockSize ≠ 0 := by decide

/-- The part of C50 which holds: block-aligned input is preserved in full (for every such input,
no bytes are dropped). Missing: the error for other lengths, which the code does not raise. -/
theorem C50_aligned_partial (a : Alg) (kv cv : PyVal) (key d : Bytes)
    (hk : kv.data? = some key) (hkl : key.length = 32) (hd : cv.data? = some d)
    (hal : d.length % a.blockSize = 0) :
    ∃ s out, newCipher a.name kv modeEcb (padMode := some padMode1) = .ok (.ecb s) ∧
      (s.decrypt cv).2 = .ok out ∧ out.length = d.length := by
  have hiv : ∃ iv : Bytes, 0 < iv.length ∧ iv.length % a.blockSize = 0 :=
    ⟨List.replicate a.blockSize 0, by simpa using Alg.blockSize_pos a, by simp⟩
  obtain ⟨iv, h0, h1⟩ := hiv
  obtain ⟨⟨s, out, e1, e2, e3, _⟩, _⟩ := C50_truncated_exact a kv (.bytes iv) cv key iv d hk hkl rfl
    h0 h1 hd padMode1 (Or.inl rfl)
  refine ⟨s, out, e1, by rw [e2], ?_⟩
  have := Nat.div_add_mod d.length a.blockSize
  rw [e3, Nat.mul_comm]
  omega

end Gost
