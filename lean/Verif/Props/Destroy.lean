import Verif.Model.Destroy
import Verif.Props.Memory
import Verif.Props.BlockDirect
import Verif.Props.Pbkdf

/-! Property C89: the destruction of objects, complete or not. -/

namespace Gost
open Spec (Alg)

/-- A byte string which holds nothing but copies of the text `/x00`. -/
def Spec.Filled (b : Bytes) : Prop := ∃ n, b = (List.replicate n ([0x2f, 0x78, 0x30, 0x30] : Bytes)).flatten

theorem filled_zeroFill (b : Bytes) : Spec.Filled (zeroFill b) := ⟨b.length, rfl⟩

/-- The object has all its round keys. -/
def CipherObj.Full : CipherObj → Prop
  | .kuz ks => ks.length = 10
  | .magma ks => ks.length = 32

theorem CipherObj.Full.clear {o : CipherObj} (h : o.Full) : o.clear.Full := by
  cases o with
  | kuz ks => exact (List.length_map _).trans h
  | magma ks => exact (List.length_map _).trans h

/-! ### The loop of `clear` -/

theorem clearLoop_split (m : Nat) (pre post : List Bytes) :
    clearLoop (List.range' pre.length m) (pre ++ post) =
      (pre ++ ((post.take m).map zeroFill ++ post.drop m),
        if m ≤ post.length then .quiet else .indexError) := by
  induction m generalizing pre post with
  | zero => simp [clearLoop]
  | succ m ih =>
    rw [List.range'_succ]
    cases post with
    | nil =>
      unfold clearLoop
      rw [pyGet_out _ _ (by simp)]
      simp
    | cons k post =>
      unfold clearLoop
      rw [pyGet_getD _ _ [] (by simp)]
      have h1 : (pre ++ k :: post).getD pre.length [] = k := by simp
      have h2 : (pre ++ k :: post).set pre.length (zeroFill k) = (pre ++ [zeroFill k]) ++ post := by simp
      have h3 : pre.length + 1 = (pre ++ [zeroFill k]).length := by simp
      dsimp only
      rw [h1, h2, h3, ih]
      simp

theorem clearLoop_range (n : Nat) (ks : List Bytes) :
    clearLoop (List.range n) ks =
      ((ks.take n).map zeroFill ++ ks.drop n, if n ≤ ks.length then .quiet else .indexError) := by
  rw [List.range_eq_range']
  exact clearLoop_split n [] ks

theorem clearLoop_all (n : Nat) (ks : List Bytes) (h : ks.length ≤ n) :
    clearLoop (List.range n) ks = (ks.map zeroFill, if ks.length = n then .quiet else .indexError) := by
  rw [clearLoop_range, List.take_of_length_le h, List.drop_of_length_le h, List.append_nil]
  by_cases e : ks.length = n
  · rw [if_pos (by omega), if_pos e]
  · rw [if_neg (by omega), if_neg e]

theorem CipherObj.Full.del {o : CipherObj} (h : o.Full) : o.del = (o.clear, .quiet) := by
  cases o with
  | kuz ks =>
    show (CipherObj.kuz (clearLoop (List.range 10) ks).1, (clearLoop (List.range 10) ks).2) = _
    rw [clearLoop_all 10 ks (Nat.le_of_eq h), if_pos (show ks.length = 10 from h)]
    rfl
  | magma ks =>
    show (CipherObj.magma (clearLoop (List.range 32) ks).1, (clearLoop (List.range 32) ks).2) = _
    rw [clearLoop_all 32 ks (Nat.le_of_eq h), if_pos (show ks.length = 32 from h)]
    rfl

theorem filled_clear (o : CipherObj) : ∀ k ∈ o.clear.keys, Spec.Filled k := by
  cases o with
  | kuz ks =>
    intro k hk
    obtain ⟨x, _, rfl⟩ := List.mem_map.1 hk
    exact filled_zeroFill x
  | magma ks =>
    intro k hk
    obtain ⟨x, _, rfl⟩ := List.mem_map.1 hk
    exact filled_zeroFill x

/-! ### The attributes and the results of the constructors -/

theorem baseInit_full {alg : String} {kv : PyVal} {o : CipherObj} (h : baseInit alg kv = .ok o) : o.Full := by
  obtain ⟨a, key, rfl, hk, hl⟩ := baseInit_inv h
  have hc : (!checkValue kv 32) = false := by rw [checkValue_data hk, hl]; rfl
  cases a with
  | kuznechik =>
    unfold baseInit at h
    rw [if_neg (by simp [Alg.name]), hc, hk] at h
    simp only [Alg.name, Bool.false_eq_true, if_false, if_true, Kuz.init_ok key hl, Res.bind_ok,
      Res.pure_eq] at h
    cases h
    show ((List.range 10).map (Spec.Kuz.roundKey key)).length = 10
    simp
  | magma =>
    obtain ⟨ks, h1, h2, h3, _⟩ := Magma.init_ok key hl
    unfold baseInit at h
    rw [if_neg (by simp [Alg.name]), hc, hk] at h
    have hne : ¬ ("magma" = "kuznechik") := by decide
    simp only [Alg.name, Bool.false_eq_true, if_false, hne, h1, Res.bind_ok, Res.pure_eq] at h
    cases h
    exact h2.1

/-- The result of a constructor without the object. -/
def ended {α : Type} : Res α → Res Unit
  | .ok _ => .ok ()
  | .error e => .error e

/-- The attributes are those of a complete object, or of none. -/
def AttrsOk (a : Option CipherObj × Res Unit) : Prop := ∀ o, a.1 = some o → o.Full

theorem paddingAttrs_spec (alg : String) (kv : PyVal) (pad : Int) :
    AttrsOk (paddingAttrs alg kv pad) ∧
    (paddingAttrs alg kv pad).2 = ended (Ecb.init alg kv pad) ∧
    (∀ s, Ecb.init alg kv pad = .ok s → (paddingAttrs alg kv pad).1 = some s.obj) := by
  unfold paddingAttrs baseAttrs Ecb.init AttrsOk
  cases hb : baseInit alg kv with
  | error e =>
    refine ⟨fun o h => ?_, rfl, fun s h => ?_⟩
    · cases h
    · cases h
  | ok o =>
    have hf := baseInit_full hb
    simp only [Res.bind_ok]
    split
    · refine ⟨fun o' h => ?_, rfl, fun s h => ?_⟩
      · cases h; exact hf.clear
      · cases h
    · refine ⟨fun o' h => ?_, rfl, fun s h => ?_⟩
      · cases h; exact hf
      · cases h; rfl

theorem feedbackAttrs_spec (old : Option CipherObj) (ho : ∀ o, old = some o → o.Full) (alg : String) (kv iv : PyVal) :
    AttrsOk (feedbackAttrs old alg kv iv) ∧
    (feedbackAttrs old alg kv iv).2 = ended (Fb.init alg kv iv) ∧
    (∀ s, Fb.init alg kv iv = .ok s → (feedbackAttrs old alg kv iv).1 = some s.obj) := by
  unfold feedbackAttrs Fb.init AttrsOk
  cases hb : baseInit alg kv with
  | error e =>
    refine ⟨fun o h => ho o h, rfl, fun s h => ?_⟩
    cases h
  | ok o =>
    have hf := baseInit_full hb
    simp only [Res.bind_ok]
    cases checkIv o.blockSize iv with
    | error e =>
      refine ⟨fun o' h => ?_, rfl, fun s h => ?_⟩
      · cases h; exact hf.clear
      · cases h
    | ok v =>
      refine ⟨fun o' h => ?_, rfl, fun s h => ?_⟩
      · cases h; exact hf
      · cases h; rfl

theorem cbcAttrs_spec (alg : String) (kv iv : PyVal) (pad : Int) :
    AttrsOk (cbcAttrs alg kv iv pad) ∧
    (cbcAttrs alg kv iv pad).2 = ended (Cbc.init alg kv iv pad) ∧
    (∀ s, Cbc.init alg kv iv pad = .ok s → (cbcAttrs alg kv iv pad).1 = some s.obj) := by
  have hp := paddingAttrs_spec alg kv pad
  unfold cbcAttrs Cbc.init
  generalize paddingAttrs alg kv pad = p at hp ⊢
  obtain ⟨a, r⟩ := p
  obtain ⟨h1, h2, h3⟩ := hp
  cases he : Ecb.init alg kv pad with
  | error e =>
    rw [he] at h2
    cases h2
    refine ⟨h1, rfl, fun s h => ?_⟩
    cases h
  | ok e =>
    rw [he] at h2
    cases h2
    have hf := feedbackAttrs_spec a h1 alg kv iv
    unfold Fb.init at hf
    simp only [Res.bind_ok]
    refine ⟨hf.1, ?_, fun s h => ?_⟩
    · rw [hf.2.1]
      cases baseInit alg kv with
      | error e => rfl
      | ok o =>
        simp only [Res.bind_ok]
        cases checkIv o.blockSize iv <;> rfl
    · obtain ⟨o, ho, h⟩ := Res.bind_eq_ok h
      obtain ⟨v, hv, h⟩ := Res.bind_eq_ok h
      cases h
      exact hf.2.2 ⟨o, v⟩ (by rw [ho, Res.bind_ok, hv]; rfl)

theorem ctrAttrs_spec (alg : String) (kv iv : PyVal) :
    AttrsOk (ctrAttrs alg kv iv) ∧
    (ctrAttrs alg kv iv).2 = ended (Ctr.init alg kv iv) ∧
    (∀ s, Ctr.init alg kv iv = .ok s → (ctrAttrs alg kv iv).1 = some s.obj) := by
  unfold ctrAttrs Ctr.init AttrsOk
  cases hb : baseInit alg kv with
  | error e =>
    refine ⟨fun o h => ?_, rfl, fun s h => ?_⟩
    · cases h
    · cases h
  | ok o =>
    have hf := baseInit_full hb
    simp only [Res.bind_ok]
    cases iv.data? with
    | none =>
      refine ⟨fun o' h => ?_, rfl, fun s h => ?_⟩
      · cases h; exact hf.clear
      · cases h
    | some v =>
      dsimp only
      split
      · refine ⟨fun o' h => ?_, rfl, fun s h => ?_⟩
        · cases h; exact hf.clear
        · cases h
      · refine ⟨fun o' h => ?_, rfl, fun s h => ?_⟩
        · cases h; exact hf
        · cases h; rfl

theorem macAttrs_spec (alg : String) (kv data : PyVal) :
    AttrsOk (macAttrs alg kv data) ∧
    (macAttrs alg kv data).2 = ended (Mac.init alg kv data) ∧
    (∀ s, Mac.init alg kv data = .ok s → (macAttrs alg kv data).1 = some s.obj) := by
  unfold macAttrs Mac.init AttrsOk
  cases hb : baseInit alg kv with
  | error e =>
    refine ⟨fun o h => ?_, rfl, fun s h => ?_⟩
    · cases h
    · cases h
  | ok o =>
    have hf := baseInit_full hb
    simp only [Res.bind_ok]
    cases he : o.encrypt (zeros o.blockSize) with
    | error e =>
      refine ⟨fun o' h => ?_, rfl, fun s h => ?_⟩
      · cases h; exact hf
      · cases h
    | ok r =>
      simp only [Res.bind_ok]
      cases hk : Mac.getMacKey o.blockSize r with
      | error e =>
        refine ⟨fun o' h => ?_, rfl, fun s h => ?_⟩
        · cases h; exact hf
        · cases h
      | ok k =>
        obtain ⟨k1, k2⟩ := k
        simp only [Res.bind_ok]
        split
        · refine ⟨fun o' h => ?_, rfl, fun s h => ?_⟩
          · cases h; exact hf
          · cases h; rfl
        · have hu := Mac.update_clears ⟨o, k1, k2, [], [], zeros o.blockSize, zeros o.blockSize⟩ data
          generalize Mac.update ⟨o, k1, k2, [], [], zeros o.blockSize, zeros o.blockSize⟩ data = u at hu ⊢
          obtain ⟨s', u⟩ := u
          refine ⟨fun o' h => ?_, ?_, fun s h => ?_⟩
          · cases h
            dsimp only at hu ⊢
            rw [hu]
            split
            · exact hf.clear
            · exact hf
          · cases u <;> rfl
          · cases u with
            | error e => cases h
            | ok u => cases h; rfl

theorem newAttrs_spec (alg : String) (kv : PyVal) (mode : Int) (pad : Option Int) (iv dat : Option PyVal) :
    AttrsOk (newAttrs alg kv mode pad iv dat) ∧
    (newAttrs alg kv mode pad iv dat).2 = ended (newCipher alg kv mode pad iv dat) ∧
    (∀ c, newCipher alg kv mode pad iv dat = .ok c → (newAttrs alg kv mode pad iv dat).1 = some c.obj) := by
  have lift : ∀ {σ : Type} (r : Res σ) (f : σ → Cipher) (a : Option CipherObj × Res Unit) (g : σ → CipherObj),
      (∀ s, (f s).obj = g s) → (AttrsOk a ∧ a.2 = ended r ∧ ∀ s, r = .ok s → a.1 = some (g s)) →
      AttrsOk a ∧ a.2 = ended (r >>= fun s => pure (f s)) ∧
        ∀ c, (r >>= fun s => pure (f s)) = .ok c → a.1 = some c.obj := by
    intro σ r f a g hg h
    refine ⟨h.1, ?_, fun c hc => ?_⟩
    · rw [h.2.1]; cases r <;> rfl
    · obtain ⟨s, hs, hc⟩ := Res.bind_eq_ok hc
      cases hc
      rw [hg]
      exact h.2.2 s hs
  unfold newAttrs newCipher
  dsimp only
  split
  · exact lift _ Cipher.ecb _ (·.obj) (fun _ => rfl) (paddingAttrs_spec _ _ _)
  split
  · exact lift _ Cipher.cbc _ (·.obj) (fun _ => rfl) (cbcAttrs_spec _ _ _ _)
  by_cases h3 : mode = modeCfb
  · rw [if_pos (Or.inl h3), if_pos h3]
    exact lift _ Cipher.cfb _ (·.obj) (fun _ => rfl) (feedbackAttrs_spec none (fun o h => by cases h) _ _ _)
  rw [if_neg h3]
  by_cases h5 : mode = modeOfb
  · rw [if_pos (Or.inr h5), if_pos h5]
    exact lift _ Cipher.ofb _ (·.obj) (fun _ => rfl) (feedbackAttrs_spec none (fun o h => by cases h) _ _ _)
  rw [if_neg h5, if_neg (fun h => h.elim h3 h5)]
  split
  · exact lift _ Cipher.ctr _ (·.obj) (fun _ => rfl) (ctrAttrs_spec _ _ _)
  split
  · exact lift _ Cipher.mac _ (·.obj) (fun _ => rfl) (macAttrs_spec _ _ _)
  · refine ⟨fun o h => ?_, rfl, fun c h => ?_⟩
    · cases h
    · cases h

theorem after_full (c : Cipher) (h : c.obj.Full) (ms : List MethodCall) : (ms.foldl Cipher.after c).obj.Full := by
  induction ms generalizing c with
  | nil => exact h
  | cons m ms ih =>
    rw [List.foldl_cons]
    refine ih _ ?_
    rw [after_obj]
    split
    · exact h.clear
    · exact h

/-- What C89 asks of a destruction, `o` being the object and `filled` its secret attributes afterwards. -/
def modeQuiet (a : Option CipherObj) : Prop :=
  (modeDel a).2 = .quiet ∧ ((modeDel a).1.isSome ↔ a.isSome) ∧
    ∀ o, (modeDel a).1 = some o → ∀ k ∈ o.keys, Spec.Filled k

theorem modeQuiet_of {a : Option CipherObj} (h : ∀ o, a = some o → o.Full) : modeQuiet a := by
  cases a with
  | none => exact ⟨rfl, Iff.rfl, fun o h => by cases h⟩
  | some o =>
    have := (h o rfl).del
    have e : modeDel (some o) = (some o.clear, .quiet) := by
      show (some o.del.1, o.del.2) = _
      rw [this]
    unfold modeQuiet
    rw [e]
    refine ⟨rfl, by simp, fun o' h => ?_⟩
    cases h
    exact filled_clear o

/-- C89, cipher objects: whatever the arguments of `new`, the object it leaves behind when it raises and the one it
returns, after any calls, are destroyed without an exception and all round keys are overwritten. -/
theorem C89_cipher (alg : String) (kv : PyVal) (mode : Int) (pad : Option Int) (iv dat : Option PyVal) :
    (newAttrs alg kv mode pad iv dat).2 = ended (newCipher alg kv mode pad iv dat) ∧
    modeQuiet (newAttrs alg kv mode pad iv dat).1 ∧
    ∀ c, newCipher alg kv mode pad iv dat = .ok c →
      (newAttrs alg kv mode pad iv dat).1 = some c.obj ∧
      ∀ ms : List MethodCall, modeQuiet (some (ms.foldl Cipher.after c).obj) := by
  obtain ⟨h1, h2, h3⟩ := newAttrs_spec alg kv mode pad iv dat
  refine ⟨h2, modeQuiet_of h1, fun c hc => ⟨h3 c hc, fun ms => modeQuiet_of fun o ho => ?_⟩⟩
  cases ho
  exact after_full c (h1 _ (h3 c hc)) ms

/-! ### The block cipher classes used directly -/

theorem Kuz.initKeys_long (key : Bytes) (h : 32 ≤ key.length) :
    Kuz.initKeys key = ((List.range 10).map (Spec.Kuz.roundKey key), .ok ()) := by
  have step : ∀ i, i < 4 → (List.range 8).foldlM
      (fun k j => keyStep ((List.range 32).map fun i => Spec.Kuz.C (i + 1)) k (i * 8 + j))
        (Spec.Kuz.keyPair key i) = .ok (Spec.Kuz.keyPair key (i + 1)) := by
    intro i hi
    have := foldlM_ok
      (fun k j => keyStep ((List.range 32).map fun i => Spec.Kuz.C (i + 1)) k (i * 8 + j))
      (fun a j => Spec.Kuz.F (Spec.Kuz.C (8 * i + j + 1)) a)
      (fun a => a.1.length = 16 ∧ 16 ≤ a.2.length) (List.range 8) (Spec.Kuz.keyPair key i)
      (keyPair_long key h i)
      (fun b hb j hj => by
        have hj8 : j < 8 := by simpa using hj
        refine ⟨?_, F_long _ _ (C_length _) hb.1 hb.2⟩
        rw [keyStep_ok _ (by omega) _ hb.1, Nat.mul_comm i 8])
    exact this.1
  unfold Kuz.initKeys
  rw [getC_ok]
  have e1 : pyUpto key 16 = key.take 16 := pyUpto_nat key 16
  have e2 : pyFrom key 16 = key.drop 16 := pyFrom_nat key 16
  dsimp only
  rw [e1, e2]
  have r4 : List.range 4 = [0, 1, 2, 3] := rfl
  have k0 : Spec.Kuz.keyPair key 0 = (key.take 16, key.drop 16) := rfl
  have s0 := step 0 (by omega)
  have s1 := step 1 (by omega)
  have s2 := step 2 (by omega)
  have s3 := step 3 (by omega)
  rw [k0] at s0
  simp only [r4, appendLoop]
  rw [s0]; simp only [Res.bind_ok, Res.pure_eq]
  rw [s1]; simp only [Res.bind_ok]
  rw [s2]; simp only [Res.bind_ok]
  rw [s3]; simp only [Res.bind_ok]
  have r10 : List.range 10 = [0, 1, 2, 3, 4, 5, 6, 7, 8, 9] := rfl
  rw [r10]
  simp [Spec.Kuz.roundKey, k0]

theorem Kuz.initKeys_short (key : Bytes) (h : key.length < 32) :
    Kuz.initKeys key = ([key.take 16, key.drop 16], .error .indexError) := by
  unfold Kuz.initKeys
  rw [getC_ok]
  have e1 : pyUpto key 16 = key.take 16 := pyUpto_nat key 16
  have e2 : pyFrom key 16 = key.drop 16 := pyFrom_nat key 16
  dsimp only
  rw [e1, e2]
  have short : ∀ (k : Bytes × Bytes) (n : Nat), n < 32 → k.1.length < 16 →
      keyStep ((List.range 32).map fun i => Spec.Kuz.C (i + 1)) k n = .error .indexError := by
    intro k n hn hk
    unfold keyStep
    rw [pyGet_nat _ n (by simpa using hn)]
    simp only [Res.bind_ok]
    rw [cipherS_short _ (by rw [addXor_length]; omega), Res.bind_error]
  have r8 : List.range 8 = 0 :: 1 :: List.range' 2 6 := rfl
  have hin : (List.range 8).foldlM
      (fun k j => keyStep ((List.range 32).map fun i => Spec.Kuz.C (i + 1)) k (0 * 8 + j))
        (key.take 16, key.drop 16) = .error .indexError := by
    rw [r8, List.foldlM_cons]
    by_cases h16 : key.length < 16
    · rw [short _ _ (by omega) (by simp; omega), Res.bind_error]
    · rw [keyStep_ok _ (by omega) _ (by simp; omega), Res.bind_ok, List.foldlM_cons,
        short _ _ (by omega), Res.bind_error]
      simp only [Spec.Kuz.F, xor_eq, addXor_length, List.length_drop]
      omega
  have r4 : List.range 4 = 0 :: List.range' 1 3 := rfl
  rw [r4, appendLoop, hin]
  simp only [Res.bind_error]

/-- The loop of Magma, for a list of offsets. -/
theorem Magma.appendLoop_words (key : Bytes) (offs rest : List Nat) (ks : List Bytes)
    (h : ∀ o ∈ offs, o + 4 ≤ key.length) :
    appendLoop (fun (_ : Unit) off => do
        let w ← Magma.keyWord key off
        pure ((), [w])) (offs ++ rest) () ks =
      appendLoop (fun (_ : Unit) off => do
        let w ← Magma.keyWord key off
        pure ((), [w])) rest () (ks ++ offs.map fun o => (key.drop o).take 4) := by
  induction offs generalizing ks with
  | nil => simp
  | cons o offs ih =>
    rw [List.cons_append, appendLoop, keyWord_long key o (h o (by simp)), Res.bind_ok]
    refine (ih _ (fun x hx => h x (by simp [hx]))).trans ?_
    simp

theorem Magma.initKeys_short (key : Bytes) (h : key.length < 32) :
    Magma.initKeys key =
      ((List.range (key.length / 4)).map (fun j => (key.drop (4 * j)).take 4), .error .indexError) := by
  have hq : key.length / 4 < 8 := by omega
  have : (List.range 8).map (· * 4) = (List.range (key.length / 4)).map (· * 4) ++
      (key.length / 4 * 4) :: (List.range' (key.length / 4 + 1) (7 - key.length / 4)).map (· * 4) := by
    rw [← List.map_cons (f := (· * 4)), ← List.map_append]
    congr 1
    rw [List.range_eq_range', List.range_eq_range', ← List.range'_succ]
    have := List.range'_append (s := 0) (m := key.length / 4) (n := 7 - key.length / 4 + 1) (step := 1)
    rw [show 0 + 1 * (key.length / 4) = key.length / 4 by omega] at this
    rw [this]
    congr 1; omega
  unfold Magma.initKeys
  generalize hrest : (List.range 8).map (28 - · * 4) = last
  rw [List.append_assoc, List.append_assoc]
  generalize (List.range 8).map (· * 4) ++ ((List.range 8).map (· * 4) ++ last) = more
  rw [this, List.append_assoc, Magma.appendLoop_words key _ _ _ ?_, List.cons_append, appendLoop,
    keyWord_short key _ (by omega), Res.bind_error]
  · simp only [List.nil_append, List.map_map]
    congr 1
    apply List.map_congr_left
    intro j _
    simp [Nat.mul_comm]
  · intro o ho
    obtain ⟨j, hj, rfl⟩ := List.mem_map.1 ho
    have : j < key.length / 4 := by simpa using hj
    omega

theorem Magma.initKeys_long (key : Bytes) (h : 32 ≤ key.length) :
    ∃ ks, Magma.initKeys key = (ks, .ok ()) ∧ Magma.init key = .ok ks ∧ ks.length = 32 := by
  have hall := Magma.appendLoop_words key
    ((List.range 8).map (· * 4) ++ (List.range 8).map (· * 4) ++ (List.range 8).map (· * 4) ++
      (List.range 8).map (28 - · * 4)) [] [] (by
        intro o ho
        simp only [List.mem_append, List.mem_map, List.mem_range] at ho
        rcases ho with ((⟨j, hj, rfl⟩ | ⟨j, hj, rfl⟩) | ⟨j, hj, rfl⟩) | ⟨j, hj, rfl⟩ <;> omega)
  rw [List.append_nil, appendLoop] at hall
  refine ⟨_, hall, ?_, by simp⟩
  have e1 : expand key = .ok ((List.range 8).map fun j => (key.drop (j * 4)).take 4) := by
    unfold expand
    rw [mapM_ok _ (fun j => (key.drop (j * 4)).take 4)]
    intro j hj
    have hj8 : j < 8 := by simpa using hj
    rw [keyWord_long key _ (by omega)]
  have e2 : expandFinal key = .ok ((List.range 8).map fun j => (key.drop (28 - j * 4)).take 4) := by
    unfold expandFinal
    rw [mapM_ok _ (fun j => (key.drop (28 - j * 4)).take 4)]
    intro j hj
    have hj8 : j < 8 := by simpa using hj
    rw [keyWord_long key _ (by omega)]
  unfold Magma.init
  simp only [e1, e2, Res.bind_ok, Res.pure_eq, List.map_append, List.map_map]
  simp [Function.comp_def]

/-- C89, Kuznechik used directly: how the constructor ends, the round keys it leaves, and how the destruction ends. The
round keys which exist are overwritten in every case. -/
theorem C89_kuznechik (key : Bytes) :
    (Kuz.initKeys key).2 = ended (Kuz.init key) ∧
    (32 ≤ key.length → Kuz.init key = .ok (Kuz.initKeys key).1 ∧ (CipherObj.kuz (Kuz.initKeys key).1).del.2 = .quiet) ∧
    (key.length < 32 → (Kuz.initKeys key).1 = [key.take 16, key.drop 16] ∧
      (CipherObj.kuz (Kuz.initKeys key).1).del.2 = .indexError) ∧
    (CipherObj.kuz (Kuz.initKeys key).1).del.1.keys.length = (Kuz.initKeys key).1.length ∧
    ∀ k ∈ (CipherObj.kuz (Kuz.initKeys key).1).del.1.keys, Spec.Filled k := by
  by_cases h : 32 ≤ key.length
  · rw [Kuz.initKeys_long key h, Kuz.init_long key h]
    have hf : (CipherObj.kuz ((List.range 10).map (Spec.Kuz.roundKey key))).Full := by
      show List.length _ = 10; simp
    rw [hf.del]
    refine ⟨rfl, fun _ => ⟨rfl, rfl⟩, fun h' => by omega, ?_, filled_clear (.kuz _)⟩
    show (List.map _ _).length = _; simp
  · rw [Kuz.initKeys_short key (by omega), Kuz.init_short key (by omega)]
    have hd : (CipherObj.kuz [key.take 16, key.drop 16]).del =
        ((CipherObj.kuz [key.take 16, key.drop 16]).clear, .indexError) := rfl
    dsimp only
    rw [hd]
    exact ⟨rfl, fun h' => absurd h' h, fun _ => ⟨rfl, rfl⟩, rfl, filled_clear (.kuz _)⟩

/-- C89, Magma used directly. A short key leaves one round key for every four bytes. -/
theorem C89_magma (key : Bytes) :
    (Magma.initKeys key).2 = ended (Magma.init key) ∧
    (32 ≤ key.length →
      Magma.init key = .ok (Magma.initKeys key).1 ∧ (CipherObj.magma (Magma.initKeys key).1).del.2 = .quiet) ∧
    (key.length < 32 → (Magma.initKeys key).1 = (List.range (key.length / 4)).map (fun j => (key.drop (4 * j)).take 4) ∧
      (CipherObj.magma (Magma.initKeys key).1).del.2 = .indexError) ∧
    (CipherObj.magma (Magma.initKeys key).1).del.1.keys.length = (Magma.initKeys key).1.length ∧
    ∀ k ∈ (CipherObj.magma (Magma.initKeys key).1).del.1.keys, Spec.Filled k := by
  by_cases h : 32 ≤ key.length
  · obtain ⟨ks, h1, h2, h3⟩ := Magma.initKeys_long key h
    rw [h1, h2]
    have hf : (CipherObj.magma ks).Full := h3
    rw [hf.del]
    refine ⟨rfl, fun _ => ⟨rfl, rfl⟩, fun h' => by omega, ?_, filled_clear (.magma _)⟩
    show (List.map _ _).length = _; simp
  · rw [Magma.initKeys_short key (by omega), Magma.init_short key (by omega)]
    have hl : ((List.range (key.length / 4)).map (fun j => (key.drop (4 * j)).take 4)).length < 32 := by
      rw [List.length_map, List.length_range]; omega
    generalize (List.range (key.length / 4)).map (fun j => (key.drop (4 * j)).take 4) = ks at hl ⊢
    have hd : (CipherObj.magma ks).del = ((CipherObj.magma ks).clear, .indexError) := by
      show (CipherObj.magma (clearLoop (List.range 32) ks).1, (clearLoop (List.range 32) ks).2) = _
      rw [clearLoop_all _ _ (Nat.le_of_lt hl), if_neg (by omega)]
      rfl
    dsimp only
    rw [hd]
    refine ⟨rfl, fun h' => absurd h' h, fun _ => ⟨rfl, rfl⟩, ?_, filled_clear (.magma _)⟩
    show (List.map _ _).length = _; simp

/-! ### HMAC, PBKDF and generator -/

/-- C89, HMAC objects: the one which a raising constructor leaves behind, and a complete one in any state, after any
calls, are destroyed without an exception, and a key which exists is overwritten. -/
theorem C89_hmac (name : String) (kv : PyVal) (data : Option PyVal) :
    (hmacAttrs name kv data).2 = ended (Hmac.new name kv data) ∧
    (hmacDel (hmacAttrs name kv data).1).2 = .quiet ∧
    (∀ k, (hmacDel (hmacAttrs name kv data).1).1.key = some k → Spec.Filled k) ∧
    ∀ s, Hmac.new name kv data = .ok s → (hmacAttrs name kv data).1 = s.attrs ∧
      ∀ ops : List Alias.HmacOp,
        (hmacDel (ops.foldl (fun s o => (Alias.hmacCall s o).1) s).attrs).2 = .quiet ∧
        ∃ k, (hmacDel (ops.foldl (fun s o => (Alias.hmacCall s o).1) s).attrs).1.key = some k ∧ Spec.Filled k := by
  have hall : ∀ s : Hmac, (hmacDel s.attrs).2 = .quiet ∧ ∃ k, (hmacDel s.attrs).1.key = some k ∧ Spec.Filled k :=
    fun s => ⟨rfl, _, rfl, filled_zeroFill s.key⟩
  have hk : ∀ (s : Hmac) k, (hmacDel s.attrs).1.key = some k → Spec.Filled k := by
    intro s k h
    cases h
    exact filled_zeroFill s.key
  unfold hmacAttrs Hmac.new
  cases hi : Hmac.initKey name kv with
  | error e =>
    refine ⟨rfl, rfl, fun k h => ?_, fun s h => ?_⟩
    · cases h
    · cases h
  | ok s =>
    simp only [Res.bind_ok]
    split
    · refine ⟨rfl, rfl, hk s, fun s' h => ?_⟩
      cases h
      exact ⟨rfl, fun ops => hall _⟩
    · cases hu : s.update (data.getD (.bytearray [])) with
      | mk s' u =>
        cases u with
        | error e =>
          refine ⟨rfl, rfl, hk s', fun s' h => ?_⟩
          cases h
        | ok u =>
          refine ⟨rfl, rfl, hk s', fun s'' h => ?_⟩
          cases h
          exact ⟨rfl, fun ops => hall _⟩

/-- A call of a public method of a PBKDF object. -/
inductive PbkdfMethod where
  | derive (n : Int)
  | hexderive (n : Int)
  | clear
  | salt

/-- The object after a call, whether it returns or raises. -/
def Pbkdf.after (s : Pbkdf) : PbkdfMethod → Pbkdf
  | .derive n => (s.derive n).1
  | .hexderive n => (s.hexderive n).1
  | .clear => s.clear
  | .salt => s

theorem hexderive_password (s : Pbkdf) (n : Int) : (s.hexderive n).1.password = s.password := by
  rw [← derive_password s n]
  unfold Pbkdf.hexderive
  cases s.derive n with
  | mk t r => cases r <;> rfl

/-- C81, PBKDF objects: the bytes of the password attribute after any calls. -/
theorem C81_pbkdf {rand : Bytes} {pw : PyVal} {salt : Option PyVal} {counter : Int} {s : Pbkdf}
    (h : Pbkdf.new rand pw salt counter = .ok s) (ms : List PbkdfMethod) :
    ∃ p, pw.data? = some p ∧ (ms.foldl Pbkdf.after s).password.length =
      p.length * 4 ^ (ms.filter fun | .clear => true | _ => false).length := by
  have hp : pw.data? = some s.password := by
    unfold Pbkdf.new at h
    split at h
    · cases h
    · next p hp =>
      rw [hp]
      dsimp only at h
      split at h
      · cases h
      · split at h
        · cases h
        · cases h; rfl
  refine ⟨_, hp, ?_⟩
  clear h hp
  induction ms generalizing s with
  | nil => simp
  | cons m ms ih =>
    rw [List.foldl_cons, ih, List.filter_cons]
    cases m with
    | clear =>
      show s.clear.password.length * _ = _
      rw [Pbkdf.clear, zeroFill_length, if_pos rfl, List.length_cons, Nat.pow_succ, Nat.mul_comm 4, Nat.mul_assoc,
        Nat.mul_comm 4]
    | derive n =>
      show (s.derive n).1.password.length * _ = _
      rw [derive_password]
      rfl
    | hexderive n =>
      show (s.hexderive n).1.password.length * _ = _
      rw [hexderive_password]
      rfl
    | salt => rfl

/-- C89, PBKDF objects: the destruction raises `AttributeError` exactly when the password was not a byte object; in
every other case, also when the salt or the length of the password is refused, the password is overwritten. -/
theorem C89_pbkdf (rand : Bytes) (pw : PyVal) (salt : Option PyVal) (counter : Int) :
    (pbkdfAttrs rand pw salt).2 = ended (Pbkdf.new rand pw salt counter) ∧
    ((pbkdfDel (pbkdfAttrs rand pw salt).1).2 = .attributeError ↔ pw.data? = none) ∧
    (pw.data? ≠ none → (pbkdfDel (pbkdfAttrs rand pw salt).1).2 = .quiet ∧
      ∃ b, (pbkdfDel (pbkdfAttrs rand pw salt).1).1 = some b ∧ Spec.Filled b) ∧
    ∀ s, Pbkdf.new rand pw salt counter = .ok s →
      (pbkdfAttrs rand pw salt).1 = some s.password ∧
      ∀ ms : List PbkdfMethod, (pbkdfDel (some (ms.foldl Pbkdf.after s).password)).2 = .quiet ∧
        ∃ b, (pbkdfDel (some (ms.foldl Pbkdf.after s).password)).1 = some b ∧ Spec.Filled b := by
  have hall : ∀ t : Pbkdf, (pbkdfDel (some t.password)).2 = .quiet ∧
        ∃ b, (pbkdfDel (some t.password)).1 = some b ∧ Spec.Filled b :=
    fun t => ⟨rfl, _, rfl, filled_zeroFill t.password⟩
  have hne : DelRes.quiet ≠ .attributeError := by decide
  unfold pbkdfAttrs Pbkdf.new
  cases pw.data? with
  | none => exact ⟨rfl, ⟨fun _ => rfl, fun _ => rfl⟩, fun h => absurd rfl h, fun s h => by cases h⟩
  | some p =>
    dsimp only
    cases PyVal.data? (if (salt.getD (.bytearray [])).isEmpty = true then .bytearray rand
      else salt.getD (.bytearray [])) with
    | none =>
      refine ⟨rfl, ⟨fun h => absurd h hne, fun h => ?_⟩, fun _ => ⟨rfl, _, rfl, filled_zeroFill _⟩, fun s h => ?_⟩
      · cases h
      · cases h
    | some sl =>
      dsimp only
      cases Hmac.new "HMAC_GOSTR3411_2012_512" (.bytearray p) (some (.bytearray [])) with
      | error e =>
        refine ⟨rfl, ⟨fun h => absurd h hne, fun h => ?_⟩, fun _ => ⟨rfl, _, rfl, filled_zeroFill _⟩, fun s h => ?_⟩
        · cases h
        · cases h
      | ok hm =>
        refine ⟨rfl, ⟨fun h => absurd h hne, fun h => ?_⟩, fun _ => ⟨rfl, _, rfl, filled_zeroFill _⟩, fun s h => ?_⟩
        · cases h
        · cases h
          exact ⟨rfl, fun ms => hall _⟩

/-- `n` times the four characters `/x00`. -/
def Spec.slashes : Nat → Bytes
  | 0 => []
  | n + 1 => [0x2f, 0x78, 0x30, 0x30] ++ Spec.slashes n

/-- Default size of the seed in bytes. -/
def Spec.seedSize : Nat := 48

/-- A constructor which rejects the salt has already overwritten its copy of the password; the size
of the seed is 48 bytes if it is not given. -/
theorem C89_left_behind (rand pw : Bytes) (ba : Bool) :
    pbkdfAttrs rand (if ba then .bytearray pw else .bytes pw) (some .other) =
      (some (Spec.slashes pw.length), .error (.pbkdfError "GOSTPBKDFError: invalid salt value")) ∧
    ∀ v : Option PyVal, randAttrs rand v = randAttrs rand v Spec.seedSize := by
  have hz : zeroFill pw = Spec.slashes pw.length := by
    unfold zeroFill slashX00
    generalize pw.length = n
    induction n with
    | zero => rfl
    | succ n ih => rw [List.replicate_succ, List.flatten_cons, ih]; rfl
  refine ⟨?_, fun v => rfl⟩
  rw [← hz]
  cases ba <;> rfl

/-- C89, generators. -/
theorem C89_random (rand : Bytes) (size : Int) (v : Option PyVal) (sizeS : Nat) :
    (randAttrs rand v sizeS).2 = ended (Rand.new rand size v sizeS) ∧
    (randDel (randAttrs rand v sizeS).1).2 = .quiet ∧
    (∃ b, (randDel (randAttrs rand v sizeS).1).1 = some b ∧ Spec.Filled b) ∧
    ∀ s, Rand.new rand size v sizeS = .ok s → (randAttrs rand v sizeS).1 = some s.randU ∧
      ∀ cs : List RandCall, (randDel (some (cs.foldl RandCall.apply s).randU)).2 = .quiet ∧
        ∃ b, (randDel (some (cs.foldl RandCall.apply s).randU)).1 = some b ∧ Spec.Filled b := by
  unfold randAttrs Rand.new
  cases Rand.seed rand sizeS (v.getD (.bytearray [])) with
  | error e =>
    refine ⟨rfl, rfl, ⟨_, rfl, filled_zeroFill _⟩, fun s h => ?_⟩
    cases h
  | ok u =>
    refine ⟨rfl, rfl, ⟨_, rfl, filled_zeroFill _⟩, fun s h => ?_⟩
    cases h
    exact ⟨rfl, fun cs => ⟨rfl, _, rfl, filled_zeroFill _⟩⟩

/-- C89, the part which holds, for the objects which raising constructors leave behind: all of `new` of the cipher,
HMAC and generator modules, PBKDF with a password which is a byte object, and the block ciphers with a key of at least
32 bytes. (Missing: other passwords, and shorter keys given to the block cipher classes.) -/
theorem C89_partial :
    (∀ (alg : String) (kv : PyVal) (mode : Int) (pad : Option Int) (iv dat : Option PyVal),
      modeQuiet (newAttrs alg kv mode pad iv dat).1) ∧
    (∀ (name : String) (kv : PyVal) (data : Option PyVal), (hmacDel (hmacAttrs name kv data).1).2 = .quiet) ∧
    (∀ (rand : Bytes) (v : Option PyVal) (sizeS : Nat), (randDel (randAttrs rand v sizeS).1).2 = .quiet) ∧
    (∀ (rand : Bytes) (pw : PyVal) (salt : Option PyVal), pw.data? ≠ none →
      (pbkdfDel (pbkdfAttrs rand pw salt).1).2 = .quiet) ∧
    (∀ key : Bytes, 32 ≤ key.length → (CipherObj.kuz (Kuz.initKeys key).1).del.2 = .quiet ∧
      (CipherObj.magma (Magma.initKeys key).1).del.2 = .quiet) :=
  ⟨fun alg kv mode pad iv dat => (C89_cipher alg kv mode pad iv dat).2.1,
    fun name kv data => (C89_hmac name kv data).2.1,
    fun rand v sizeS => (C89_random rand 0 v sizeS).2.1,
    fun rand pw salt h => ((C89_pbkdf rand pw salt 1000).2.2.1 h).1,
    fun key h => ⟨((C89_kuznechik key).2.1 h).2, ((C89_magma key).2.1 h).2⟩⟩

/-- The statement of C89 about exceptions, for the objects which a constructor leaves behind. -/
def C89_statement : Prop :=
  (∀ key : Bytes, (CipherObj.kuz (Kuz.initKeys key).1).del.2 = .quiet) ∧
  (∀ key : Bytes, (CipherObj.magma (Magma.initKeys key).1).del.2 = .quiet) ∧
  (∀ (rand : Bytes) (pw : PyVal) (salt : Option PyVal), (pbkdfDel (pbkdfAttrs rand pw salt).1).2 = .quiet)

/-- Each of the three parts is false: an empty key (say), and a password which is no byte object. -/
theorem C89_statement_false :
    (¬ ∀ key : Bytes, (CipherObj.kuz (Kuz.initKeys key).1).del.2 = .quiet) ∧
    (¬ ∀ key : Bytes, (CipherObj.magma (Magma.initKeys key).1).del.2 = .quiet) ∧
    (¬ ∀ (rand : Bytes) (pw : PyVal) (salt : Option PyVal), (pbkdfDel (pbkdfAttrs rand pw salt).1).2 = .quiet) := by
  refine ⟨fun h => ?_, fun h => ?_, fun h => ?_⟩
  · have h1 := ((C89_kuznechik []).2.2.1 (by decide)).2
    rw [h []] at h1
    cases h1
  · have h1 := ((C89_magma []).2.2.1 (by decide)).2
    rw [h []] at h1
    cases h1
  · have h1 := h [] .other none
    cases h1

theorem C89_negation : ¬ C89_statement := fun h => C89_statement_false.1 h.1

/-- A constructor which raises in the middle: the padding mode is refused after the round keys were made, and the
destruction clears them. -/
example : (newAttrs "magma" (.bytes Ex.key) modeEcb (some 7)).2 =
      .error (.cipherError "GOSTCipherError: invalid padding mode") ∧
    modeQuiet (newAttrs "magma" (.bytes Ex.key) modeEcb (some 7)).1 ∧
    (newAttrs "magma" (.bytes Ex.key) modeEcb (some 7)).1.isSome = true := by
  refine ⟨by decide +kernel, (C89_cipher _ _ _ _ _ _).2.1, by decide +kernel⟩

/-- An HMAC object whose constructor refused its data has a key, which is overwritten. -/
example : (hmacAttrs "HMAC_GOSTR3411_2012_256" (.bytes [1, 2]) (some .other)).1.key =
    some ([1, 2] ++ List.replicate 62 0) := by decide +kernel

end Gost
