import Verif.Proofs.Clear
import Verif.Props.Examples

/-! C21 (a rejected call does not change an object) and C22 (`clear` erases the key). -/

namespace Gost
open Spec (Alg)

/-! ### C21 -/

/-- What a rejected call does, in every state of an object of every mode: it raises, and afterwards
only the round keys differ, which are overwritten as by `clear`. Missing from C21: that the round keys
stay; they do not (`C21_negation`). -/
theorem C21_attributes_partial (v : PyVal) (hv : v.data? = none) :
    (∀ s : Ecb, (∀ r ∈ [s.encrypt v, s.decrypt v], r.1.padMode = s.padMode ∧ r.1.obj = s.obj.clear) ∧
      (s.encrypt v).2 = .error (.cipherError "GOSTCipherError: invalid plaintext data") ∧
      (s.decrypt v).2 = .error (.cipherError "GOSTCipherError: invalid ciphertext data")) ∧
    (∀ s : Cbc, (∀ r ∈ [s.encrypt v, s.decrypt v],
        r.1.padMode = s.padMode ∧ r.1.iv = s.iv ∧ r.1.obj = s.obj.clear) ∧
      (s.encrypt v).2 = .error (.cipherError "GOSTCipherError: invalid plaintext data") ∧
      (s.decrypt v).2 = .error (.cipherError "GOSTCipherError: invalid ciphertext data")) ∧
    (∀ s : Fb, (∀ r ∈ [Cfb.encrypt s v, Cfb.decrypt s v, Ofb.encrypt s v, Ofb.decrypt s v],
        r.1.iv = s.iv ∧ r.1.obj = s.obj.clear) ∧
      (∀ r ∈ [Cfb.encrypt s v, Ofb.encrypt s v],
        r.2 = .error (.cipherError "GOSTCipherError: invalid plaintext data")) ∧
      (∀ r ∈ [Cfb.decrypt s v, Ofb.decrypt s v],
        r.2 = .error (.cipherError "GOSTCipherError: invalid ciphertext data"))) ∧
    (∀ s : Ctr, (∀ r ∈ [s.encrypt v, s.decrypt v],
        r.1.initVect = s.initVect ∧ r.1.counter = s.counter ∧ r.1.obj = s.obj.clear) ∧
      (s.encrypt v).2 = .error (.cipherError "GOSTCipherError: invalid plaintext data") ∧
      (s.decrypt v).2 = .error (.cipherError "GOSTCipherError: invalid ciphertext data")) ∧
    (∀ s : Mac, (s.update v).1.key1 = s.key1 ∧ (s.update v).1.key2 = s.key2 ∧
      (s.update v).1.finBuff = s.finBuff ∧ (s.update v).1.iterBuf = s.iterBuf ∧
      (s.update v).1.prevMac = s.prevMac ∧ (s.update v).1.curMac = s.curMac ∧
      (s.update v).1.obj = s.obj.clear ∧
      (s.update v).2 = .error (.cipherError "GOSTCipherError: invalid text data")) := by
  refine ⟨fun s => ?_, fun s => ?_, fun s => ?_, fun s => ?_, fun s => ?_⟩
  · simp [Ecb.encrypt, Ecb.decrypt, hv, Ecb.clear]
  · simp [Cbc.encrypt, Cbc.decrypt, hv, Cbc.clear]
  · simp [Cfb.encrypt, Cfb.decrypt, Ofb.encrypt, Ofb.decrypt, hv, Fb.clear]
  · simp [Ctr.encrypt, Ctr.decrypt, hv, Ctr.clear]
  · simp [Mac.update, hv, Mac.clear]

/-- The result of `f` on the object which `new` returns. -/
def onNew (r : Res Cipher) (f : Cipher → Bool) : Bool :=
  match r with
  | .ok c => f c
  | .error _ => false

/-- C21 is false of the code in every mode: a rejected call changes what the object returns for a
later valid argument. For the modes with encryption both `encrypt` and `decrypt` are rejected, and the
object then encrypts eight bytes differently; a MAC object gives another code. -/
theorem C21_negation :
    (∃ s, newCipher "magma" (.bytes Ex.key) modeEcb = .ok (.ecb s) ∧
      ((s.encrypt .other).1.encrypt (.bytes (Ex.count 1 8))).2 ≠ (s.encrypt (.bytes (Ex.count 1 8))).2 ∧
      ((s.decrypt .other).1.encrypt (.bytes (Ex.count 1 8))).2 ≠ (s.encrypt (.bytes (Ex.count 1 8))).2) ∧
    (∃ s, newCipher "magma" (.bytes Ex.key) modeCbc = .ok (.cbc s) ∧
      ((s.encrypt .other).1.encrypt (.bytes (Ex.count 1 8))).2 ≠ (s.encrypt (.bytes (Ex.count 1 8))).2 ∧
      ((s.decrypt .other).1.encrypt (.bytes (Ex.count 1 8))).2 ≠ (s.encrypt (.bytes (Ex.count 1 8))).2) ∧
    (∃ s, newCipher "magma" (.bytes Ex.key) modeCfb = .ok (.cfb s) ∧
      (Cfb.encrypt (Cfb.encrypt s .other).1 (.bytes (Ex.count 1 8))).2 ≠ (Cfb.encrypt s (.bytes (Ex.count 1 8))).2 ∧
      (Cfb.encrypt (Cfb.decrypt s .other).1 (.bytes (Ex.count 1 8))).2 ≠ (Cfb.encrypt s (.bytes (Ex.count 1 8))).2) ∧
    (∃ s, newCipher "magma" (.bytes Ex.key) modeOfb = .ok (.ofb s) ∧
      (Ofb.encrypt (Ofb.encrypt s .other).1 (.bytes (Ex.count 1 8))).2 ≠ (Ofb.encrypt s (.bytes (Ex.count 1 8))).2 ∧
      (Ofb.encrypt (Ofb.decrypt s .other).1 (.bytes (Ex.count 1 8))).2 ≠ (Ofb.encrypt s (.bytes (Ex.count 1 8))).2) ∧
    (∃ s, newCipher "magma" (.bytes Ex.key) modeCtr = .ok (.ctr s) ∧
      ((s.encrypt .other).1.encrypt (.bytes (Ex.count 1 8))).2 ≠ (s.encrypt (.bytes (Ex.count 1 8))).2 ∧
      ((s.decrypt .other).1.encrypt (.bytes (Ex.count 1 8))).2 ≠ (s.encrypt (.bytes (Ex.count 1 8))).2) ∧
    (∃ s, newCipher "magma" (.bytes Ex.key) modeMac = .ok (.mac s) ∧
      ((s.update .other).1.digest 8).2 ≠ (s.digest 8).2) := by
  have get : ∀ (r : Res Cipher) (f : Cipher → Bool), onNew r f = true → ∃ c, r = .ok c ∧ f c = true := by
    intro r f h
    cases r with
    | ok c => exact ⟨c, rfl, h⟩
    | error e => cases h
  refine ⟨?_, ?_, ?_, ?_, ?_, ?_⟩
  · obtain ⟨c, h1, h2⟩ := get (newCipher "magma" (.bytes Ex.key) modeEcb) (fun c => match c with
      | .ecb s => decide (((s.encrypt .other).1.encrypt (.bytes (Ex.count 1 8))).2 ≠
            (s.encrypt (.bytes (Ex.count 1 8))).2 ∧
          ((s.decrypt .other).1.encrypt (.bytes (Ex.count 1 8))).2 ≠ (s.encrypt (.bytes (Ex.count 1 8))).2)
      | _ => false) (by decide +kernel)
    cases c <;> first | exact ⟨_, h1, of_decide_eq_true h2⟩ | cases h2
  · obtain ⟨c, h1, h2⟩ := get (newCipher "magma" (.bytes Ex.key) modeCbc) (fun c => match c with
      | .cbc s => decide (((s.encrypt .other).1.encrypt (.bytes (Ex.count 1 8))).2 ≠
            (s.encrypt (.bytes (Ex.count 1 8))).2 ∧
          ((s.decrypt .other).1.encrypt (.bytes (Ex.count 1 8))).2 ≠ (s.encrypt (.bytes (Ex.count 1 8))).2)
      | _ => false) (by decide +kernel)
    cases c <;> first | exact ⟨_, h1, of_decide_eq_true h2⟩ | cases h2
  · obtain ⟨c, h1, h2⟩ := get (newCipher "magma" (.bytes Ex.key) modeCfb) (fun c => match c with
      | .cfb s => decide ((Cfb.encrypt (Cfb.encrypt s .other).1 (.bytes (Ex.count 1 8))).2 ≠
            (Cfb.encrypt s (.bytes (Ex.count 1 8))).2 ∧
          (Cfb.encrypt (Cfb.decrypt s .other).1 (.bytes (Ex.count 1 8))).2 ≠
            (Cfb.encrypt s (.bytes (Ex.count 1 8))).2)
      | _ => false) (by decide +kernel)
    cases c <;> first | exact ⟨_, h1, of_decide_eq_true h2⟩ | cases h2
  · obtain ⟨c, h1, h2⟩ := get (newCipher "magma" (.bytes Ex.key) modeOfb) (fun c => match c with
      | .ofb s => decide ((Ofb.encrypt (Ofb.encrypt s .other).1 (.bytes (Ex.count 1 8))).2 ≠
            (Ofb.encrypt s (.bytes (Ex.count 1 8))).2 ∧
          (Ofb.encrypt (Ofb.decrypt s .other).1 (.bytes (Ex.count 1 8))).2 ≠
            (Ofb.encrypt s (.bytes (Ex.count 1 8))).2)
      | _ => false) (by decide +kernel)
    cases c <;> first | exact ⟨_, h1, of_decide_eq_true h2⟩ | cases h2
  · obtain ⟨c, h1, h2⟩ := get (newCipher "magma" (.bytes Ex.key) modeCtr) (fun c => match c with
      | .ctr s => decide (((s.encrypt .other).1.encrypt (.bytes (Ex.count 1 8))).2 ≠
            (s.encrypt (.bytes (Ex.count 1 8))).2 ∧
          ((s.decrypt .other).1.encrypt (.bytes (Ex.count 1 8))).2 ≠ (s.encrypt (.bytes (Ex.count 1 8))).2)
      | _ => false) (by decide +kernel)
    cases c <;> first | exact ⟨_, h1, of_decide_eq_true h2⟩ | cases h2
  · obtain ⟨c, h1, h2⟩ := get (newCipher "magma" (.bytes Ex.key) modeMac) (fun c => match c with
      | .mac s => decide (((s.update .other).1.digest 8).2 ≠ (s.digest 8).2)
      | _ => false) (by decide +kernel)
    cases c <;> first | exact ⟨_, h1, of_decide_eq_true h2⟩ | cases h2

/-- The defect does not depend on the key: of two ECB objects which encrypt some block differently at
least one is changed by a rejected call. -/
theorem C21_negation_any (s s' : Ecb) (hs : Ecb.Reachable s) (hs' : Ecb.Reachable s')
    (hb : s.obj.blockSize = s'.obj.blockSize) (hp : s.padMode = s'.padMode) (v w : PyVal) (hv : v.data? = none)
    (hne : (s.encrypt w).2 ≠ (s'.encrypt w).2) :
    ((s.encrypt v).1.encrypt w).2 ≠ (s.encrypt w).2 ∨ ((s'.encrypt v).1.encrypt w).2 ≠ (s'.encrypt w).2 := by
  have e : ∀ t : Ecb, (t.encrypt v).1 = t.clear := fun t => by simp only [Ecb.encrypt, hv]
  have := Ecb.rel_run [.encrypt w] s.clear s'.clear ⟨Same.clear_of hs.inv.1 hs'.inv.1 hb.symm, hp.symm⟩
  simp only [runHistory, List.cons.injEq, and_true] at this
  rw [e, e]
  by_cases h1 : (s.clear.encrypt w).2 = (s.encrypt w).2
  · by_cases h2 : (s'.clear.encrypt w).2 = (s'.encrypt w).2
    · exact absurd (h1.symm.trans (this.trans h2)) hne
    · exact Or.inr h2
  · exact Or.inl h1

/-! ### C22 -/

/-- C22 for the five encryption modes: after `clear`, two objects of one algorithm, with any keys and
after any history, which agree in the attributes other than the round keys give the same results in every
later sequence of calls. Missing: the MAC mode, for which this is false (`C22_mac_negation`), and that
the round keys are zero, which is false (`C22_zero_negation`). -/
theorem C22_later_calls_partial (cs : List CipherCall) :
    (∀ s s' : Ecb, s.Reachable → s'.Reachable → s.obj.blockSize = s'.obj.blockSize →
      s.padMode = s'.padMode →
      runHistory Ecb.encrypt Ecb.decrypt Ecb.clear s.clear cs =
        runHistory Ecb.encrypt Ecb.decrypt Ecb.clear s'.clear cs) ∧
    (∀ s s' : Cbc, s.Reachable → s'.Reachable → s.obj.blockSize = s'.obj.blockSize →
      s.padMode = s'.padMode → s.iv = s'.iv →
      runHistory Cbc.encrypt Cbc.decrypt Cbc.clear s.clear cs =
        runHistory Cbc.encrypt Cbc.decrypt Cbc.clear s'.clear cs) ∧
    (∀ s s' : Fb, Cfb.Reachable s → Cfb.Reachable s' → s.obj.blockSize = s'.obj.blockSize → s.iv = s'.iv →
      runHistory Cfb.encrypt Cfb.decrypt Fb.clear s.clear cs =
        runHistory Cfb.encrypt Cfb.decrypt Fb.clear s'.clear cs) ∧
    (∀ s s' : Fb, Ofb.Reachable s → Ofb.Reachable s' → s.obj.blockSize = s'.obj.blockSize → s.iv = s'.iv →
      runHistory Ofb.encrypt Ofb.decrypt Fb.clear s.clear cs =
        runHistory Ofb.encrypt Ofb.decrypt Fb.clear s'.clear cs) ∧
    (∀ s s' : Ctr, s.Reachable → s'.Reachable → s.obj.blockSize = s'.obj.blockSize →
      s.counter = s'.counter →
      runHistory Ctr.encrypt Ctr.decrypt Ctr.clear s.clear cs =
        runHistory Ctr.encrypt Ctr.decrypt Ctr.clear s'.clear cs) := by
  refine ⟨?_, ?_, ?_, ?_, ?_⟩
  · intro s s' h h' hb hp
    exact Ecb.rel_run cs _ _ ⟨Same.clear_of h.inv.1 h'.inv.1 hb.symm, hp.symm⟩
  · intro s s' h h' hb hp hi
    exact Cbc.rel_run cs _ _ ⟨Same.clear_of h.inv.1 h'.inv.1 hb.symm, hp.symm, hi.symm, h.inv.2.1,
      by simpa [Cbc.clear] using h.inv.2.2⟩
  · intro s s' h h' hb hi
    exact Cfb.rel_run cs _ _ ⟨Same.clear_of h.inv.1 h'.inv.1 hb.symm, hi.symm,
      by simpa [Fb.clear] using h.inv.2⟩
  · intro s s' h h' hb hi
    exact Ofb.rel_run cs _ _ ⟨Same.clear_of h.inv.1 h'.inv.1 hb.symm, hi.symm,
      by simpa [Fb.clear] using h.inv.2⟩
  · intro s s' h h' hb hc
    exact Ctr.rel_run cs _ _ ⟨Same.clear_of h.inv.1 h'.inv.1 hb.symm, hc.symm,
      by simpa [Ctr.clear] using h.inv.2⟩

/-- Two new objects made with different keys and otherwise equal arguments (not MAC) are equal after
`clear`. Missing: as in `C22_later_calls_partial`. -/
theorem C22_new_partial (a : Alg) (kv kv' : PyVal) (key key' : Bytes) (hk : kv.data? = some key)
    (hk' : kv'.data? = some key') (hl : key.length = 32) (hl' : key'.length = 32) (mode : Int)
    (hm : mode ≠ modeMac) (pad : Option Int) (iv dat : Option PyVal) (c : Cipher)
    (h : newCipher a.name kv mode pad iv dat = .ok c) :
    ∃ c', newCipher a.name kv' mode pad iv dat = .ok c' ∧ c'.clear = c.clear := by
  obtain ⟨o', hb', hg', hbs', _⟩ := baseInit_ok a kv' key' hk' hl'
  have e' := baseInit_clear a kv' key' hk' hl' o' hb'
  obtain ⟨o, hb, hg, hbs, _⟩ := baseInit_ok a kv key hk hl
  have e := baseInit_clear a kv key hk hl o hb
  have hb2 : o'.blockSize = o.blockSize := by rw [hbs, hbs']
  unfold newCipher at h ⊢
  by_cases m1 : mode = modeEcb
  · rw [if_pos m1] at h ⊢
    obtain ⟨s, h1, h2⟩ := Res.bind_eq_ok h
    rw [Res.pure_eq] at h2; cases h2
    have hi := Ecb.init_inv h1
    rw [hb] at hi
    have ho : o = s.obj := by have := hi.1; cases this; rfl
    rw [Ecb.init_ok a kv' _ hi.2.2 o' hb']
    refine ⟨.ecb ⟨o', _⟩, by rw [Res.bind_ok, Res.pure_eq], ?_⟩
    simp only [Cipher.clear, Ecb.clear, e']
    rw [← ho, e, hi.2.1]
  rw [if_neg m1] at h ⊢
  by_cases m2 : mode = modeCbc
  · rw [if_pos m2] at h ⊢
    obtain ⟨s, h1, h2⟩ := Res.bind_eq_ok h
    rw [Res.pure_eq] at h2; cases h2
    have hi := Cbc.init_inv h1
    rw [hb] at hi
    have ho : o = s.obj := by have := hi.1; cases this; rfl
    have hn : Cbc.init a.name kv' (iv.getD (.bytearray
        (if a.name = "magma" then defaultIvCbcMagma else defaultIvKuz))) (pad.getD padMode1) =
        .ok ⟨o', s.iv, pad.getD padMode1⟩ := by
      unfold Cbc.init
      rw [Ecb.init_ok a kv' _ hi.2.2.1 o' hb', Res.bind_ok, hb', Res.bind_ok,
        checkIv_ok _ _ s.iv hi.2.2.2.1 (by rw [hb2, ho]; exact hi.2.2.2.2), Res.bind_ok, Res.pure_eq]
    refine ⟨.cbc ⟨o', s.iv, pad.getD padMode1⟩, by simp only [hn, Res.bind_ok, Res.pure_eq], ?_⟩
    simp only [Cipher.clear, Cbc.clear, e']
    rw [← ho, e, hi.2.1]
  rw [if_neg m2] at h ⊢
  by_cases m3 : mode = modeCfb
  · rw [if_pos m3] at h ⊢
    obtain ⟨s, h1, h2⟩ := Res.bind_eq_ok h
    rw [Res.pure_eq] at h2; cases h2
    have hi := Fb.init_inv h1
    rw [hb] at hi
    have ho : o = s.obj := by have := hi.1; cases this; rfl
    have hn : Fb.init a.name kv' (iv.getD (.bytearray
        (if a.name = "magma" then defaultIvMagma else defaultIvKuz))) = .ok ⟨o', s.iv⟩ := by
      unfold Fb.init
      rw [hb', Res.bind_ok, checkIv_ok _ _ s.iv hi.2.1 (by rw [hb2, ho]; exact hi.2.2), Res.bind_ok,
        Res.pure_eq]
    refine ⟨.cfb ⟨o', s.iv⟩, by simp only [hn, Res.bind_ok, Res.pure_eq], ?_⟩
    simp only [Cipher.clear, Fb.clear, e']
    rw [← ho, e]
  rw [if_neg m3] at h ⊢
  by_cases m4 : mode = modeOfb
  · rw [if_pos m4] at h ⊢
    obtain ⟨s, h1, h2⟩ := Res.bind_eq_ok h
    rw [Res.pure_eq] at h2; cases h2
    have hi := Fb.init_inv h1
    rw [hb] at hi
    have ho : o = s.obj := by have := hi.1; cases this; rfl
    have hn : Fb.init a.name kv' (iv.getD (.bytearray
        (if a.name = "magma" then defaultIvMagma else defaultIvKuz))) = .ok ⟨o', s.iv⟩ := by
      unfold Fb.init
      rw [hb', Res.bind_ok, checkIv_ok _ _ s.iv hi.2.1 (by rw [hb2, ho]; exact hi.2.2), Res.bind_ok,
        Res.pure_eq]
    refine ⟨.ofb ⟨o', s.iv⟩, by simp only [hn, Res.bind_ok, Res.pure_eq], ?_⟩
    simp only [Cipher.clear, Fb.clear, e']
    rw [← ho, e]
  rw [if_neg m4] at h ⊢
  by_cases m5 : mode = modeCtr
  · rw [if_pos m5] at h ⊢
    obtain ⟨s, h1, h2⟩ := Res.bind_eq_ok h
    rw [Res.pure_eq] at h2; cases h2
    have hi := Ctr.init_inv h1
    rw [hb] at hi
    have ho : o = s.obj := by have := hi.1; cases this; rfl
    have hn : Ctr.init a.name kv' (iv.getD (.bytearray
        (if a.name = "magma" then defaultIvCtrMagma else defaultIvCtrKuz))) =
        .ok ⟨o', s.initVect, ctr0 o'.blockSize s.initVect⟩ := by
      unfold Ctr.init
      rw [hb', Res.bind_ok]
      simp only [hi.2.1]
      rw [if_neg (by rw [hi.2.2.1, hb2, ho]; simp), Res.pure_eq]
      simp only [ctr0, zeros_nat]
    refine ⟨.ctr ⟨o', s.initVect, ctr0 o'.blockSize s.initVect⟩, ?_, ?_⟩
    · simp only [hn, Res.bind_ok, Res.pure_eq]
    · simp only [Cipher.clear, Ctr.clear, e']
      rw [← ho, e, hb2, ho, hi.2.2.2]
  rw [if_neg m5, if_neg hm] at h
  cases h

/-- A case of the hypotheses, with two different keys. -/
example : Ex.key ≠ Ex.key' ∧ ∃ c, newCipher Alg.magma.name (.bytes Ex.key) modeCbc = .ok c := by
  refine ⟨by decide, ?_⟩
  obtain ⟨s, h, _⟩ := C21_negation.2.1
  exact ⟨_, h⟩

/-- A cleared Magma object is not without a key: it encrypts with the public key `"/x00"` repeated
eight times. -/
theorem C22_magma_known_key (s : Ecb) (hs : s.Reachable) (hb : s.obj.blockSize = 8) (b : Bytes)
    (hl : b.length = 8) :
    s.clear.obj.encrypt b = .ok (Spec.Magma.encrypt
      [0x2f, 0x78, 0x30, 0x30, 0x2f, 0x78, 0x30, 0x30, 0x2f, 0x78, 0x30, 0x30, 0x2f, 0x78, 0x30, 0x30,
       0x2f, 0x78, 0x30, 0x30, 0x2f, 0x78, 0x30, 0x30, 0x2f, 0x78, 0x30, 0x30, 0x2f, 0x78, 0x30, 0x30] b) :=
  clear_magma hs.inv.1 hb b hl

/-- "The round keys are zero" is false of the code: for every key of either algorithm no round key is
zero after `clear`, and each is four times as long as before. -/
theorem C22_zero_negation (a : Alg) (kv : PyVal) (key : Bytes) (hk : kv.data? = some key)
    (hl : key.length = 32) :
    ∃ s, newCipher a.name kv modeEcb = .ok (.ecb s) ∧ s.clear.obj.keys ≠ [] ∧
      ∀ k ∈ s.clear.obj.keys, (∀ n, k ≠ List.replicate n 0) ∧
        k.length = 4 * (match a with | .kuznechik => 16 | .magma => 4) := by
  obtain ⟨o, hb, hg, hbs, _⟩ := baseInit_ok a kv key hk hl
  have e := baseInit_clear a kv key hk hl o hb
  refine ⟨⟨o, padMode1⟩, ?_, ?_⟩
  · unfold newCipher
    rw [if_pos rfl]
    simp only [Option.getD_none, Ecb.init_ok a kv padMode1 (Or.inl rfl) o hb, Res.bind_ok, Res.pure_eq]
  · simp only [Ecb.clear, e]
    cases a with
    | kuznechik =>
      refine ⟨by simp [clearedObj, CipherObj.keys, List.replicate], ?_⟩
      intro k hk
      have : k = (List.replicate 16 slashX00).flatten := List.eq_of_mem_replicate hk
      subst this
      refine ⟨?_, by decide⟩
      intro n h
      have hm : (0x2f : UInt8) ∈ List.replicate n (0 : UInt8) := by rw [← h]; decide
      exact absurd (List.eq_of_mem_replicate hm) (by decide)
    | magma =>
      refine ⟨by simp [clearedObj, CipherObj.keys, List.replicate], ?_⟩
      intro k hk
      have : k = (List.replicate 4 slashX00).flatten := List.eq_of_mem_replicate hk
      subst this
      refine ⟨?_, by decide⟩
      intro n h
      have hm : (0x2f : UInt8) ∈ List.replicate n (0 : UInt8) := by rw [← h]; decide
      exact absurd (List.eq_of_mem_replicate hm) (by decide)

/-- C22 is false of the code in MAC mode: the auxiliary keys survive `clear`. For every two keys whose
second auxiliary keys differ, the codes which the cleared objects give differ. -/
theorem C22_mac_negation (a : Alg) (kv kv' : PyVal) (key key' : Bytes) (hk : kv.data? = some key)
    (hk' : kv'.data? = some key') (hl : key.length = 32) (hl' : key'.length = 32)
    (hne : Spec.macKey2 (a.encrypt key) a.blockSize ≠ Spec.macKey2 (a.encrypt key') a.blockSize) :
    ∃ s s', newCipher a.name kv modeMac = .ok (.mac s) ∧ newCipher a.name kv' modeMac = .ok (.mac s') ∧
      (s.clear.digest a.blockSize).2 ≠ (s'.clear.digest a.blockSize).2 := by
  obtain ⟨o, D, hg, hbs, hI, h1, _⟩ := new_mac a kv key hk hl none none
  obtain ⟨o', D', hg', hbs', hI', h1', _⟩ := new_mac a kv' key' hk' hl' none none
  refine ⟨_, _, h1 none rfl, h1' none rfl, ?_⟩
  have hS : Same o.clear o'.clear := Same.clear_of hg hg' (by rw [hbs, hbs'])
  have hJ := hS.good.implements
  have hJ' := hS.implements
  have hob : o.clear.blockSize = a.blockSize := by rw [CipherObj.clear_blockSize, hbs]
  have hob' : o'.clear.blockSize = a.blockSize := by rw [CipherObj.clear_blockSize, hbs']
  -- the final block of the empty message
  have fin : ∀ (p : CipherObj) (hp : p.Good) (k1 k2 : Bytes), p.blockSize = a.blockSize →
      k1.length = a.blockSize → k2.length = a.blockSize →
      Implements p o.clear.E o.clear.D →
      ((⟨p, k1, k2, [], [], zeros p.blockSize, zeros p.blockSize⟩ : Mac).digest a.blockSize).2 =
        .ok (o.clear.E (addXor (addXor (Mac.setPadMode3 a.blockSize []) (zeros a.blockSize)) k2)) := by
    intro p hp k1 k2 hpb l1 l2 hIp
    have hpos := Alg.blockSize_pos a
    have hpad : getPadSize a.blockSize [] = a.blockSize := by simp [getPadSize, hpos]
    have hsl : (Mac.setPadMode3 a.blockSize []).length = a.blockSize := by
      unfold Mac.setPadMode3
      rw [hpad, if_neg (by omega)]
      simp [zeros]; omega
    have hxl : (addXor (addXor (Mac.setPadMode3 a.blockSize []) (zeros a.blockSize)) k2).length =
        p.blockSize := by
      simp [hsl, l2, zeros, hpb]
    have hel := hIp.enc_len _ hxl
    have hmf : (⟨p, k1, k2, [], [], zeros p.blockSize, zeros p.blockSize⟩ : Mac).macFinal.2 =
        .ok (o.clear.E (addXor (addXor (Mac.setPadMode3 a.blockSize []) (zeros a.blockSize)) k2)) := by
      unfold Mac.macFinal
      simp only [hpb, hpad]
      rw [if_neg (by omega), if_neg (by omega)]
      have : pyFrom ([] : Bytes) (a.blockSize : Int) = [] := by simp [pyFrom]
      simp only [this]
      exact hIp.enc _ hxl
    rw [Mac.digest_eq _ (a.blockSize : Int) _ hmf (by simp only []; rw [hpb]; exact Int.le_refl _), pyUpto_nat]
    exact congrArg Except.ok (List.take_of_length_le (by rw [hel, hpb]; exact Nat.le_refl _))
  rw [macState_nil, macState_nil]
  simp only [Mac.clear]
  have e1 := fin o.clear hg.clear (Spec.macKey1 (a.encrypt key) a.blockSize)
    (Spec.macKey2 (a.encrypt key) a.blockSize) hob (macDouble_length _ _) (macDouble_length _ _) hJ
  have e2 := fin o'.clear hg'.clear (Spec.macKey1 (a.encrypt key') a.blockSize)
    (Spec.macKey2 (a.encrypt key') a.blockSize) hob' (macDouble_length _ _) (macDouble_length _ _) hJ'
  rw [CipherObj.clear_blockSize] at e1 e2
  rw [hbs] at e1 ⊢
  rw [hbs'] at e2 ⊢
  rw [e1, e2]
  intro h
  have h := Except.ok.inj h
  have hpos := Alg.blockSize_pos a
  have hsl : (Mac.setPadMode3 a.blockSize []).length = a.blockSize := by
    unfold Mac.setPadMode3
    have hpad : getPadSize a.blockSize [] = a.blockSize := by simp [getPadSize, hpos]
    rw [hpad, if_neg (by omega)]
    simp [zeros]; omega
  have m2 : (Spec.macKey2 (a.encrypt key) a.blockSize).length = a.blockSize := macDouble_length _ _
  have m2' : (Spec.macKey2 (a.encrypt key') a.blockSize).length = a.blockSize := macDouble_length _ _
  have h := hJ.E_inj _ _ (by simp [hsl, m2, zeros, hob, hbs]) (by simp [hsl, m2', zeros, hob, hbs]) h
  exact hne (addXor_left_cancel _ _ _ (by simp [hsl, m2, zeros]) (by simp [hsl, m2', zeros]) h)

/-- A case of the hypotheses. -/
example : Spec.macKey2 (Alg.magma.encrypt Ex.key) 8 ≠ Spec.macKey2 (Alg.magma.encrypt Ex.key') 8 := by
  decide +kernel

end Gost
