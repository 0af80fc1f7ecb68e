import Verif.Proofs.Clear
import Verif.Spec.Accept
import Verif.Props.Examples

/-! C20: which arguments `gostcipher.new` accepts. -/

namespace Gost
open Spec (Alg CipherArgs documentedFault faultWith byteLen algBlock padValid ivValid ivCtrValid dataValid)

/-- `new` on a record of arguments. -/
def newArgs (a : CipherArgs) : Res Cipher := newCipher a.alg a.key a.mode a.pad a.iv a.data

/-- The exception of a call, if it raised one. -/
def Res.err? {α : Type} : Res α → Option Err
  | .ok _ => none
  | .error e => some e

/-- The condition the code imposes on the initialisation vector of CBC, CFB and OFB: it accepts the
empty string as well. -/
def ivCode (bs : Nat) (iv : Option PyVal) : Bool :=
  ivValid bs iv || (iv.bind byteLen == some 0)

/-- A MAC text which is not empty but shorter than a block. -/
def shortText (a : CipherArgs) : Prop :=
  a.mode = 255 ∧ ∃ n, a.data.bind byteLen = some n ∧ 0 < n ∧ n < algBlock a.alg

theorem byteLen_eq (v : PyVal) : byteLen v = v.data?.map List.length := by
  cases v <;> rfl

theorem Res.err?_bind {α β : Type} (x : Res α) (f : α → Res β) :
    Res.err? (x >>= f) = match x with | .ok a => Res.err? (f a) | .error e => some e := by
  cases x with
  | ok a => rw [Res.bind_ok]
  | error e => rw [Res.bind_error]; rfl

theorem baseInit_bad_alg (alg : String) (kv : PyVal) (h : alg ≠ "magma" ∧ alg ≠ "kuznechik") :
    baseInit alg kv = .error (.cipherError "GOSTCipherError: unsupported cipher algorithm") := by
  unfold baseInit; rw [if_pos h]

theorem baseInit_bad_key (alg : String) (kv : PyVal) (h : ¬(alg ≠ "magma" ∧ alg ≠ "kuznechik"))
    (hk : byteLen kv ≠ some 32) :
    baseInit alg kv = .error (.cipherError "GOSTCipherError: invalid key value") := by
  unfold baseInit; rw [if_neg h, if_pos]
  unfold checkValue
  rw [byteLen_eq] at hk
  cases hd : kv.data? with
  | none => rfl
  | some b => 
    rw [hd] at hk
    simpa using hk

theorem alg_of_name {alg : String} (h : ¬(alg ≠ "magma" ∧ alg ≠ "kuznechik")) :
    ∃ a : Alg, alg = a.name ∧ a.blockSize = algBlock alg := by
  by_cases h1 : alg = "magma"
  · exact ⟨.magma, h1, by subst h1; decide⟩
  · by_cases h2 : alg = "kuznechik"
    · exact ⟨.kuznechik, h2, by subst h2; decide⟩
    · exact absurd ⟨h1, h2⟩ h

theorem padOk_iff (p : Option Int) : padValid p = true ↔ PadOk (p.getD padMode1) := by
  cases p with
  | none => simp [padValid, PadOk]
  | some m => simp [padValid, PadOk, padMode1, padMode2]

theorem err_ite {α : Type} (P : Prop) [Decidable P] (e : Err) (x : α) :
    Res.err? (if P then .error e else .ok x) = if P then some e else none := by
  by_cases h : P
  · rw [if_pos h, if_pos h]; rfl
  · rw [if_neg h, if_neg h]; rfl

theorem checkIv_err (bs : Nat) (iv : Option PyVal) (d : Bytes) (hd : d.length % bs = 0) :
    Res.err? (checkIv bs (iv.getD (.bytearray d))) =
      if ivCode bs iv = false then some (.cipherError "GOSTCipherError: invalid initialization vector value")
      else none := by
  cases iv with
  | none =>
    unfold checkIv
    simp only [Option.getD_none, PyVal.data?, hd, ne_eq, not_true_eq_false, if_false]
    rw [if_neg (by simp [ivCode, ivValid])]; rfl
  | some v =>
    unfold checkIv
    simp only [Option.getD_some]
    have hb := byteLen_eq v
    cases hv : v.data? with
    | none =>
      rw [hv] at hb
      simp only [Option.map_none] at hb
      rw [if_pos (by simp [ivCode, ivValid, hb])]; rfl
    | some b =>
      rw [hv] at hb
      simp only [Option.map_some] at hb
      rw [err_ite]
      congr 1
      simp only [ivCode, ivValid, hb, Option.bind_some, eq_iff_iff]
      by_cases h0 : b.length = 0
      · simp [h0]
      · simp [h0]; omega

theorem ctrIv_err {alg : String} {kv : PyVal} {o : CipherObj} (h : baseInit alg kv = .ok o)
    (iv : Option PyVal) (d : Bytes) (hd : d.length = o.blockSize / 2) :
    Res.err? (Ctr.init alg kv (iv.getD (.bytearray d))) =
      if ivCtrValid o.blockSize iv = false then
        some (.cipherError "GOSTCipherError: invalid initialization vector value")
      else none := by
  unfold Ctr.init
  rw [h, Res.bind_ok]
  cases iv with
  | none =>
    simp only [Option.getD_none, PyVal.data?, hd, ne_eq, not_true_eq_false, if_false, Res.pure_eq]
    rw [if_neg (by simp [ivCtrValid])]; rfl
  | some v =>
    simp only [Option.getD_some]
    have hb := byteLen_eq v
    cases hv : v.data? with
    | none =>
      rw [hv] at hb
      simp only [Option.map_none] at hb
      rw [if_pos (by simp [ivCtrValid, hb])]; rfl
    | some b =>
      rw [hv] at hb
      simp only [Option.map_some] at hb
      simp only [Res.pure_eq]
      rw [err_ite]
      congr 1
      simp only [ivCtrValid, hb, eq_iff_iff]
      simp

theorem ecbInit_err {alg : String} {kv : PyVal} {o : CipherObj} (h : baseInit alg kv = .ok o)
    (pad : Option Int) : Res.err? (Ecb.init alg kv (pad.getD padMode1)) =
      if padValid pad = false then some (.cipherError "GOSTCipherError: invalid padding mode") else none := by
  unfold Ecb.init
  rw [h, Res.bind_ok]
  simp only [Res.pure_eq]
  rw [err_ite]
  congr 1
  have := padOk_iff pad
  unfold PadOk at this
  rw [eq_iff_iff, ← Bool.not_eq_true, this]
  simp only [not_or, ne_eq]

theorem default_lengths (a : Alg) :
    (if a.name = "magma" then defaultIvCbcMagma else defaultIvKuz).length % a.blockSize = 0 ∧
    (if a.name = "magma" then defaultIvMagma else defaultIvKuz).length % a.blockSize = 0 ∧
    (if a.name = "magma" then defaultIvCtrMagma else defaultIvCtrKuz).length = a.blockSize / 2 := by
  cases a <;> decide

theorem PyVal.data_none {v : PyVal} (h : v.data? = none) : v.isEmpty = false := by
  cases v with
  | bytes b => cases h
  | bytearray b => cases h
  | other => rfl

theorem newMac_err (a : Alg) (kv : PyVal) (key : Bytes) (hk : kv.data? = some key)
    (hl : key.length = 32) (pad : Option Int) (iv dat : Option PyVal) :
    Res.err? (newCipher a.name kv 255 pad iv dat) =
      if dataValid dat = false then some (.cipherError "GOSTCipherError: invalid text data")
      else match dat.bind byteLen with
        | some n => if 0 < n ∧ n < a.blockSize then some .indexError else none
        | none => none := by
  obtain ⟨o, D, hg, hbs, hI, h1, h2⟩ := new_mac a kv key hk hl pad iv
  have hm : (255 : Int) = modeMac := rfl
  rw [hm]
  cases dat with
  | none =>
    rw [h1 none rfl]
    simp [Res.err?, dataValid]
  | some v =>
    have hb := byteLen_eq v
    cases hv : v.data? with
    | some d =>
      rw [hv, Option.map_some] at hb
      simp only [dataValid, hb, Option.isSome_some, Bool.true_eq_false, if_false, Option.bind_some]
      by_cases h0 : d = []
      · subst h0
        rw [h1 (some v) hv]
        simp [Res.err?]
      · rw [h2 v d hv h0, hbs]
        have : 0 < d.length := List.length_pos_iff.2 h0
        by_cases hlt : d.length < a.blockSize
        · rw [if_pos hlt, if_pos ⟨this, hlt⟩]; rfl
        · rw [if_neg hlt, if_neg (fun h => hlt h.2)]; rfl
    | none =>
      rw [hv, Option.map_none] at hb
      rw [if_pos (by simp [dataValid, hb])]
      obtain ⟨o, D, g1, g2, g3, hI⟩ := baseInit_implements a kv key hk hl
      have hz : (zeros (o.blockSize : Nat)).length = o.blockSize := by simp [zeros]
      have hR := hI.enc_len _ hz
      have hmk := getMacKey_ok a (a.encrypt key (zeros (o.blockSize : Nat))) (by rw [hR, g3])
      rw [← g3] at hmk
      unfold newCipher
      rw [if_neg (by decide), if_neg (by decide), if_neg (by decide), if_neg (by decide),
        if_neg (by decide), if_pos rfl]
      unfold Mac.init
      rw [g1]
      simp only [Res.bind_ok, hI.enc _ hz, hmk, Option.getD_some, PyVal.data_none hv,
        Bool.false_eq_true, if_false, update_other _ v hv, Res.bind_error]
      rfl

/-- The exact behaviour of `new` for every combination of arguments: the checks are made in the
documented order with the documented messages, except that the empty initialisation vector is accepted
and that a MAC text which is not empty but shorter than a block raises `IndexError`. -/
theorem C20_exact (a : CipherArgs) :
    (shortText a → (newArgs a).err? = (match (faultWith ivCode a).map Err.cipherError with
      | some e => some e
      | none => some .indexError)) ∧
    (¬ shortText a → (newArgs a).err? = (faultWith ivCode a).map Err.cipherError) := by
  suffices h : (newArgs a).err? = match (faultWith ivCode a).map Err.cipherError with
      | some e => some e
      | none => if a.mode = 255 then
          match a.data.bind byteLen with
          | some n => if 0 < n ∧ n < algBlock a.alg then some .indexError else none
          | none => none
        else none by
    constructor
    · rintro ⟨hm, n, hn, h0, h1⟩
      rw [h, hn, if_pos hm]
      simp only [h0, h1, and_self, if_true]
    · intro hs
      rw [h]
      cases (faultWith ivCode a).map Err.cipherError with
      | some e => rfl
      | none =>
        by_cases hm : a.mode = 255
        · simp only [hm, if_true]
          cases hn : a.data.bind byteLen with
          | none => rfl
          | some n =>
            simp only []
            rw [if_neg fun h => hs ⟨hm, n, hn, h.1, h.2⟩]
        · simp only [if_neg hm]
  obtain ⟨alg, kv, mode, pad, iv, dat⟩ := a
  unfold newArgs faultWith
  simp only []
  by_cases hm : mode ≠ 1 ∧ mode ≠ 2 ∧ mode ≠ 3 ∧ mode ≠ 5 ∧ mode ≠ 6 ∧ mode ≠ 255
  · rw [if_pos hm]
    unfold newCipher modeEcb modeCbc modeCfb modeOfb modeCtr modeMac
    obtain ⟨m1, m2, m3, m4, m5, m6⟩ := hm
    rw [if_neg m1, if_neg m2, if_neg m3, if_neg m4, if_neg m5, if_neg m6]
    rfl
  rw [if_neg hm]
  by_cases ha : alg ≠ "magma" ∧ alg ≠ "kuznechik"
  · rw [if_pos ha]
    unfold newCipher Ecb.init Cbc.init Ecb.init Fb.init Ctr.init Mac.init
    rw [baseInit_bad_alg alg kv ha]
    unfold modeEcb modeCbc modeCfb modeOfb modeCtr modeMac
    simp only [Res.bind_error]
    iterate 6 (split; · rfl)
    exfalso; exact hm ⟨by assumption, by assumption, by assumption, by assumption, by assumption, by assumption⟩
  rw [if_neg ha]
  by_cases hk : byteLen kv ≠ some 32
  · rw [if_pos hk]
    unfold newCipher Ecb.init Cbc.init Ecb.init Fb.init Ctr.init Mac.init
    rw [baseInit_bad_key alg kv ha hk]
    unfold modeEcb modeCbc modeCfb modeOfb modeCtr modeMac
    simp only [Res.bind_error]
    iterate 6 (split; · rfl)
    exfalso; exact hm ⟨by assumption, by assumption, by assumption, by assumption, by assumption, by assumption⟩
  rw [if_neg hk]
  obtain ⟨a, rfl, habs⟩ := alg_of_name ha
  have hk : byteLen kv = some 32 := by
    cases h : byteLen kv with
    | none => exact absurd (by rw [h]; simp) hk
    | some n =>
      by_cases h32 : n = 32
      · rw [h32]
      · exact absurd (by rw [h]; simpa using h32) hk
  rw [byteLen_eq] at hk
  cases hkd : kv.data? with
  | none => rw [hkd] at hk; cases hk
  | some key =>
  rw [hkd] at hk
  have hkl : key.length = 32 := by simpa using hk
  obtain ⟨o, hb, hg, hbs, _⟩ := baseInit_ok a kv key hkd hkl
  obtain ⟨l1, l2, l3⟩ := default_lengths a
  rw [← habs, ← hbs]
  rw [← hbs] at l1 l2 l3
  have cases6 : mode = 1 ∨ mode = 2 ∨ mode = 3 ∨ mode = 5 ∨ mode = 6 ∨ mode = 255 := by
    by_cases m1 : mode = 1; · exact Or.inl m1
    by_cases m2 : mode = 2; · exact Or.inr (Or.inl m2)
    by_cases m3 : mode = 3; · exact Or.inr (Or.inr (Or.inl m3))
    by_cases m4 : mode = 5; · exact Or.inr (Or.inr (Or.inr (Or.inl m4)))
    by_cases m5 : mode = 6; · exact Or.inr (Or.inr (Or.inr (Or.inr (Or.inl m5))))
    by_cases m6 : mode = 255; · exact Or.inr (Or.inr (Or.inr (Or.inr (Or.inr m6))))
    exact absurd ⟨m1, m2, m3, m4, m5, m6⟩ hm
  clear hm
  rcases cases6 with rfl | rfl | rfl | rfl | rfl | rfl
  · -- ECB
    unfold newCipher
    rw [if_pos (by decide), Res.err?_bind]
    have := ecbInit_err hb pad
    cases hi : Ecb.init a.name kv (pad.getD padMode1) with
    | ok s =>
      rw [hi] at this
      cases hp : padValid pad with
      | true => simp [Res.err?]
      | false => rw [hp] at this; simp [Res.err?] at this
    | error e =>
      rw [hi] at this
      cases hp : padValid pad with
      | false => rw [hp] at this; simp [Res.err?] at this; simp [this]
      | true => rw [hp] at this; simp [Res.err?] at this
  · -- CBC
    unfold newCipher
    rw [if_neg (by decide), if_pos (by decide), Res.err?_bind]
    unfold Cbc.init
    have hp := ecbInit_err hb pad
    have hv := checkIv_err o.blockSize iv _ l1
    cases hi : Ecb.init a.name kv (pad.getD padMode1) with
    | error e =>
      rw [hi] at hp
      simp only [Res.bind_error]
      cases hpv : padValid pad with
      | false => rw [hpv] at hp; simp [Res.err?] at hp; simp [hp]
      | true => rw [hpv] at hp; simp [Res.err?] at hp
    | ok s =>
      rw [hi] at hp
      have hpv : padValid pad = true := by
        cases hpv : padValid pad with
        | true => rfl
        | false => rw [hpv] at hp; simp [Res.err?] at hp
      simp only [Res.bind_ok, hb]
      cases hc : checkIv o.blockSize (iv.getD (.bytearray
          (if a.name = "magma" then defaultIvCbcMagma else defaultIvKuz))) with
      | error e =>
        rw [hc] at hv
        cases hvv : ivCode o.blockSize iv with
        | true => rw [hvv] at hv; simp [Res.err?] at hv
        | false => rw [hvv] at hv; simp [Res.err?] at hv; simp [hv, hpv]
      | ok w =>
        rw [hc] at hv
        cases hvv : ivCode o.blockSize iv with
        | false => rw [hvv] at hv; simp [Res.err?] at hv
        | true => simp [hpv, Res.err?]
  · -- CFB
    unfold newCipher
    rw [if_neg (by decide), if_neg (by decide), if_pos (by decide), Res.err?_bind]
    unfold Fb.init
    have hv := checkIv_err o.blockSize iv _ l2
    simp only [Res.bind_ok, hb]
    cases hc : checkIv o.blockSize (iv.getD (.bytearray
        (if a.name = "magma" then defaultIvMagma else defaultIvKuz))) with
    | error e =>
      rw [hc] at hv
      cases hvv : ivCode o.blockSize iv with
      | true => rw [hvv] at hv; simp [Res.err?] at hv
      | false => rw [hvv] at hv; simp [Res.err?] at hv; simp [hv]
    | ok w =>
      rw [hc] at hv
      cases hvv : ivCode o.blockSize iv with
      | false => rw [hvv] at hv; simp [Res.err?] at hv
      | true => simp [Res.err?]
  · -- OFB
    unfold newCipher
    rw [if_neg (by decide), if_neg (by decide), if_neg (by decide), if_pos (by decide), Res.err?_bind]
    unfold Fb.init
    have hv := checkIv_err o.blockSize iv _ l2
    simp only [Res.bind_ok, hb]
    cases hc : checkIv o.blockSize (iv.getD (.bytearray
        (if a.name = "magma" then defaultIvMagma else defaultIvKuz))) with
    | error e =>
      rw [hc] at hv
      cases hvv : ivCode o.blockSize iv with
      | true => rw [hvv] at hv; simp [Res.err?] at hv
      | false => rw [hvv] at hv; simp [Res.err?] at hv; simp [hv]
    | ok w =>
      rw [hc] at hv
      cases hvv : ivCode o.blockSize iv with
      | false => rw [hvv] at hv; simp [Res.err?] at hv
      | true => simp [Res.err?]
  · -- CTR
    unfold newCipher
    rw [if_neg (by decide), if_neg (by decide), if_neg (by decide), if_neg (by decide),
      if_pos (by decide), Res.err?_bind]
    have hv := ctrIv_err hb iv _ l3
    cases hc : Ctr.init a.name kv (iv.getD (.bytearray
        (if a.name = "magma" then defaultIvCtrMagma else defaultIvCtrKuz))) with
    | error e =>
      rw [hc] at hv
      cases hvv : ivCtrValid o.blockSize iv with
      | true => rw [hvv] at hv; simp [Res.err?] at hv
      | false => rw [hvv] at hv; simp [Res.err?] at hv; simp [hv]
    | ok w =>
      rw [hc] at hv
      cases hvv : ivCtrValid o.blockSize iv with
      | false => rw [hvv] at hv; simp [Res.err?] at hv
      | true => simp [Res.err?]
  · -- MAC
    rw [newMac_err a kv key hkd hkl pad iv dat, hbs]
    cases hdv : dataValid dat with
    | false => simp
    | true => simp

/-- The documented acceptance of arguments holds of the code for every combination of arguments in
which no empty initialisation vector is given to CBC, CFB or OFB and the MAC text is empty or at least
one block long. Missing: these two cases, in which it is false (`C20_negation`, `C20_short_mac`). -/
theorem C20_documented_partial (a : CipherArgs)
    (hiv : (a.mode = 2 ∨ a.mode = 3 ∨ a.mode = 5) → a.iv.bind byteLen ≠ some 0) (hs : ¬ shortText a) :
    (newArgs a).err? = (documentedFault a).map Err.cipherError := by
  rw [(C20_exact a).2 hs]
  congr 1
  unfold documentedFault faultWith
  by_cases h : a.mode = 2 ∨ a.mode = 3 ∨ a.mode = 5
  · have : ivCode (algBlock a.alg) a.iv = ivValid (algBlock a.alg) a.iv := by
      unfold ivCode
      have h0 : (a.iv.bind byteLen == some 0) = false := by
        have := hiv h
        simpa using this
      rw [h0, Bool.or_false]
    rw [this]
  · simp only [h, false_and, if_false]

/-- Cases of the hypotheses: an accepted call, and one rejected for the vector only. -/
example : documentedFault ⟨"magma", .bytes Ex.key, 3, none, some (.bytearray (Ex.count 1 24)), none⟩ = none ∧
    documentedFault ⟨"magma", .bytes Ex.key, 3, none, some (.bytes (Ex.count 1 23)), none⟩ =
      some "GOSTCipherError: invalid initialization vector value" := by decide +kernel

/-- Arguments which are left out never cause a fault: with any 32-byte key, both algorithms and all six
modes, `new` without keyword arguments succeeds. -/
theorem C20_defaults (a : Alg) (kv : PyVal) (key : Bytes) (hk : kv.data? = some key)
    (hkl : key.length = 32) (m : Int) (hm : m ∈ [modeEcb, modeCbc, modeCfb, modeOfb, modeCtr, modeMac]) :
    ∃ c, newCipher a.name kv m = .ok c := by
  have h := C20_documented_partial ⟨a.name, kv, m, none, none, none⟩ (by simp)
    (by rintro ⟨_, n, hn, _⟩; simp at hn)
  have hb : byteLen kv = some 32 := by rw [byteLen_eq, hk, Option.map_some, hkl]
  have hf : documentedFault ⟨a.name, kv, m, none, none, none⟩ = none := by
    unfold documentedFault faultWith
    simp only [hb, padValid, ivValid, ivCtrValid, dataValid, ne_eq, not_true_eq_false, if_false,
      Bool.true_eq_false, and_false]
    rw [if_neg, if_neg]
    · cases a <;> simp [Alg.name]
    · simp only [List.mem_cons, List.not_mem_nil, or_false, modeEcb, modeCbc, modeCfb, modeOfb,
        modeCtr, modeMac] at hm
      omega
  rw [hf] at h
  unfold newArgs at h
  simp only [] at h
  cases hc : newCipher a.name kv m with
  | ok c => exact ⟨c, rfl⟩
  | error e => rw [hc] at h; cases h

/-- C20 is false of the code: an empty initialisation vector is accepted in CBC, CFB and OFB mode, for
every key, although it is not of the documented length; encrypting anything with the object then raises
`IndexError`. -/
theorem C20_negation (a : Alg) (kv ivv : PyVal) (key : Bytes) (hk : kv.data? = some key)
    (hkl : key.length = 32) (hiv : ivv.data? = some []) (v : PyVal) (d : Bytes) (hv : v.data? = some d)
    (hd : d ≠ []) :
    (∀ m ∈ [modeCbc, modeCfb, modeOfb],
      documentedFault ⟨a.name, kv, m, none, some ivv, none⟩ =
        some "GOSTCipherError: invalid initialization vector value") ∧
    ∃ s₁ s₂ s₃, newCipher a.name kv modeCbc none (some ivv) = .ok (.cbc s₁) ∧
      newCipher a.name kv modeCfb none (some ivv) = .ok (.cfb s₂) ∧
      newCipher a.name kv modeOfb none (some ivv) = .ok (.ofb s₃) ∧
      (s₁.encrypt v).2 = .error .indexError ∧ (Cfb.encrypt s₂ v).2 = .error .indexError ∧
      (Ofb.encrypt s₃ v).2 = .error .indexError := by
  have hb : byteLen kv = some 32 := by rw [byteLen_eq, hk, Option.map_some, hkl]
  have hb' : byteLen ivv = some 0 := by rw [byteLen_eq, hiv]; rfl
  constructor
  · intro m hm
    unfold documentedFault faultWith
    simp only [hb, hb', padValid, ivValid]
    rcases List.mem_cons.1 hm with rfl | hm
    · cases a <;> rfl
    rcases List.mem_cons.1 hm with rfl | hm
    · cases a <;> rfl
    rcases List.mem_cons.1 hm with rfl | hm
    · cases a <;> rfl
    cases hm
  obtain ⟨o, hbi, hg, hbs, _⟩ := baseInit_ok a kv key hk hkl
  have hci : checkIv o.blockSize ivv = .ok [] := checkIv_ok _ _ [] hiv (by simp)
  have h2 : Fb.init a.name kv ivv = .ok ⟨o, []⟩ := by
    unfold Fb.init; rw [hbi, Res.bind_ok, hci, Res.bind_ok, Res.pure_eq]
  have h1 : Cbc.init a.name kv ivv padMode1 = .ok ⟨o, [], padMode1⟩ := by
    unfold Cbc.init
    rw [Ecb.init_ok a kv padMode1 (Or.inl rfl) o hbi]
    simp only [Res.bind_ok, hbi, hci, Res.pure_eq]
  refine ⟨⟨o, [], padMode1⟩, ⟨o, []⟩, ⟨o, []⟩, ?_, ?_, ?_, ?_, ?_, ?_⟩
  · unfold newCipher
    rw [if_neg (by decide), if_pos rfl]
    simp only [Option.getD_some, Option.getD_none, h1, Res.bind_ok, Res.pure_eq]
  · unfold newCipher
    rw [if_neg (by decide), if_neg (by decide), if_pos rfl]
    simp only [Option.getD_some, h2, Res.bind_ok, Res.pure_eq]
  · unfold newCipher
    rw [if_neg (by decide), if_neg (by decide), if_neg (by decide), if_pos rfl]
    simp only [Option.getD_some, h2, Res.bind_ok, Res.pure_eq]
  · rw [Cbc.encrypt_empty ⟨o, [], padMode1⟩ hg (Or.inl rfl) rfl v d hv]
  · rw [Cfb.encrypt_empty ⟨o, []⟩ hg rfl v d hv, if_neg hd]
  · rw [Ofb.encrypt_empty ⟨o, []⟩ hg rfl v d hv, if_neg hd]

/-- A MAC text which is not empty but shorter than a block makes `new` raise `IndexError`, although the
arguments are valid. -/
theorem C20_short_mac (a : Alg) (kv dv : PyVal) (key d : Bytes) (hk : kv.data? = some key)
    (hkl : key.length = 32) (hd : dv.data? = some d) (h0 : d ≠ []) (hlt : d.length < a.blockSize) :
    documentedFault ⟨a.name, kv, modeMac, none, none, some dv⟩ = none ∧
    newCipher a.name kv modeMac none none (some dv) = .error .indexError := by
  have hb : byteLen kv = some 32 := by rw [byteLen_eq, hk, Option.map_some, hkl]
  have hb' : byteLen dv = some d.length := by rw [byteLen_eq, hd, Option.map_some]
  constructor
  · unfold documentedFault faultWith
    simp only [hb, dataValid, hb', modeMac]
    cases a <;> rfl
  · obtain ⟨o, D, hg, hbs, hI, h1, h2⟩ := new_mac a kv key hk hkl none none
    rw [h2 dv d hd h0, hbs, if_pos hlt]

end Gost
