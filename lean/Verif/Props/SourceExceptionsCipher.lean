import Verif.Props.SourceExceptions
import Verif.Props.SourceMac
import Verif.Props.New
import Verif.Props.MacStore

/-! C116 for the cipher modes and the MAC. -/

namespace Gost.Src

open Spec ModesSrc

/-- The arguments of the constructor which are accepted. -/
theorem new_accepted {alg : String} {kv : PyVal} {mode : Int} {pad : Option Int} {iv dat : Option PyVal} {c : Cipher}
    (e : newCipher alg kv mode pad iv dat = .ok c) :
    faultWith ivCode ⟨alg, kv, mode, pad, iv, dat⟩ = none ∧ ¬ shortText ⟨alg, kv, mode, pad, iv, dat⟩ := by
  obtain ⟨p, q⟩ := C20_exact ⟨alg, kv, mode, pad, iv, dat⟩
  have h0 : (newArgs ⟨alg, kv, mode, pad, iv, dat⟩).err? = none := by
    unfold newArgs
    rw [e]
    rfl
  by_cases hs : shortText ⟨alg, kv, mode, pad, iv, dat⟩
  · have := p hs
    rw [h0] at this
    split at this <;> cases this
  · have := q hs
    rw [h0] at this
    refine ⟨?_, hs⟩
    generalize faultWith ivCode ⟨alg, kv, mode, pad, iv, dat⟩ = x at this
    cases x with
    | none => rfl
    | some m => cases this

/-- The conditions one by one. -/
theorem new_conditions {alg : String} {kv : PyVal} {mode : Int} {pad : Option Int} {iv dat : Option PyVal}
    (e : faultWith ivCode ⟨alg, kv, mode, pad, iv, dat⟩ = none) :
    (∃ a : Alg, alg = a.name ∧ algBlock alg = a.blockSize) ∧ (∃ key, kv.data? = some key ∧ key.length = 32) ∧
    (mode = 1 ∨ mode = 2 ∨ mode = 3 ∨ mode = 5 ∨ mode = 6 ∨ mode = 255) ∧
    (mode = 1 ∨ mode = 2 → padValid pad = true) ∧
    (mode = 2 ∨ mode = 3 ∨ mode = 5 → ivCode (algBlock alg) iv = true) ∧
    (mode = 6 → ivCtrValid (algBlock alg) iv = true) ∧
    (mode = 255 → dataValid dat = true) := by
  unfold faultWith at e
  dsimp only at e
  by_cases h1 : mode ≠ 1 ∧ mode ≠ 2 ∧ mode ≠ 3 ∧ mode ≠ 5 ∧ mode ≠ 6 ∧ mode ≠ 255
  · rw [if_pos h1] at e; cases e
  rw [if_neg h1] at e
  by_cases h2 : alg ≠ "magma" ∧ alg ≠ "kuznechik"
  · rw [if_pos h2] at e; cases e
  rw [if_neg h2] at e
  by_cases h3 : byteLen kv ≠ some 32
  · rw [if_pos h3] at e; cases e
  rw [if_neg h3] at e
  by_cases h4 : (mode = 1 ∨ mode = 2) ∧ padValid pad = false
  · rw [if_pos h4] at e; cases e
  rw [if_neg h4] at e
  by_cases h5 : (mode = 2 ∨ mode = 3 ∨ mode = 5) ∧ ivCode (algBlock alg) iv = false
  · rw [if_pos h5] at e; cases e
  rw [if_neg h5] at e
  by_cases h6 : mode = 6 ∧ ivCtrValid (algBlock alg) iv = false
  · rw [if_pos h6] at e; cases e
  rw [if_neg h6] at e
  by_cases h7 : mode = 255 ∧ dataValid dat = false
  · rw [if_pos h7] at e; cases e
  refine ⟨?_, ?_, by omega, fun h => ?_, fun h => ?_, fun h => ?_, fun h => ?_⟩
  · by_cases h : alg = "magma"
    · exact ⟨.magma, h, by subst h; rfl⟩
    · have h' : alg = "kuznechik" := Classical.byContradiction fun h' => h2 ⟨h, h'⟩
      exact ⟨.kuznechik, h', by subst h'; rfl⟩
  · replace h3 := Decidable.not_not.1 h3
    rw [byteLen_eq] at h3
    cases hk : kv.data? with
    | none => rw [hk] at h3; cases h3
    | some key => rw [hk] at h3; exact ⟨key, rfl, by simpa using h3⟩
  · cases hb : padValid pad with
    | true => rfl
    | false => exact absurd ⟨h, hb⟩ h4
  · cases hb : ivCode (algBlock alg) iv with
    | true => rfl
    | false => exact absurd ⟨h, hb⟩ h5
  · cases hb : ivCtrValid (algBlock alg) iv with
    | true => rfl
    | false => exact absurd ⟨h, hb⟩ h6
  · cases hb : dataValid dat with
    | true => rfl
    | false => exact absurd ⟨h, hb⟩ h7

/-- A result, or the exception of the cipher module. -/
def OwnRes (r : Res Bytes) : Prop := (∃ b, r = .ok b) ∨ ∃ m, r = .error (.cipherError m)

theorem fine_any (x : AnyAns) : OwnRes (anyRes x) := by
  cases x with
  | bytes b => exact Or.inl ⟨b, rfl⟩
  | badPlain => exact Or.inr ⟨_, rfl⟩
  | badCipher => exact Or.inr ⟨_, rfl⟩

/-- The mode of an object. -/
def modeOf : Cipher → Int
  | .ecb _ => modeEcb
  | .cbc _ => modeCbc
  | .cfb _ => modeCfb
  | .ofb _ => modeOfb
  | .ctr _ => modeCtr
  | .mac _ => modeMac

/-- Whatever is done with the object. -/
def Good (mode : Int) (c : Cipher) : Prop :=
  (Enciphers c ∧ modeOf c = mode) ∧ ∀ cs, ∀ r ∈ runHistory encryptOf decryptOf Cipher.clear c cs, OwnRes r

theorem good_of {mode : Int} {c : Cipher} (hc : Enciphers c ∧ modeOf c = mode) (f : List CipherCall → List AnyAns)
    (e : ∀ cs, runHistory encryptOf decryptOf Cipher.clear c cs = (f cs).map anyRes) : Good mode c := by
  refine ⟨hc, fun cs r hr => ?_⟩
  rw [e cs] at hr
  obtain ⟨x, -, rfl⟩ := List.mem_map.1 hr
  exact fine_any x

theorem Good.encrypt {m : Int} {c : Cipher} (g : Good m c) (v : PyVal) : OwnRes (encryptOf c v).2 ∧ Good m (encryptOf c v).1 :=
  ⟨g.2 [.encrypt v] _ (by simp [runHistory]), ⟨enciphers_encrypt g.1.1 v, (by cases c <;> rfl : modeOf (encryptOf c v).1 = modeOf c).trans g.1.2⟩, fun cs r hr => g.2 (.encrypt v :: cs) r (by
    simp only [runHistory]; exact List.mem_cons_of_mem _ hr)⟩

theorem Good.decrypt {m : Int} {c : Cipher} (g : Good m c) (v : PyVal) : OwnRes (decryptOf c v).2 ∧ Good m (decryptOf c v).1 :=
  ⟨g.2 [.decrypt v] _ (by simp [runHistory]), ⟨enciphers_decrypt g.1.1 v, (by cases c <;> rfl : modeOf (decryptOf c v).1 = modeOf c).trans g.1.2⟩, fun cs r hr => g.2 (.decrypt v :: cs) r (by
    simp only [runHistory]; exact List.mem_cons_of_mem _ hr)⟩

theorem Good.clear {m : Int} {c : Cipher} (g : Good m c) : Good m c.clear :=
  ⟨⟨enciphers_clear g.1.1, (by cases c <;> rfl : modeOf c.clear = modeOf c).trans g.1.2⟩, fun cs r hr => g.2 (.clear :: cs) r (by simp only [runHistory]; exact hr)⟩

/-- The vector which is used. -/
theorem iv_used {a : Alg} {kv : PyVal} {m : Int} (hm : m = modeCbc ∨ m = modeCfb ∨ m = modeOfb ∨ m = modeCtr) (p : Option Int)
    (iv dat : Option PyVal) : newCipher a.name kv m p iv dat =
      newCipher a.name kv m p (some (iv.getD (.bytearray (defaultIv a m)))) dat := by
  cases iv with
  | none => exact newCipher_iv a kv m hm p dat
  | some v => rfl

theorem default_iv_length (a : Alg) (m : Int) (hm : m = modeCbc ∨ m = modeCfb ∨ m = modeOfb) :
    0 < (defaultIv a m).length ∧ (defaultIv a m).length % a.blockSize = 0 := by
  rcases hm with rfl | rfl | rfl <;> cases a <;> decide

theorem good_new {alg : String} {kv : PyVal} {mode : Int} {pad : Option Int} {iv dat : Option PyVal} {c : Cipher}
    (e : newCipher alg kv mode pad iv dat = .ok c) (hm : mode ≠ modeMac) (hi : ∀ v, iv = some v → v.data? ≠ some []) : Good mode c := by
  obtain ⟨⟨a, rfl, hb⟩, ⟨key, hk, hl⟩, h1, h2, h3, h4, -⟩ := new_conditions (new_accepted e).1
  rw [hb] at h3 h4
  have hiv : (mode = modeCbc ∨ mode = modeCfb ∨ mode = modeOfb) → ∃ b, (iv.getD (.bytearray (defaultIv a mode))).data? = some b ∧
      0 < b.length ∧ b.length % a.blockSize = 0 := by
    intro hm
    have hc := h3 hm
    cases iv with
    | none => exact ⟨_, rfl, default_iv_length a mode hm⟩
    | some v =>
      have hne := hi v rfl
      rw [Option.getD_some]
      cases hv : v.data? with
      | none =>
        have : byteLen v = none := by rw [byteLen_eq, hv]; rfl
        simp [ivCode, ivValid, this] at hc
      | some b =>
        have hbl : byteLen v = some b.length := by rw [byteLen_eq, hv]; rfl
        have h0 : 0 < b.length := List.length_pos_iff.2 fun h => hne (by rw [hv, h])
        refine ⟨b, rfl, h0, ?_⟩
        simp only [ivCode, ivValid, hbl, Option.bind_some, Bool.or_eq_true, Bool.and_eq_true, decide_eq_true_eq] at hc
        rcases hc with hc | hc
        · exact hc.2
        · simp at hc; subst hc; simp at h0
  have hpad : (mode = 1 ∨ mode = 2) → PadOk (pad.getD padMode1) := fun h => (padOk_iff pad).1 (h2 h)
  rcases h1 with rfl | rfl | rfl | rfl | rfl | rfl
  · obtain ⟨s, D, P, f, -, -, g⟩ := C71_ecb a kv key hk hl _ (hpad (Or.inl rfl)) iv dat
    rw [newCipher_pad, show (1 : Int) = modeEcb from rfl, f] at e
    cases e
    exact good_of ⟨trivial, rfl⟩ _ fun cs => (history_map Cipher.ecb (enc := Ecb.encrypt) (dec := Ecb.decrypt) (clr := Ecb.clear)
      (fun _ _ => rfl) (fun _ _ => rfl) (fun _ => rfl) cs s).trans (g cs)
  · obtain ⟨b, i1, i2, i3⟩ := hiv (Or.inl rfl)
    obtain ⟨s, D, P, f, -, -, g⟩ := C71_cbc a kv _ key b hk hl i1 i2 i3 _ (hpad (Or.inr rfl)) dat
    replace e := f.symm.trans ((iv_used (m := modeCbc) (Or.inl rfl) _ iv dat).symm.trans ((newCipher_pad a.name kv modeCbc pad iv dat).symm.trans e))
    cases e
    exact good_of ⟨trivial, rfl⟩ _ fun cs => (history_map Cipher.cbc (enc := Cbc.encrypt) (dec := Cbc.decrypt) (clr := Cbc.clear)
      (fun _ _ => rfl) (fun _ _ => rfl) (fun _ => rfl) cs s).trans (g cs).1
  · obtain ⟨b, i1, i2, i3⟩ := hiv (by decide)
    obtain ⟨s, f, g⟩ := C71_cfb a kv _ key b hk hl i1 i2 i3 pad dat
    replace e := f.symm.trans ((iv_used (m := modeCfb) (by decide) pad iv dat).symm.trans e)
    cases e
    exact good_of ⟨trivial, rfl⟩ _ fun cs => (history_map Cipher.cfb (enc := Cfb.encrypt) (dec := Cfb.decrypt) (clr := Fb.clear)
      (fun _ _ => rfl) (fun _ _ => rfl) (fun _ => rfl) cs s).trans (g cs).1
  · obtain ⟨b, i1, i2, i3⟩ := hiv (by decide)
    obtain ⟨s, f, g⟩ := C71_ofb a kv _ key b hk hl i1 i2 i3 pad dat
    replace e := f.symm.trans ((iv_used (m := modeOfb) (by decide) pad iv dat).symm.trans e)
    cases e
    exact good_of ⟨trivial, rfl⟩ _ fun cs => (history_map Cipher.ofb (enc := Ofb.encrypt) (dec := Ofb.decrypt) (clr := Fb.clear)
      (fun _ _ => rfl) (fun _ _ => rfl) (fun _ => rfl) cs s).trans (g cs).1
  · have hc := h4 rfl
    have : ∃ b, (iv.getD (.bytearray (defaultIv a modeCtr))).data? = some b ∧ b.length = a.blockSize / 2 := by
      cases iv with
      | none => exact ⟨_, rfl, by cases a <;> rfl⟩
      | some v =>
        simp only [ivCtrValid, byteLen_eq] at hc
        rw [Option.getD_some]
        cases hv : v.data? with
        | none => rw [hv] at hc; simp at hc
        | some b => rw [hv] at hc; exact ⟨b, rfl, by simpa using hc⟩
    obtain ⟨b, i1, i2⟩ := this
    obtain ⟨s, f, g⟩ := C71_ctr a kv _ key b hk hl i1 i2 pad dat
    replace e := f.symm.trans ((iv_used (m := modeCtr) (by decide) pad iv dat).symm.trans e)
    cases e
    exact good_of ⟨trivial, rfl⟩ _ fun cs => (history_map Cipher.ctr (enc := Ctr.encrypt) (dec := Ctr.decrypt) (clr := Ctr.clear)
      (fun _ _ => rfl) (fun _ _ => rfl) (fun _ => rfl) cs s).trans (g cs).1
  · exact absurd rfl hm

/-- The uses of a cipher object with arguments which existed before it. -/
inductive CipherUse (mode : Int) (h : Heap) : Use → Prop where
  | encrypt (v : Val) (k : Known v h) : CipherUse mode h (.meth "encrypt" [v])
  | decrypt (v : Val) (k : Known v h) : CipherUse mode h (.meth "decrypt" [v])
  | clear : CipherUse mode h (.meth "clear" [])
  | oid : CipherUse mode h (.attr "oid")
  | blockSize : CipherUse mode h (.attr "block_size")
  | iv (m : mode = modeCbc ∨ mode = modeCfb ∨ mode = modeOfb) : CipherUse mode h (.attr "iv")
  | counter (m : mode = modeCtr) : CipherUse mode h (.attr "counter")

theorem method_answers {σ : Type} {o : Out Val} {h : Heap} {W : List Nat} {A : σ → Heap → Prop} {r : σ × Res Bytes}
    (m : Method o h W A r) (f : OwnRes r.2) :
    Answers (Only "GOSTCipherError") o ∧ Frame W h o.2 ∧ A r.1 o.2 := by
  obtain ⟨s, r⟩ := r
  rcases f with ⟨b, rfl⟩ | ⟨x, rfl⟩
  · obtain ⟨v, h', rfl, k, -, -, a⟩ := m
    exact ⟨trivial, k, a⟩
  · obtain ⟨h', rfl, k, a⟩ := m
    exact ⟨⟨_, rfl⟩, k, a⟩

theorem isCipher_ext {c : Cipher} {me : Nat} {P : List Nat} {h h' : Heap} (r : IsCipher c me P h) (x : Ext h h') :
    IsCipher c me P h' := by
  cases c with
  | ecb s => obtain ⟨cr, kr, a, rfl⟩ := r; exact ⟨cr, kr, ModeAt.ext a x, rfl⟩
  | cbc s => obtain ⟨cr, kr, iv, a, rfl⟩ := r; exact ⟨cr, kr, iv, FbAt.ext a x, rfl⟩
  | cfb s => obtain ⟨cr, kr, iv, a, rfl⟩ := r; exact ⟨cr, kr, iv, FbAt.ext a x, rfl⟩
  | ofb s => obtain ⟨cr, kr, iv, a, rfl⟩ := r; exact ⟨cr, kr, iv, FbAt.ext a x, rfl⟩
  | ctr s => obtain ⟨cr, kr, i0, ct, a, rfl⟩ := r; exact ⟨cr, kr, i0, ct, a.ext x, rfl⟩
  | mac s => obtain ⟨cr, kr, y, a, rfl⟩ := r; exact ⟨cr, kr, y, a.ext x, rfl⟩

theorem cipher_uses (L n : Nat) {mode : Int} {c : Cipher} {me : Nat} {P : List Nat} {h0 h : Heap} (hP : ∀ p ∈ P, h0.length ≤ p)
    (k : Frame P h0 h) (g : Good mode c) (r : IsCipher c me P h) (us : List Use) (hu : ∀ u ∈ us, CipherUse mode h0 u) :
    AllAnswer (Only "GOSTCipherError") (ctx L (n + 9)) (.ref me) us h := by
  refine allAnswer (fun h => ∃ c, Frame P h0 h ∧ Good mode c ∧ IsCipher c me P h) ?_ us hu h ⟨c, k, g, r⟩
  rintro u a h ⟨c, k, g, r⟩
  have hv : ∀ {v}, Known v h0 → Known v h ∧ (∀ p ∈ P, v ≠ .ref p) := fun {v} kv =>
    ⟨fun r hr => Nat.lt_of_lt_of_le (kv r hr) k.1, fun p hp e => by have := kv p e; have := hP p hp; omega⟩
  cases a with
  | encrypt v kv =>
    obtain ⟨q1, q2⟩ := g.encrypt (pyVal v h)
    obtain ⟨p1, p2, p3⟩ := method_answers (C101_methods L n h c g.1.1 me P r v (hv kv).1 (hv kv).2).1 q1
    exact ⟨p1, _, k.trans p2, q2, p3⟩
  | decrypt v kv =>
    obtain ⟨q1, q2⟩ := g.decrypt (pyVal v h)
    obtain ⟨p1, p2, p3⟩ := method_answers (C101_methods L n h c g.1.1 me P r v (hv kv).1 (hv kv).2).2 q1
    exact ⟨p1, _, k.trans p2, q2, p3⟩
  | clear =>
    obtain ⟨h', f, p2, p3⟩ := C101_clear L n h c me P r
    simp only [Use.run]
    rw [f]
    exact ⟨trivial, _, k.trans p2, g.clear, p3⟩
  | oid =>
    obtain ⟨o, f, -⟩ := C101_oid L (n + 9) h c me P r
    simp only [Use.run]
    rw [f]
    exact ⟨trivial, c, k, g, r⟩
  | blockSize =>
    simp only [Use.run]
    rw [(C101_properties L n h c me P r).1]
    exact ⟨trivial, c, k, g, r⟩
  | iv m =>
    obtain ⟨-, p2, p3, -⟩ := C101_properties L n h c me P r
    have hm := g.1.2
    have : ∃ b, NewBytes (getAttr (ctx L (n + 9)) (.ref me) "iv" h) h b := by
      subst hm
      cases c with
      | cbc s => exact ⟨_, p2 s rfl⟩
      | cfb s => exact ⟨_, p3 s (Or.inl rfl)⟩
      | ofb s => exact ⟨_, p3 s (Or.inr rfl)⟩
      | ecb s => exact absurd m (by simp only [modeOf]; decide)
      | ctr s => exact absurd m (by simp only [modeOf]; decide)
      | mac s => exact g.1.1.elim
    obtain ⟨b, nb⟩ := this
    have x := newBytes_ext nb
    exact ⟨answers_new nb, c, k.trans (x.frame _), g, isCipher_ext r x⟩
  | counter m =>
    obtain ⟨-, -, -, p4⟩ := C101_properties L n h c me P r
    have hm := g.1.2
    have : ∃ ct, getAttr (ctx L (n + 9)) (.ref me) "counter" h = ok (.ref ct) h := by
      subst hm
      cases c with
      | ctr s =>
        obtain ⟨ct, -, f, -⟩ := p4 s rfl
        exact ⟨ct, f⟩
      | cbc s => exact absurd m (by simp only [modeOf]; decide)
      | cfb s => exact absurd m (by simp only [modeOf]; decide)
      | ofb s => exact absurd m (by simp only [modeOf]; decide)
      | ecb s => exact absurd m (by simp only [modeOf]; decide)
      | mac s => exact g.1.1.elim
    obtain ⟨ct, f⟩ := this
    simp only [Use.run]
    rw [f]
    exact ⟨trivial, c, k, g, r⟩

/-- The text of `MODE_MAC` is a byte string which is not empty and shorter than a block. -/
def ShortData (alg : String) (mode : Int) (l : List (String × Val)) (h : Heap) : Prop :=
  mode = modeMac ∧ ∃ v b, findAttr "data" l = some v ∧ bytesOf v h = some b ∧ b ≠ [] ∧
    b.length < (if alg = "magma" then 8 else 16)

/-- C116, `gostcipher.new`, any algorithm, any key, any integer as mode and any keyword arguments except a padding
mode which is not an integer: the exceptions are those of the module, or `IndexError` for a short text in
`MODE_MAC`. -/
theorem C116_cipher_new_partial (L n : Nat) (h : Heap) (alg : String) (kv : Val) (hk : Known kv h) (mode : Int)
    (l : List (String × Val)) (k : KwKnown l h) (pad : Int) (hp : PadArg l pad) :
    Answers (fun e => Only "GOSTCipherError" e ∨ (e = .index ∧ ShortData alg mode l h))
      (call package L (n + 8) "Modes.new" [.str alg, kv, .int mode, .dict l] h) := by
  obtain ⟨p, -, h2⟩ := kwArgs k hp
  have f := C101_new L n h alg kv hk mode l p _ _ h2
  generalize e : newCipher alg (pyVal kv h) mode p ((findAttr "init_vect" l).map (pyVal · h))
    ((findAttr "data" l).map (pyVal · h)) = res at f
  cases res with
  | ok c =>
    obtain ⟨me, P, h', f, -⟩ := f
    rw [f]
    trivial
  | error x =>
    obtain ⟨h', f, -⟩ := f
    rw [f]
    obtain ⟨p1, p2⟩ := C20_exact ⟨alg, pyVal kv h, mode, p, (findAttr "init_vect" l).map (pyVal · h),
      (findAttr "data" l).map (pyVal · h)⟩
    have he : (newArgs ⟨alg, pyVal kv h, mode, p, (findAttr "init_vect" l).map (pyVal · h),
      (findAttr "data" l).map (pyVal · h)⟩).err? = some x := by
      unfold newArgs
      rw [e]
      rfl
    rw [he] at p1 p2
    generalize faultWith ivCode _ = ft at p1 p2
    by_cases hs : shortText ⟨alg, pyVal kv h, mode, p, (findAttr "init_vect" l).map (pyVal · h),
      (findAttr "data" l).map (pyVal · h)⟩
    · have := p1 hs
      cases ft with
      | some m =>
        cases this
        exact Or.inl ⟨_, rfl⟩
      | none =>
        cases this
        refine Or.inr ⟨rfl, ?_⟩
        obtain ⟨hm, len, h3, h4, h5⟩ := hs
        refine ⟨hm, ?_⟩
        dsimp only at h3 h5
        cases ed : findAttr "data" l with
        | none => rw [ed] at h3; cases h3
        | some v =>
          rw [ed] at h3
          simp only [Option.map_some, Option.bind_some, byteLen_eq, pyVal_data] at h3
          cases eb : bytesOf v h with
          | none => rw [eb] at h3; cases h3
          | some b =>
            rw [eb] at h3
            simp only [Option.map_some, Option.some.injEq] at h3
            refine ⟨v, b, rfl, eb, ?_, ?_⟩
            · rintro rfl
              simp at h3
              omega
            · rw [h3]
              exact h5
    · have := p2 hs
      cases ft with
      | some m =>
        cases this
        exact Or.inl ⟨_, rfl⟩
      | none => cases this

/-- C116, cipher objects, for any arguments which the constructor accepts, except an empty initialisation vector:
whatever is done with the object, only the exception of the module is raised. -/
theorem C116_cipher_partial (L n : Nat) (h : Heap) (alg : String) (kv : Val) (hk : Known kv h) (mode : Int)
    (l : List (String × Val)) (k : KwKnown l h) (pad : Int) (hp : PadArg l pad) (hm : mode ≠ modeMac)
    (hi : ∀ v, findAttr "init_vect" l = some v → bytesOf v h ≠ some []) (o : Val) (h' : Heap)
    (e : call package L (n + 9) "Modes.new" [.str alg, kv, .int mode, .dict l] h = ok o h') (us : List Use)
    (hu : ∀ u ∈ us, CipherUse mode h u) : AllAnswer (Only "GOSTCipherError") (ctx L (n + 9)) o us h' := by
  obtain ⟨p, -, h2⟩ := kwArgs k hp
  have f := C101_new L (n + 1) h alg kv hk mode l p _ _ h2
  generalize ec : newCipher alg (pyVal kv h) mode p ((findAttr "init_vect" l).map (pyVal · h))
    ((findAttr "data" l).map (pyVal · h)) = res at f
  cases res with
  | error x =>
    obtain ⟨h1, f, -⟩ := f
    rw [f] at e
    cases e
  | ok c =>
    obtain ⟨me, P, h1, f, x, -, hP, a⟩ := f
    rw [f] at e
    cases e
    refine cipher_uses L n hP (x.frame _) (good_new ec hm ?_) a us hu
    intro v hv
    cases ei : findAttr "init_vect" l with
    | none => rw [ei] at hv; cases hv
    | some w =>
      rw [ei] at hv
      cases hv
      rw [pyVal_data]
      exact hi w ei

/-! ### MAC -/

/-- A result, the exception of the module, or `IndexError` if `short`. -/
def MacFine (short : Bool) (r : Res MacVal) : Prop :=
  (∃ b, r = .ok b) ∨ (∃ m, r = .error (.cipherError m)) ∨ (short = true ∧ r = .error .indexError)

/-- With `short = false` no text shorter than `n`. -/
def LongText (short : Bool) (n : Nat) : MacCall → Prop
  | .update v => short = true ∨ ∀ d, v.data? = some d → n ≤ d.length
  | _ => True

/-- Whatever is done with the object. -/
def GoodMac (short : Bool) (n : Nat) (s : Mac) : Prop :=
  ∀ cs, (∀ c ∈ cs, LongText short n c) → ∀ r ∈ MacCall.results s cs, MacFine short r

theorem GoodMac.step {short : Bool} {n : Nat} {s : Mac} (g : GoodMac short n s) {c : MacCall} (hc : LongText short n c) :
    MacFine short (c.result s) ∧ GoodMac short n (c.apply s) := by
  refine ⟨g [c] (by simpa using hc) _ (by simp [MacCall.results]), fun cs hcs r hr => g (c :: cs) ?_ r ?_⟩
  · simp only [List.mem_cons, forall_eq_or_imp]
    exact ⟨hc, hcs⟩
  · simp only [MacCall.results]
    exact List.mem_cons_of_mem _ hr

theorem macFine_answers {short : Bool} {n : Nat} (E : Bool → List UInt8 → List UInt8) (K1 K2 : List UInt8) (cs : List MacCall)
    (hcs : ∀ c ∈ cs, LongText short n c) : ∀ p, ∀ x ∈ macAnswers E K1 K2 n p (cs.map MacCall.op), MacFine short (macRes x) := by
  induction cs with
  | nil => intro p x hx; cases hx
  | cons c cs ih =>
    intro p x hx
    simp only [List.map_cons, macAnswers, List.mem_cons] at hx
    rcases hx with rfl | hx
    · have h1 : LongText short n c := hcs c (by simp)
      cases c with
      | update v =>
        simp only [MacCall.op]
        cases hv : v.data? with
        | none => exact Or.inr (Or.inl ⟨_, rfl⟩)
        | some d =>
          simp only [macCall]
          by_cases hd : p.tail.length + d.length < n
          · rw [if_pos hd]
            rcases h1 with h1 | h1
            · exact Or.inr (Or.inr ⟨h1, rfl⟩)
            · have := h1 d hv
              omega
          · rw [if_neg hd]
            exact Or.inl ⟨_, rfl⟩
      | digest i =>
        simp only [MacCall.op, macCall]
        split
        · exact Or.inr (Or.inl ⟨_, rfl⟩)
        · exact Or.inl ⟨_, rfl⟩
      | hexdigest i =>
        simp only [MacCall.op, macCall]
        split
        · exact Or.inr (Or.inl ⟨_, rfl⟩)
        · exact Or.inl ⟨_, rfl⟩
      | macFinal => exact Or.inl ⟨_, rfl⟩
      | clear => exact Or.inl ⟨_, rfl⟩
    · exact ih (fun c hc => hcs c (by simp [hc])) _ x hx

theorem goodMac_new {alg : String} {kv : PyVal} {pad : Option Int} {iv dat : Option PyVal} {c : Cipher}
    (e : newCipher alg kv modeMac pad iv dat = .ok c) (short : Bool) :
    ∃ s, c = .mac s ∧ GoodMac short (algBlock alg) s := by
  obtain ⟨f0, hs⟩ := new_accepted e
  obtain ⟨⟨a, rfl, hb⟩, ⟨key, hk, hl⟩, -, -, -, -, h5⟩ := new_conditions f0
  have hd : ∃ dv d, newCipher a.name kv modeMac pad iv dat = newCipher a.name kv modeMac pad iv (some dv) ∧
      dv.data? = some d ∧ (d = [] ∨ a.blockSize ≤ d.length) := by
    cases dat with
    | none => exact ⟨.bytearray [], [], rfl, rfl, Or.inl rfl⟩
    | some v =>
      have hv := h5 rfl
      simp only [dataValid, byteLen_eq] at hv
      cases ed : v.data? with
      | none => rw [ed] at hv; cases hv
      | some d =>
        refine ⟨v, d, rfl, ed, ?_⟩
        by_cases h0 : d = []
        · exact Or.inl h0
        · refine Or.inr (Nat.not_lt.1 fun hlt => hs ⟨rfl, d.length, ?_, List.length_pos_iff.2 h0, ?_⟩)
          · simp only [Option.bind_some, byteLen_eq, ed, Option.map_some]
          · rw [hb]
            exact hlt
  obtain ⟨dv, d, e1, e2, e3⟩ := hd
  obtain ⟨s, f, g⟩ := C72_history a kv dv key d hk hl e2 e3 pad iv
  rw [e1, f] at e
  cases e
  refine ⟨s, rfl, fun cs hcs r hr => ?_⟩
  rw [g cs] at hr
  obtain ⟨x, hx, rfl⟩ := List.mem_map.1 hr
  rw [hb] at hcs
  exact macFine_answers _ _ _ cs hcs _ x hx

/-- The uses of a MAC object with arguments which existed before it; with `short = false` every text is at least one
block, or no byte string. -/
inductive MacUse (short : Bool) (n : Nat) (h : Heap) : Use → Prop where
  | update (v : Val) (k : Known v h) (b : short = true ∨ ∀ d, bytesOf v h = some d → n ≤ d.length) :
      MacUse short n h (.meth "update" [v])
  | digest (i : Int) : MacUse short n h (.meth "digest" [.int i])
  | hexdigest (i : Int) : MacUse short n h (.meth "hexdigest" [.int i])
  | macFinal : MacUse short n h (.meth "mac_final" [])
  | clear : MacUse short n h (.meth "clear" [])
  | oid : MacUse short n h (.attr "oid")
  | blockSize : MacUse short n h (.attr "block_size")

theorem excOf_cipher {e : Exc} {m : String} (h : excOf e = some (.cipherError m)) : e = .raised "GOSTCipherError" m := by
  unfold excOf at h
  split at h <;> simp_all

theorem excOf_index {e : Exc} (h : excOf e = some .indexError) : e = .index := by
  unfold excOf at h
  split at h <;> simp_all

theorem macSeen_answers {o : Out Val} {r : Res MacVal} {short : Bool} (e : macSeen o = some r) (f : MacFine short r) :
    Answers (fun e => Only "GOSTCipherError" e ∨ (short = true ∧ e = .index)) o := by
  obtain ⟨x, h⟩ := o
  cases x with
  | ok v => trivial
  | error x =>
    simp only [macSeen] at e
    cases ex : excOf x with
    | none => rw [ex] at e; cases e
    | some y =>
      rw [ex] at e
      simp only [Option.map_some, Option.some.injEq] at e
      subst e
      rcases f with ⟨b, f⟩ | ⟨m, f⟩ | ⟨hs, f⟩
      · cases f
      · cases f
        exact Or.inl ⟨m, excOf_cipher ex⟩
      · cases f
        exact Or.inr ⟨hs, excOf_index ex⟩

theorem mac_uses (L n : Nat) {short : Bool} {bs : Nat} {s : Mac} {me : Nat} {P : List Nat} {h0 h : Heap}
    (hP : ∀ p ∈ P, h0.length ≤ p) (k : Frame P h0 h) (g : GoodMac short bs s) (r : IsCipher (.mac s) me P h) (us : List Use)
    (hu : ∀ u ∈ us, MacUse short bs h0 u) :
    AllAnswer (fun e => Only "GOSTCipherError" e ∨ (short = true ∧ e = .index)) (ctx L (n + 9)) (.ref me) us h := by
  refine allAnswer (fun h => ∃ s, Frame P h0 h ∧ GoodMac short bs s ∧ IsCipher (.mac s) me P h) ?_ us hu h ⟨s, k, g, r⟩
  rintro u a h ⟨s, k, g, r⟩
  have call : ∀ c : SrcMac, LongText short bs (c.model h) → u = .meth c.meth.1 c.meth.2 →
      Answers (fun e => Only "GOSTCipherError" e ∨ (short = true ∧ e = .index)) (u.run (ctx L (n + 9)) (.ref me) h) ∧
      ∃ s, Frame P h0 (u.run (ctx L (n + 9)) (.ref me) h).2 ∧ GoodMac short bs s ∧
        IsCipher (.mac s) me P (u.run (ctx L (n + 9)) (.ref me) h).2 := by
    rintro c hc rfl
    obtain ⟨e1, e2, e3, -⟩ := C102_methods L n h s me P r c
    obtain ⟨g1, g2⟩ := g.step hc
    exact ⟨macSeen_answers e1 g1, _, k.trans e2, g2, e3⟩
  cases a with
  | update v kv b =>
    refine call (.update v) ?_ rfl
    simp only [SrcMac.model, LongText]
    rw [frame_pyVal k kv hP, pyVal_data]
    exact b
  | digest i => exact call (.digest i) trivial rfl
  | hexdigest i => exact call (.hexdigest i) trivial rfl
  | macFinal => exact call .macFinal trivial rfl
  | clear => exact call .clear trivial rfl
  | oid =>
    obtain ⟨o, f, -⟩ := C101_oid L (n + 9) h _ me P r
    simp only [Use.run]
    rw [f]
    exact ⟨trivial, s, k, g, r⟩
  | blockSize =>
    simp only [Use.run]
    rw [(C101_properties L n h _ me P r).1]
    exact ⟨trivial, s, k, g, r⟩

/-- C116, MAC objects, for any arguments which the constructor accepts: besides the exception of the module there is
`IndexError`, and without a text shorter than a block there is none. -/
theorem C116_mac_partial (L n : Nat) (h : Heap) (alg : String) (kv : Val) (hk : Known kv h)
    (l : List (String × Val)) (k : KwKnown l h) (pad : Int) (hp : PadArg l pad) (o : Val) (h' : Heap)
    (e : call package L (n + 9) "Modes.new" [.str alg, kv, .int modeMac, .dict l] h = ok o h') (us : List Use) :
    ((∀ u ∈ us, MacUse false (if alg = "magma" then 8 else 16) h u) →
      AllAnswer (Only "GOSTCipherError") (ctx L (n + 9)) o us h') ∧
    ((∀ u ∈ us, MacUse true (if alg = "magma" then 8 else 16) h u) →
      AllAnswer (fun e => Only "GOSTCipherError" e ∨ e = .index) (ctx L (n + 9)) o us h') := by
  obtain ⟨p, -, h2⟩ := kwArgs k hp
  have f := C101_new L (n + 1) h alg kv hk modeMac l p _ _ h2
  generalize ec : newCipher alg (pyVal kv h) modeMac p ((findAttr "init_vect" l).map (pyVal · h))
    ((findAttr "data" l).map (pyVal · h)) = res at f
  cases res with
  | error x =>
    obtain ⟨h1, f, -⟩ := f
    rw [f] at e
    cases e
  | ok c =>
    obtain ⟨me, P, h1, f, x, -, hP, a⟩ := f
    rw [f] at e
    cases e
    constructor
    · intro hu
      obtain ⟨s, rfl, g⟩ := goodMac_new ec false
      have := mac_uses L n hP (x.frame _) g a us hu
      simpa using this
    · intro hu
      obtain ⟨s, rfl, g⟩ := goodMac_new ec true
      have := mac_uses L n hP (x.frame _) g a us hu
      simpa using this

end Gost.Src
