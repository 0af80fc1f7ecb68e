import Verif.Props.SourceContents
import Verif.Props.SourceExceptionsCipher

/-! C117 for `gostcipher`. -/

namespace Gost.Src

open Spec ModesSrc

/-- An argument with the contents. -/
def asBytes : Option Bytes → PyVal
  | some b => .bytes b
  | none => .other

theorem encryptOf_asBytes (c : Cipher) (v : PyVal) : encryptOf c v = encryptOf c (asBytes v.data?) := by
  cases v <;> cases c <;> rfl

theorem decryptOf_asBytes (c : Cipher) (v : PyVal) : decryptOf c v = decryptOf c (asBytes v.data?) := by
  cases v <;> cases c <;> rfl

theorem macUpdate_asBytes (s : Mac) (v : PyVal) : s.update v = s.update (asBytes v.data?) := by
  cases v <;> rfl

theorem asBytes_data (o : Option Bytes) : (asBytes o).data? = o := by cases o <;> rfl

theorem baseInit_congr (alg : String) {v w : PyVal} (e : v.data? = w.data?) : baseInit alg v = baseInit alg w := by
  have : checkValue v 32 = checkValue w 32 := by
    unfold checkValue
    rw [e]
  unfold baseInit
  rw [this, e]

theorem getD_congr {iv iv' : Option PyVal} (e : iv.map PyVal.data? = iv'.map PyVal.data?) (d : PyVal) :
    (iv.getD d).data? = (iv'.getD d).data? := by
  cases iv <;> cases iv' <;> simp_all

/-- The model of `gostcipher.new` depends on the contents. -/
theorem newCipher_congr (alg : String) {v w : PyVal} (e : v.data? = w.data?) (mode : Int) (pad : Option Int)
    {iv iv' : Option PyVal} (ei : iv.map PyVal.data? = iv'.map PyVal.data?) {d d' : Option PyVal}
    (ed : d.map PyVal.data? = d'.map PyVal.data?) :
    newCipher alg v mode pad iv d = newCipher alg w mode pad iv' d' := by
  have hecb : ∀ p, Ecb.init alg v p = Ecb.init alg w p := fun p => by
    unfold Ecb.init
    rw [baseInit_congr alg e]
  have hcbc : ∀ x p, Cbc.init alg v (iv.getD x) p = Cbc.init alg w (iv'.getD x) p := fun x p => by
    rw [cbc_congr alg v (getD_congr ei x) p]
    unfold Cbc.init
    rw [baseInit_congr alg e, hecb]
  have hfb : ∀ x, Fb.init alg v (iv.getD x) = Fb.init alg w (iv'.getD x) := fun x => by
    rw [fb_congr alg v (getD_congr ei x)]
    unfold Fb.init
    rw [baseInit_congr alg e]
  have hctr : ∀ x, Ctr.init alg v (iv.getD x) = Ctr.init alg w (iv'.getD x) := fun x => by
    rw [ctr_congr alg v (getD_congr ei x)]
    unfold Ctr.init
    rw [baseInit_congr alg e]
  have hmac : Mac.init alg v (d.getD (.bytearray [])) = Mac.init alg w (d'.getD (.bytearray [])) := by
    have hd := getD_congr ed (.bytearray [])
    have hu : ∀ s : Mac, s.update (d.getD (.bytearray [])) = s.update (d'.getD (.bytearray [])) := fun s => by
      rw [macUpdate_asBytes, hd, ← macUpdate_asBytes]
    have he : (d.getD (.bytearray [])).isEmpty = (d'.getD (.bytearray [])).isEmpty := by
      rw [isEmpty_data, isEmpty_data, hd]
    unfold Mac.init
    simp only [baseInit_congr alg e, hu, he]
  unfold newCipher
  simp only [hcbc, hfb, hctr, hecb, hmac]

/-! Calls by the contents of their arguments. -/

/-- A call on a cipher object. -/
inductive CipherData where
  | encrypt (d : Option Bytes)
  | decrypt (d : Option Bytes)
  | clear

def SrcCall.contents (h : Heap) : SrcCall → CipherData
  | .encrypt v => .encrypt (bytesOf v h)
  | .decrypt v => .decrypt (bytesOf v h)
  | .clear => .clear

def CipherData.call : CipherData → CipherCall
  | .encrypt d => .encrypt (asBytes d)
  | .decrypt d => .decrypt (asBytes d)
  | .clear => .clear

theorem history_contents (h : Heap) (cs : List SrcCall) (c : Cipher) :
    runHistory encryptOf decryptOf Cipher.clear c (cs.map (·.model h)) =
      runHistory encryptOf decryptOf Cipher.clear c ((cs.map (·.contents h)).map (·.call)) := by
  induction cs generalizing c with
  | nil => rfl
  | cons x cs ih =>
    cases x with
    | encrypt v =>
      show (encryptOf c (pyVal v h)).2 :: runHistory encryptOf decryptOf Cipher.clear (encryptOf c (pyVal v h)).1 _ = _
      rw [ih, encryptOf_asBytes c (pyVal v h), pyVal_data]
      rfl
    | decrypt v =>
      show (decryptOf c (pyVal v h)).2 :: runHistory encryptOf decryptOf Cipher.clear (decryptOf c (pyVal v h)).1 _ = _
      rw [ih, decryptOf_asBytes c (pyVal v h), pyVal_data]
      rfl
    | clear =>
      show runHistory encryptOf decryptOf Cipher.clear c.clear _ = _
      rw [ih]
      rfl

/-- A call on a MAC object. -/
inductive MacArgs where
  | update (d : Option Bytes)
  | digest (size : Int)
  | hexdigest (size : Int)
  | macFinal
  | clear

def SrcMac.contents (h : Heap) : SrcMac → MacArgs
  | .update v => .update (bytesOf v h)
  | .digest i => .digest i
  | .hexdigest i => .hexdigest i
  | .macFinal => .macFinal
  | .clear => .clear

def MacArgs.call : MacArgs → MacCall
  | .update d => .update (asBytes d)
  | .digest i => .digest i
  | .hexdigest i => .hexdigest i
  | .macFinal => .macFinal
  | .clear => .clear

theorem results_contents (h : Heap) (cs : List SrcMac) (s : Mac) :
    MacCall.results s (cs.map (·.model h)) = MacCall.results s ((cs.map (·.contents h)).map (·.call)) := by
  induction cs generalizing s with
  | nil => rfl
  | cons x cs ih =>
    have : ∀ s : Mac, (x.model h).result s = (x.contents h).call.result s ∧ (x.model h).apply s = (x.contents h).call.apply s := by
      intro s
      cases x with
      | update v =>
        simp only [SrcMac.model, SrcMac.contents, MacArgs.call, MacCall.result, MacCall.apply]
        rw [macUpdate_asBytes s (pyVal v h), pyVal_data]
        exact ⟨rfl, rfl⟩
      | _ => exact ⟨rfl, rfl⟩
    simp only [List.map_cons, MacCall.results]
    rw [(this s).1, (this s).2, ih]

/-- The keyword arguments of the two calls of `gostcipher.new` have the same contents. -/
structure SameKw (l : List (String × Val)) (h : Heap) (l' : List (String × Val)) (h' : Heap) (pad : Int) : Prop where
  known : KwKnown l h
  known' : KwKnown l' h'
  padArg : PadArg l pad
  padArg' : PadArg l' pad
  iv : KwSame "init_vect" l h l' h'
  data : KwSame "data" l h l' h'

theorem kwSame_model {k : String} {l l' : List (String × Val)} {h h' : Heap} (e : KwSame k l h l' h') :
    ((findAttr k l).map (pyVal · h)).map PyVal.data? = ((findAttr k l').map (pyVal · h')).map PyVal.data? := by
  unfold KwSame at e
  simpa only [Option.map_map, Function.comp_def, pyVal_data] using e

theorem bind_pure {α : Type} {r : Res α} {f : α → Cipher} {c : Cipher} (e : (do let s ← r; pure (f s)) = Except.ok c) :
    ∃ s, c = f s := by
  cases r with
  | error x => cases e
  | ok s => cases e; exact ⟨s, rfl⟩

theorem newCipher_mode {alg : String} {key : PyVal} {mode : Int} {p : Option Int} {iv d : Option PyVal} {c : Cipher}
    (e : newCipher alg key mode p iv d = .ok c) : modeOf c = mode := by
  unfold newCipher at e
  split at e
  · next hm => obtain ⟨s, rfl⟩ := bind_pure e; exact hm.symm
  split at e
  · next hm => obtain ⟨s, rfl⟩ := bind_pure e; exact hm.symm
  split at e
  · next hm => obtain ⟨s, rfl⟩ := bind_pure e; exact hm.symm
  split at e
  · next hm => obtain ⟨s, rfl⟩ := bind_pure e; exact hm.symm
  split at e
  · next hm => obtain ⟨s, rfl⟩ := bind_pure e; exact hm.symm
  split at e
  · next hm => obtain ⟨s, rfl⟩ := bind_pure e; exact hm.symm
  · cases e

section
variable {L n : Nat} {h h' : Heap} {alg : String} {kv kv' : Val} (hk : Known kv h) (hk' : Known kv' h')
  (ek : bytesOf kv h = bytesOf kv' h') {mode : Int} {l l' : List (String × Val)} {pad : Int} (k : SameKw l h l' h' pad)

include hk hk' ek k

/-- Both calls make objects of the same model, or raise the same exception. -/
theorem new_same (L n : Nat) :
    (∃ c me P h1 me' P' h1', call package L (n + 8) "Modes.new" [.str alg, kv, .int mode, .dict l] h = ok (.ref me) h1 ∧
      Ext h h1 ∧ (∀ r ∈ P, h.length ≤ r) ∧ IsCipher c me P h1 ∧
      call package L (n + 8) "Modes.new" [.str alg, kv', .int mode, .dict l'] h' = ok (.ref me') h1' ∧
      Ext h' h1' ∧ (∀ r ∈ P', h'.length ≤ r) ∧ IsCipher c me' P' h1' ∧ (mode ≠ modeMac → Enciphers c) ∧
      (mode = modeMac → ∃ s, c = .mac s)) ∨
    ∃ e h1 h1', call package L (n + 8) "Modes.new" [.str alg, kv, .int mode, .dict l] h = fail e h1 ∧
      call package L (n + 8) "Modes.new" [.str alg, kv', .int mode, .dict l'] h' = fail e h1' := by
  obtain ⟨p, hp, a⟩ := kwArgs k.known k.padArg
  obtain ⟨p', hp', a'⟩ := kwArgs k.known' k.padArg'
  have f := C101_new L n h alg kv hk mode l p _ _ a
  have f' := C101_new L n h' alg kv' hk' mode l' p' _ _ a'
  have hpp : ∀ key iv d, newCipher alg key mode p iv d = newCipher alg key mode p' iv d := by
    intro key iv d
    unfold newCipher
    rw [hp, hp']
  rw [← hpp, ← newCipher_congr alg (v := pyVal kv h) (by rw [pyVal_data, pyVal_data, ek]) mode p (kwSame_model k.iv) (kwSame_model k.data)] at f'
  generalize e : newCipher alg (pyVal kv h) mode p ((findAttr "init_vect" l).map (pyVal · h))
    ((findAttr "data" l).map (pyVal · h)) = res at f f'
  cases res with
  | error x =>
    obtain ⟨h1, f, -⟩ := f
    obtain ⟨h1', f', -⟩ := f'
    exact Or.inr ⟨_, h1, h1', f, f'⟩
  | ok c =>
    obtain ⟨me, P, h1, f, x, -, hP, a⟩ := f
    obtain ⟨me', P', h1', f', x', -, hP', a'⟩ := f'
    have hm := newCipher_mode e
    refine Or.inl ⟨c, me, P, h1, me', P', h1', f, x, hP, a, f', x', hP', a', fun hne => ?_, fun he => ?_⟩
    · cases c <;> first | trivial | exact hne hm.symm
    · subst he
      cases c <;> first | exact ⟨_, rfl⟩ | exact absurd hm (by simp only [modeOf]; decide)

/-- C117, `gostcipher.new`: the exceptions depend on the contents of the arguments. -/
theorem C117_new (L n : Nat) (e : Exc) :
    (∃ h1, call package L (n + 8) "Modes.new" [.str alg, kv, .int mode, .dict l] h = fail e h1) ↔
    ∃ h1, call package L (n + 8) "Modes.new" [.str alg, kv', .int mode, .dict l'] h' = fail e h1 := by
  rcases new_same hk hk' ek (mode := mode) (alg := alg) k L n with
    ⟨c, me, P, h1, me', P', h1', f, -, -, -, f', -⟩ | ⟨e', h1, h1', f, f'⟩
  · rw [f, f']
    exact ⟨fun x => by (obtain ⟨_, x⟩ := x; cases x), fun x => by (obtain ⟨_, x⟩ := x; cases x)⟩
  · rw [f, f']
    constructor
    · rintro ⟨_, x⟩
      cases x
      exact ⟨_, rfl⟩
    · rintro ⟨_, x⟩
      cases x
      exact ⟨_, rfl⟩

/-- C117, the encryption modes: two programs whose arguments have the same contents see the same, whatever else is in
the memory and among the keyword arguments. -/
theorem C117_cipher (L n : Nat) (hm : mode ≠ modeMac) (cs cs' : List SrcCall) (hx : ∀ c ∈ cs, c.Known h)
    (hx' : ∀ c ∈ cs', c.Known h') (hc : cs.map (·.contents h) = cs'.map (·.contents h')) :
    cipherRun (ctx L (n + 9)) alg kv mode l cs h = cipherRun (ctx L (n + 9)) alg kv' mode l' cs' h' := by
  unfold cipherRun
  rw [ctx_call, ctx_call]
  rcases new_same hk hk' ek (mode := mode) (alg := alg) k L (n + 1) with
    ⟨c, me, P, h1, me', P', h1', f, x, hP, a, f', x', hP', a', q, -⟩ | ⟨e', h1, h1', f, f'⟩
  · rw [f, f']
    show some _ = some _
    rw [C101_calls L n me P h hP cs c h1 (x.frame _) (q hm) a hx, C101_calls L n me' P' h' hP' cs' c h1' (x'.frame _) (q hm) a' hx',
      history_contents h cs, history_contents h' cs', hc]
  · rw [f, f']
    rfl

/-- C117, the MAC. -/
theorem C117_mac (L n : Nat) (cs cs' : List SrcMac) (hx : ∀ c ∈ cs, c.Known h)
    (hx' : ∀ c ∈ cs', c.Known h') (hc : cs.map (·.contents h) = cs'.map (·.contents h')) :
    macRun (ctx L (n + 9)) alg kv l cs h = macRun (ctx L (n + 9)) alg kv' l' cs' h' := by
  unfold macRun
  rw [ctx_call, ctx_call]
  rcases new_same hk hk' ek (mode := modeMac) (alg := alg) k L (n + 1) with
    ⟨c, me, P, h1, me', P', h1', f, x, hP, a, f', x', hP', a', -, q⟩ | ⟨e', h1, h1', f, f'⟩
  · obtain ⟨s, rfl⟩ := q rfl
    rw [f, f']
    show some _ = some _
    rw [C102_calls L n me P h hP cs s h1 (x.frame _) a hx, C102_calls L n me' P' h' hP' cs' s h1' (x'.frame _) a' hx',
      results_contents h cs, results_contents h' cs', hc]
  · rw [f, f']
    rfl

end

/-! Instances. -/

theorem lit_known (b : Bytes) (h : Heap) : Known (.bytes b) h := fun r e => by cases e

theorem sameKw_nil (h h' : Heap) : SameKw [] h [] h' padMode1 where
  known := by intro k v e; cases e
  known' := by intro k v e; cases e
  padArg := Or.inl ⟨rfl, rfl⟩
  padArg' := Or.inl ⟨rfl, rfl⟩
  iv := rfl
  data := rfl

theorem sameKw_other (v : Val) (h : Heap) (kn : Known v h) : SameKw [("initvect", v)] h [] h padMode1 where
  known := by
    intro k v e
    simp only [findAttr] at e
    split at e
    · cases e; exact kn
    · cases e
  known' := by intro k v e; cases e
  padArg := Or.inl ⟨by simp [findAttr], rfl⟩
  padArg' := Or.inl ⟨rfl, rfl⟩
  iv := by simp [KwSame, findAttr]
  data := by simp [KwSame, findAttr]

/-- A misspelled keyword: the vector `initvect` is not used, and nothing is raised. -/
example (L n : Nat) (cs : List SrcCall) (hx : ∀ c ∈ cs, c.Known []) :
    cipherRun (ctx L (n + 9)) "kuznechik" (.bytes (List.replicate 32 1)) modeCbc [("initvect", .bytes (List.replicate 16 9))] cs [] =
    cipherRun (ctx L (n + 9)) "kuznechik" (.bytes (List.replicate 32 1)) modeCbc [] cs [] := by
  have hm : modeCbc ≠ modeMac := by decide
  exact C117_cipher (lit_known _ _) (lit_known _ _) rfl (sameKw_other _ _ (lit_known _ _)) L n hm cs cs hx hx rfl

/-- The key as a byte string and as a byte array, and the same for the message. -/
example (L n : Nat) : cipherRun (ctx L (n + 9)) "magma" (.bytes (List.replicate 32 1)) modeEcb [] [.encrypt (.bytes [1, 2, 3])] [] =
    cipherRun (ctx L (n + 9)) "magma" (.ref 0) modeEcb [] [.encrypt (.ref 1)]
      [.bytearray (List.replicate 32 1), .bytearray [1, 2, 3]] := by
  have hm : modeEcb ≠ modeMac := by decide
  have k0 : Known (.ref 0) [.bytearray (List.replicate 32 1), .bytearray [1, 2, 3]] := by intro r e; cases e; simp
  have k1 : Known (.ref 1) [.bytearray (List.replicate 32 1), .bytearray [1, 2, 3]] := by intro r e; cases e; simp
  exact C117_cipher (lit_known _ _) k0 rfl (sameKw_nil _ _) L n hm [.encrypt (.bytes [1, 2, 3])] [.encrypt (.ref 1)]
    (by simp only [List.mem_singleton]; rintro c rfl; exact lit_known _ _)
    (by simp only [List.mem_singleton]; rintro c rfl; exact k1) rfl

/-- The same for the hash. -/
example (L n : Nat) : programRun (ctx L (n + 7)) "Hash.new" [.str "streebog256", .dict [("data", .ref 0), ("dat", .int 1)]]
      [.meth "update" [.ref 1], .meth "digest" []] [.bytearray [1], .list []] =
    programRun (ctx L (n + 7)) "Hash.new" [.str "streebog256", .dict [("data", .bytes [1])]]
      [.meth "update" [.none], .meth "digest" []] [] :=
  C117_hash L n [.bytearray [1], .list []] [] (.str "streebog256") [("data", .ref 0), ("dat", .int 1)] [("data", .bytes [1])]
    (by
      intro k v e r hr
      subst hr
      simp only [findAttr] at e
      split at e
      · cases e; decide
      · split at e <;> cases e)
    (by
      intro k v e
      simp only [findAttr] at e
      split at e
      · cases e; exact lit_known _ _
      · cases e) rfl [.update (.ref 1), .digest] [.update .none, .digest]
    (by simp [HashCall.Known]; intro r e; cases e; decide) (by simp [HashCall.Known]; intro r e; cases e) rfl

end Gost.Src
