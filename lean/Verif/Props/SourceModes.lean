import Verif.SourceProofs.ModesNew
import Verif.Props.CipherAny
import Verif.Model.Ident

/-! C101: the text of `gost_34_13_2015.py` (ECB, CBC, CFB, OFB, CTR) computes the functions of the model, and the
modes of GOST R 34.13-2015. -/

namespace Gost.Src

open Spec ModesSrc

/-- The exceptions of Python which the model knows. -/
def excOf : Exc → Option Err
  | .raised "GOSTCipherError" m => some (.cipherError m)
  | .raised "GOSTHashError" m => some (.hashError m)
  | .raised "GOSTHMACError" m => some (.hmacError m)
  | .raised "GOSTPBKDFError" m => some (.pbkdfError m)
  | .raised "GOSTRandomError" m => some (.randomError m)
  | .raised "GOSTOIDError" m => some (.oidError m)
  | .raised "GOSTSignatureError" m => some (.signatureError m)
  | .index => some .indexError
  | .overflow => some .overflowError
  | .value => some .valueError
  | .zeroDiv => some .zeroDivisionError
  | _ => none

/-- What the caller of a method sees: bytes, a known exception, or anything else. -/
def seen : Out Val → Option (Res Bytes)
  | (.ok v, h) => (bytesOf v h).map .ok
  | (.error e, _) => (excOf e).map .error

/-- `o.encrypt(v)`, `o.decrypt(v)`, `o.clear()`. -/
inductive SrcCall where
  | encrypt (v : Val)
  | decrypt (v : Val)
  | clear

/-- The call with the contents of its argument. -/
def SrcCall.model (h : Heap) : SrcCall → CipherCall
  | .encrypt v => .encrypt (pyVal v h)
  | .decrypt v => .decrypt (pyVal v h)
  | .clear => .clear

/-- The argument exists in the memory `h`. -/
def SrcCall.Known (h : Heap) : SrcCall → Prop
  | .encrypt v => ModesSrc.Known v h
  | .decrypt v => ModesSrc.Known v h
  | .clear => True

/-- The results of a sequence of calls on the object `o`; exceptions are caught. -/
def cipherCalls (C : Ctx) (o : Val) : List SrcCall → Heap → List (Option (Res Bytes))
  | [], _ => []
  | .encrypt v :: cs, h => seen (callMeth C o "encrypt" [v] h) :: cipherCalls C o cs (callMeth C o "encrypt" [v] h).2
  | .decrypt v :: cs, h => seen (callMeth C o "decrypt" [v] h) :: cipherCalls C o cs (callMeth C o "decrypt" [v] h).2
  | .clear :: cs, h => cipherCalls C o cs (callMeth C o "clear" [] h).2

/-- `o = gostcipher.new(alg, key, mode, **kwargs)` and the calls on `o`. -/
def cipherRun (C : Ctx) (alg : String) (key : Val) (mode : Int) (kwargs : List (String × Val)) (cs : List SrcCall)
    (h : Heap) : Option (List (Option (Res Bytes))) :=
  match C.call "Modes.new" [.str alg, key, .int mode, .dict kwargs] h with
  | (.ok o, h) => some (cipherCalls C o cs h)
  | _ => none

/-- C101, constructor: `gostcipher.new(alg, key, mode, **kwargs)` as it is written, for any key and any keyword
arguments in any memory. Exactly the objects of the model are made and exactly its refusals happen; the object with
all its parts is new, and nothing that existed before is changed. -/
theorem C101_new (L n : Nat) (h : Heap) (alg : String) (kv : Val) (hk : Known kv h) (mode : Int)
    (l : List (String × Val)) (pad : Option Int) (iv data : Option PyVal) (k : KwArgs l h pad iv data) :
    match newCipher alg (pyVal kv h) mode pad iv data with
    | .ok c => ∃ me P h', call package L (n + 8) "Modes.new" [.str alg, kv, .int mode, .dict l] h = ok (.ref me) h' ∧
        Ext h h' ∧ h.length ≤ me ∧ (∀ r ∈ P, h.length ≤ r) ∧ IsCipher c me P h'
    | .error e => ∃ h', call package L (n + 8) "Modes.new" [.str alg, kv, .int mode, .dict l] h = fail (exc e) h' ∧
        Ext h h' :=
  new_ok L n alg hk mode k

/-- `encrypt` of the model. -/
def encryptOf : Cipher → PyVal → Cipher × Res Bytes
  | .ecb s, v => ((s.encrypt v).map .ecb id)
  | .cbc s, v => ((s.encrypt v).map .cbc id)
  | .cfb s, v => ((Cfb.encrypt s v).map .cfb id)
  | .ofb s, v => ((Ofb.encrypt s v).map .ofb id)
  | .ctr s, v => ((s.encrypt v).map .ctr id)
  | .mac s, _ => (.mac s, .error .valueError)

/-- `decrypt` of the model. -/
def decryptOf : Cipher → PyVal → Cipher × Res Bytes
  | .ecb s, v => ((s.decrypt v).map .ecb id)
  | .cbc s, v => ((s.decrypt v).map .cbc id)
  | .cfb s, v => ((Cfb.decrypt s v).map .cfb id)
  | .ofb s, v => ((Ofb.decrypt s v).map .ofb id)
  | .ctr s, v => ((s.decrypt v).map .ctr id)
  | .mac s, _ => (.mac s, .error .valueError)

/-- The object is not a MAC object. -/
def Enciphers : Cipher → Prop
  | .mac _ => False
  | _ => True

theorem method_map {σ τ : Type} {o : Out Val} {h : Heap} {W : List Nat} {A : σ → Heap → Prop} {B : τ → Heap → Prop}
    {r : σ × Res Bytes} (f : σ → τ) (m : Method o h W A r) (hf : ∀ s h, A s h → B (f s) h) :
    Method o h W B (r.map f id) := by
  obtain ⟨s, r⟩ := r
  cases r with
  | ok b =>
    obtain ⟨v, h', e, k, hv, hb, a⟩ := m
    exact ⟨v, h', e, k, hv, hb, hf _ _ a⟩
  | error x =>
    obtain ⟨h', e, k, a⟩ := m
    exact ⟨h', e, k, hf _ _ a⟩

/-- C101, methods: `encrypt` and `decrypt` as they are written, on any object, whatever was done with it before, and
for any argument which is not a register of the object itself. The result is a new byte array, only the registers
and the round keys of the object are changed, and the object is afterwards the one of the model, also if the call
is refused. -/
theorem C101_methods (L n : Nat) (h : Heap) (c : Cipher) (hc : Enciphers c) (me : Nat) (P : List Nat)
    (r : IsCipher c me P h) (v : Val) (hv : Known v h) (hP : ∀ p ∈ P, v ≠ .ref p) :
    Method (callMeth (ctx L (n + 9)) (.ref me) "encrypt" [v] h) h P (fun c h => IsCipher c me P h)
      (encryptOf c (pyVal v h)) ∧
    Method (callMeth (ctx L (n + 9)) (.ref me) "decrypt" [v] h) h P (fun c h => IsCipher c me P h)
      (decryptOf c (pyVal v h)) := by
  cases c with
  | ecb s =>
    obtain ⟨cr, kr, a, rfl⟩ := r
    obtain ⟨o, l, g, -⟩ := a.get
    constructor
    · py [g]
      exact method_map Cipher.ecb (ecb_encrypt L (n + 2) a hv) (fun s h a => ⟨cr, kr, a, rfl⟩)
    · py [g]
      exact method_map Cipher.ecb (ecb_decrypt L (n + 2) a hv) (fun s h a => ⟨cr, kr, a, rfl⟩)
  | cbc s =>
    obtain ⟨cr, kr, iv, a, rfl⟩ := r
    obtain ⟨o, l, g, -⟩ := a.mode.get
    have hi : v ≠ .ref iv := hP iv (by simp)
    constructor
    · py [g]
      exact method_map Cipher.cbc (cbc_encrypt L (n + 2) a hv hi) (fun s h a => ⟨cr, kr, iv, a, rfl⟩)
    · py [g]
      exact method_map Cipher.cbc (cbc_decrypt L (n + 2) a hv hi) (fun s h a => ⟨cr, kr, iv, a, rfl⟩)
  | cfb s =>
    obtain ⟨cr, kr, iv, a, rfl⟩ := r
    obtain ⟨o, l, g, -⟩ := a.mode.get
    have hi : v ≠ .ref iv := hP iv (by simp)
    constructor
    · py [g]
      exact method_map Cipher.cfb (cfb_encrypt L (n + 1) a hv hi) (fun s h a => ⟨cr, kr, iv, a, rfl⟩)
    · py [g]
      exact method_map Cipher.cfb (cfb_decrypt L (n + 1) a hv hi) (fun s h a => ⟨cr, kr, iv, a, rfl⟩)
  | ofb s =>
    obtain ⟨cr, kr, iv, a, rfl⟩ := r
    obtain ⟨o, l, g, -⟩ := a.mode.get
    have hi : v ≠ .ref iv := hP iv (by simp)
    constructor
    · py [g]
      exact method_map Cipher.ofb (ofb_encrypt L (n + 1) a hv hi) (fun s h a => ⟨cr, kr, iv, a, rfl⟩)
    · py [g]
      exact method_map Cipher.ofb (ofb_decrypt L n a hv hi) (fun s h a => ⟨cr, kr, iv, a, rfl⟩)
  | ctr s =>
    obtain ⟨cr, kr, i0, ct, a, rfl⟩ := r
    obtain ⟨o, l, g, -⟩ := a.mode.get
    have hi : v ≠ .ref ct := hP ct (by simp)
    constructor
    · py [g]
      exact method_map Cipher.ctr (ctr_encrypt L (n + 2) a hv hi) (fun s h a => ⟨cr, kr, i0, ct, a, rfl⟩)
    · py [g]
      exact method_map Cipher.ctr (ctr_decrypt L (n + 1) a hv hi) (fun s h a => ⟨cr, kr, i0, ct, a, rfl⟩)
  | mac s => exact hc.elim

/-- C101, `clear` on an object of any mode. -/
theorem C101_clear (L n : Nat) (h : Heap) (c : Cipher) (me : Nat) (P : List Nat) (r : IsCipher c me P h) :
    ∃ h', callMeth (ctx L (n + 9)) (.ref me) "clear" [] h = ok .none h' ∧ Frame P h h' ∧ IsCipher c.clear me P h' := by
  cases c with
  | ecb s =>
    obtain ⟨cr, kr, a, rfl⟩ := r
    obtain ⟨o, l, g, -⟩ := a.get
    obtain ⟨h', f, k, a'⟩ := clear_none L (n + 6) a (by simp)
    exact ⟨h', by py [g]; exact f, k, cr, kr, a', rfl⟩
  | cbc s =>
    obtain ⟨cr, kr, iv, a, rfl⟩ := r
    obtain ⟨o, l, g, -⟩ := a.mode.get
    obtain ⟨h', f, k, a'⟩ := clear_none L (n + 6) a.mode (by simpa using get_lt a.vec)
    exact ⟨h', by py [g]; exact f, frame_kr k, cr, kr, iv, FbAt.clear a k a', rfl⟩
  | cfb s =>
    obtain ⟨cr, kr, iv, a, rfl⟩ := r
    obtain ⟨o, l, g, -⟩ := a.mode.get
    obtain ⟨h', f, k, a'⟩ := clear_none L (n + 6) a.mode (by simpa using get_lt a.vec)
    exact ⟨h', by py [g]; exact f, frame_kr k, cr, kr, iv, FbAt.clear a k a', rfl⟩
  | ofb s =>
    obtain ⟨cr, kr, iv, a, rfl⟩ := r
    obtain ⟨o, l, g, -⟩ := a.mode.get
    obtain ⟨h', f, k, a'⟩ := clear_none L (n + 6) a.mode (by simpa using get_lt a.vec)
    exact ⟨h', by py [g]; exact f, frame_kr k, cr, kr, iv, FbAt.clear a k a', rfl⟩
  | ctr s =>
    obtain ⟨cr, kr, i0, ct, a, rfl⟩ := r
    obtain ⟨o, l, g, -⟩ := a.mode.get
    obtain ⟨h', f, k, a'⟩ := clear_none L (n + 6) a.mode (by simpa using get_lt a.count)
    exact ⟨h', by py [g]; exact f, frame_kr k, cr, kr, i0, ct, a.clear k a', rfl⟩
  | mac s =>
    obtain ⟨cr, kr, x, a, rfl⟩ := r
    obtain ⟨o, l, g, -⟩ := a.mode.get
    obtain ⟨h', f, k, a'⟩ := clear_none L (n + 6) a.mode (by simp)
    exact ⟨h', by py [g]; exact f, frame_kr k, cr, kr, x, a.clear k a', rfl⟩

theorem oid_ok (L n : Nat) {cls : String} {c : CipherObj} {me cr kr : Nat} {W : List Nat} {tl : List (String × Val)}
    {h : Heap} (a : ModeAt cls c me cr kr W tl h) :
    ∃ o, getAttr (ctx L n) (.ref me) "oid" h = ok (.ref o) h ∧ Streebog.OidAt c.oid o h := by
  obtain ⟨m, o, g, ho, -⟩ := a
  have hp : package.property cls "oid" = none := by
    rcases m with rfl | rfl | rfl | rfl | rfl | rfl <;> py []
  refine ⟨o, by py [g, hp], ?_⟩
  cases c <;> exact ho

/-- C101, `oid`: an object identifier with the string of the block cipher. -/
theorem C101_oid (L n : Nat) (h : Heap) (c : Cipher) (me : Nat) (P : List Nat) (r : IsCipher c me P h) :
    ∃ o, getAttr (ctx L n) (.ref me) "oid" h = ok (.ref o) h ∧ Streebog.OidAt c.oid o h := by
  cases c with
  | ecb s => obtain ⟨cr, kr, a, rfl⟩ := r; exact oid_ok L n a
  | cbc s => obtain ⟨cr, kr, iv, a, rfl⟩ := r; exact oid_ok L n a.mode
  | cfb s => obtain ⟨cr, kr, iv, a, rfl⟩ := r; exact oid_ok L n a.mode
  | ofb s => obtain ⟨cr, kr, iv, a, rfl⟩ := r; exact oid_ok L n a.mode
  | ctr s => obtain ⟨cr, kr, i0, ct, a, rfl⟩ := r; exact oid_ok L n a.mode
  | mac s => obtain ⟨cr, kr, x, a, rfl⟩ := r; exact oid_ok L n a.mode

/-- C101, properties: `block_size`, `iv` and `counter` as they are written. `iv` is a new array with the last block
of the register; `counter` is the register itself. -/
theorem C101_properties (L n : Nat) (h : Heap) (c : Cipher) (me : Nat) (P : List Nat) (r : IsCipher c me P h) :
    getAttr (ctx L (n + 9)) (.ref me) "block_size" h = ok (.int c.blockSize) h ∧
    (∀ s, c = .cbc s → NewBytes (getAttr (ctx L (n + 9)) (.ref me) "iv" h) h (ivProp s.obj.blockSize s.iv)) ∧
    (∀ s, c = .cfb s ∨ c = .ofb s → NewBytes (getAttr (ctx L (n + 9)) (.ref me) "iv" h) h (ivProp s.obj.blockSize s.iv)) ∧
    (∀ s, c = .ctr s → ∃ ct, ct ∈ P ∧ getAttr (ctx L (n + 9)) (.ref me) "counter" h = ok (.ref ct) h ∧
      bytesOf (.ref ct) h = some s.counter) := by
  cases c with
  | ecb s =>
    obtain ⟨cr, kr, a, rfl⟩ := r
    obtain ⟨o, l, g, -⟩ := a.get
    have := block_size_ok L (n + 7) a.hasBs
    exact ⟨by py [g]; exact this, by simp, by simp, by simp⟩
  | cbc s =>
    obtain ⟨cr, kr, iv, a, rfl⟩ := r
    obtain ⟨o, l, g, -⟩ := a.mode.get
    have := block_size_ok L (n + 7) a.mode.hasBs
    refine ⟨by py [g]; exact this, ?_, by simp, by simp⟩
    intro s' e
    cases e
    py [g]
    exact iv_ok L (n + 6) a
  | cfb s =>
    obtain ⟨cr, kr, iv, a, rfl⟩ := r
    obtain ⟨o, l, g, -⟩ := a.mode.get
    have := block_size_ok L (n + 7) a.mode.hasBs
    refine ⟨by py [g]; exact this, by simp, ?_, by simp⟩
    intro s' e
    rcases e with e | e <;> cases e
    py [g]
    exact iv_ok L (n + 6) a
  | ofb s =>
    obtain ⟨cr, kr, iv, a, rfl⟩ := r
    obtain ⟨o, l, g, -⟩ := a.mode.get
    have := block_size_ok L (n + 7) a.mode.hasBs
    refine ⟨by py [g]; exact this, by simp, ?_, by simp⟩
    intro s' e
    rcases e with e | e <;> cases e
    py [g]
    exact iv_ok L (n + 6) a
  | ctr s =>
    obtain ⟨cr, kr, i0, ct, a, rfl⟩ := r
    obtain ⟨o, l, g, -⟩ := a.mode.get
    have := block_size_ok L (n + 7) a.mode.hasBs
    refine ⟨by py [g]; exact this, by simp, by simp, ?_⟩
    intro s' e
    cases e
    exact ⟨ct, by simp, by py [g]; exact counter_ok L (n + 8) a, by simp only [bytesOf, a.count]⟩
  | mac s =>
    obtain ⟨cr, kr, x, a, rfl⟩ := r
    obtain ⟨o, l, g, -⟩ := a.mode.get
    have := block_size_ok L (n + 7) a.mode.hasBs
    exact ⟨by py [g]; exact this, by simp, by simp, by simp⟩

/-! ### Sequences of calls -/

theorem excOf_exc (e : Err) : excOf (exc e) = some e := by
  cases e <;> rfl

theorem method_seen {σ : Type} {o : Out Val} {h : Heap} {W : List Nat} {A : σ → Heap → Prop} {r : σ × Res Bytes}
    (m : Method o h W A r) : seen o = some r.2 ∧ Frame W h o.2 ∧ A r.1 o.2 := by
  obtain ⟨s, r⟩ := r
  cases r with
  | ok b =>
    obtain ⟨v, h', rfl, k, hv, hb, a⟩ := m
    exact ⟨by simp only [Src.seen, ok, hb]; rfl, k, a⟩
  | error x =>
    obtain ⟨h', rfl, k, a⟩ := m
    exact ⟨by simp only [Src.seen, fail, excOf_exc]; rfl, k, a⟩

theorem frame_pyVal {W : List Nat} {h h' : Heap} (f : Frame W h h') {v : Val} (k : Known v h)
    (hW : ∀ p ∈ W, h.length ≤ p) : pyVal v h' = pyVal v h := by
  cases v with
  | ref r =>
    have hr := k r rfl
    have : h'[r]? = h[r]? := f.2 r hr fun hm => by have := hW r hm; omega
    simp only [pyVal, bytesOf, this]
  | _ => rfl

theorem enciphers_encrypt {c : Cipher} (h : Enciphers c) (v : PyVal) : Enciphers (encryptOf c v).1 := by
  cases c <;> first | exact h.elim | trivial

theorem enciphers_decrypt {c : Cipher} (h : Enciphers c) (v : PyVal) : Enciphers (decryptOf c v).1 := by
  cases c <;> first | exact h.elim | trivial

theorem enciphers_clear {c : Cipher} (h : Enciphers c) : Enciphers c.clear := by
  cases c <;> first | exact h.elim | trivial

/-- C101, sequences: any calls in any order on one object, also refused ones, with arguments which exist in the
memory `h0` before the object. -/
theorem C101_calls (L n : Nat) (me : Nat) (P : List Nat) (h0 : Heap) (hP : ∀ p ∈ P, h0.length ≤ p) :
    ∀ (cs : List SrcCall) (c : Cipher) (h : Heap), Frame P h0 h → Enciphers c → IsCipher c me P h →
      (∀ x ∈ cs, x.Known h0) → cipherCalls (ctx L (n + 9)) (.ref me) cs h =
        (runHistory encryptOf decryptOf Cipher.clear c (cs.map (·.model h0))).map some := by
  intro cs
  induction cs with
  | nil => intros; rfl
  | cons x cs ih =>
    intro c h k q a hx
    have hv : ∀ {v}, Known v h0 → Known v h ∧ (∀ p ∈ P, v ≠ .ref p) := fun {v} kv =>
      ⟨fun r hr => Nat.lt_of_lt_of_le (kv r hr) k.1, fun p hp e => by have := kv p e; have := hP p hp; omega⟩
    have hcs : ∀ x ∈ cs, x.Known h0 := fun y hy => hx y (by simp [hy])
    have hx0 := hx x (by simp)
    cases x with
    | encrypt v =>
      obtain ⟨e1, e2, e3⟩ := method_seen (C101_methods L n h c q me P a v (hv hx0).1 (hv hx0).2).1
      rw [frame_pyVal k hx0 hP] at e1 e3
      simp only [cipherCalls, List.map_cons, SrcCall.model, runHistory]
      rw [e1, ih _ _ (k.trans e2) (enciphers_encrypt q _) e3 hcs]
      rfl
    | decrypt v =>
      obtain ⟨e1, e2, e3⟩ := method_seen (C101_methods L n h c q me P a v (hv hx0).1 (hv hx0).2).2
      rw [frame_pyVal k hx0 hP] at e1 e3
      simp only [cipherCalls, List.map_cons, SrcCall.model, runHistory]
      rw [e1, ih _ _ (k.trans e2) (enciphers_decrypt q _) e3 hcs]
      rfl
    | clear =>
      obtain ⟨h', f, e2, e3⟩ := C101_clear L n h c me P a
      simp only [cipherCalls, List.map_cons, SrcCall.model, runHistory]
      rw [f]
      exact ih _ _ (k.trans e2) (enciphers_clear q) e3 hcs

theorem history_map {σ : Type} (f : σ → Cipher) {enc dec : σ → PyVal → σ × Res Bytes} {clr : σ → σ}
    (h1 : ∀ s v, encryptOf (f s) v = ((enc s v).map f id)) (h2 : ∀ s v, decryptOf (f s) v = ((dec s v).map f id))
    (h3 : ∀ s, (f s).clear = f (clr s)) (cs : List CipherCall) :
    ∀ s, runHistory encryptOf decryptOf Cipher.clear (f s) cs = runHistory enc dec clr s cs := by
  induction cs with
  | nil => intro s; rfl
  | cons c cs ih =>
    intro s
    cases c with
    | encrypt v => simp only [runHistory, h1]; exact congrArg _ (ih _)
    | decrypt v => simp only [runHistory, h2]; exact congrArg _ (ih _)
    | clear => simp only [runHistory, h3]; exact ih _

/-- The object and the calls. -/
theorem cipherRun_ok (L n : Nat) (h : Heap) (alg : String) {kv : Val} (hk : Known kv h) (mode : Int)
    {l : List (String × Val)} {pad : Option Int} {iv data : Option PyVal} (k : KwArgs l h pad iv data) {c : Cipher}
    (e : newCipher alg (pyVal kv h) mode pad iv data = .ok c) (hc : Enciphers c) (cs : List SrcCall)
    (hx : ∀ x ∈ cs, x.Known h) :
    cipherRun (ctx L (n + 9)) alg kv mode l cs h =
      some ((runHistory encryptOf decryptOf Cipher.clear c (cs.map (·.model h))).map some) := by
  have := C101_new L (n + 1) h alg kv hk mode l pad iv data k
  rw [e] at this
  obtain ⟨me, P, h', f, x, h1, h2, a⟩ := this
  unfold cipherRun
  rw [ctx_call, f]
  exact congrArg some (C101_calls L n me P h h2 cs c h' (x.frame _) hc a hx)

theorem known_bytes {v : Val} {h : Heap} {b : Bytes} (e : bytesOf v h = some b) : Known v h := by
  rintro r rfl
  exact get_lt (Streebog.get_of_bytes e)

/-- The answers as the caller sees them. -/
def answers (l : List AnyAns) : List (Option (Res Bytes)) := l.map fun a => some (anyRes a)

/-- The argument `pad_mode`. -/
def PadArg (l : List (String × Val)) (pad : Int) : Prop :=
  (findAttr "pad_mode" l = none ∧ pad = padMode1) ∨ findAttr "pad_mode" l = some (.int pad)

/-- The argument `init_vect`, with the default `d`. -/
def IvArg (l : List (String × Val)) (h : Heap) (d iv : Bytes) : Prop :=
  (findAttr "init_vect" l = none ∧ iv = d) ∨ ∃ v, findAttr "init_vect" l = some v ∧ bytesOf v h = some iv

/-- The default of `init_vect`, gost_34_13_2015.py 59-83 and 158-179. -/
def defaultIv (a : Alg) (mode : Int) : Bytes :=
  match a with
  | .kuznechik => if mode = modeCtr then defaultIvCtrKuz else defaultIvKuz
  | .magma => if mode = modeCtr then defaultIvCtrMagma else if mode = modeCbc then defaultIvCbcMagma else defaultIvMagma

/-- The keyword arguments exist in the memory. -/
def KwKnown (l : List (String × Val)) (h : Heap) : Prop := ∀ k v, findAttr k l = some v → Known v h

theorem kwArgs {l : List (String × Val)} {h : Heap} {pad : Int} (k : KwKnown l h) (hp : PadArg l pad) :
    ∃ p, p.getD padMode1 = pad ∧ KwArgs l h p ((findAttr "init_vect" l).map (pyVal · h))
      ((findAttr "data" l).map (pyVal · h)) := by
  rcases hp with ⟨h1, rfl⟩ | h1
  · exact ⟨none, rfl, h1, rfl, rfl, k⟩
  · exact ⟨some pad, rfl, h1, rfl, rfl, k⟩

theorem newCipher_pad (alg : String) (k : PyVal) (m : Int) (p : Option Int) (iv dat : Option PyVal) :
    newCipher alg k m p iv dat = newCipher alg k m (some (p.getD padMode1)) iv dat := by
  cases p <;> rfl

theorem newCipher_iv (a : Alg) (k : PyVal) (m : Int) (hm : m = modeCbc ∨ m = modeCfb ∨ m = modeOfb ∨ m = modeCtr)
    (p : Option Int) (dat : Option PyVal) :
    newCipher a.name k m p none dat = newCipher a.name k m p (some (.bytearray (defaultIv a m))) dat := by
  rcases hm with rfl | rfl | rfl | rfl <;> cases a <;> rfl

/-- The arguments of `new` in the model. -/
theorem args_iv {l : List (String × Val)} {h : Heap} {pad : Int} {iv : Bytes} {a : Alg} {m : Int}
    (hm : m = modeCbc ∨ m = modeCfb ∨ m = modeOfb ∨ m = modeCtr) (k : KwKnown l h) (hp : PadArg l pad)
    (hi : IvArg l h (defaultIv a m) iv) :
    ∃ p i dat ivv, KwArgs l h p i dat ∧ ivv.data? = some iv ∧
      ∀ kv, newCipher a.name kv m p i dat = newCipher a.name kv m (some pad) (some ivv) dat := by
  obtain ⟨p, h1, h2⟩ := kwArgs k hp
  rcases hi with ⟨h3, rfl⟩ | ⟨v, h3, h4⟩
  · rw [h3] at h2
    exact ⟨p, _, _, _, h2, rfl, fun kv => by rw [newCipher_pad, h1]; exact newCipher_iv a kv m hm _ _⟩
  · rw [h3] at h2
    exact ⟨p, _, _, _, h2, (pyVal_data v h).trans h4, fun kv => by rw [newCipher_pad, h1]; rfl⟩

variable (L n : Nat) (h : Heap) (a : Alg) (kv : Val) (key : Bytes) (ek : bytesOf kv h = some key)
  (hl : key.length = 32) (l : List (String × Val)) (k : KwKnown l h) (pad : Int) (hp : PadArg l pad)
  (cs : List SrcCall) (hx : ∀ x ∈ cs, x.Known h)

include ek hl k hp hx

/-- C101, standard, ECB: any calls on a new object, as they are written; see C71 for the right-hand side. -/
theorem C101_ecb (ho : PadOk pad) :
    ∃ D P, DecPair a key D ∧ PadSpec a.blockSize pad P ∧
      cipherRun (ctx L (n + 9)) a.name kv modeEcb l cs h =
        some (answers (anyRun (fun c => ecbCall (if c then a.cleared else a.encrypt key) (D c) P a.blockSize) false ()
          (cs.map fun c => (c.model h).any)).2) := by
  obtain ⟨p, h1, h2⟩ := kwArgs k hp
  obtain ⟨s, D, P, e, hD, hP, hr⟩ := C71_ecb a (pyVal kv h) key ((pyVal_data kv h).trans ek) hl pad ho
    ((findAttr "init_vect" l).map (pyVal · h)) ((findAttr "data" l).map (pyVal · h))
  refine ⟨D, P, hD, hP, ?_⟩
  rw [cipherRun_ok L n h a.name (known_bytes ek) modeEcb h2 (c := .ecb s) (by rw [newCipher_pad, h1]; exact e) trivial cs hx,
    history_map Cipher.ecb (enc := Ecb.encrypt) (dec := Ecb.decrypt) (clr := Ecb.clear)
      (fun _ _ => rfl) (fun _ _ => rfl) (fun _ => rfl), hr, List.map_map, List.map_map]
  rfl

/-- C101, standard, CBC. -/
theorem C101_cbc (iv : Bytes) (hi : IvArg l h (defaultIv a modeCbc) iv) (h0 : 0 < iv.length) (hv : iv.length % a.blockSize = 0) (ho : PadOk pad) :
    ∃ D P, DecPair a key D ∧ PadSpec a.blockSize pad P ∧
      cipherRun (ctx L (n + 9)) a.name kv modeCbc l cs h =
        some (answers (anyRun (fun c => cbcCall (if c then a.cleared else a.encrypt key) (D c) P a.blockSize
          (iv.length / a.blockSize)) false (blocks a.blockSize iv) (cs.map fun c => (c.model h).any)).2) := by
  obtain ⟨p, i, dat, ivv, h2, hd, h3⟩ := args_iv (Or.inl rfl) k hp hi
  obtain ⟨s, D, P, e, hD, hP, hr⟩ := C71_cbc a (pyVal kv h) ivv key iv ((pyVal_data kv h).trans ek) hl hd h0 hv pad ho dat
  refine ⟨D, P, hD, hP, ?_⟩
  rw [cipherRun_ok L n h a.name (known_bytes ek) modeCbc h2 (c := .cbc s) (by rw [h3]; exact e) trivial cs hx,
    history_map Cipher.cbc (enc := Cbc.encrypt) (dec := Cbc.decrypt) (clr := Cbc.clear)
      (fun _ _ => rfl) (fun _ _ => rfl) (fun _ => rfl), (hr _).1, List.map_map, List.map_map]
  rfl

/-- C101, standard, CFB. -/
theorem C101_cfb (iv : Bytes) (hi : IvArg l h (defaultIv a modeCfb) iv) (h0 : 0 < iv.length) (hv : iv.length % a.blockSize = 0) :
    cipherRun (ctx L (n + 9)) a.name kv modeCfb l cs h =
        some (answers (anyRun (fun c => cfbCall (if c then a.cleared else a.encrypt key) a.blockSize
          (iv.length / a.blockSize)) false (blocks a.blockSize iv) (cs.map fun c => (c.model h).any)).2) := by
  obtain ⟨p, i, dat, ivv, h2, hd, h3⟩ := args_iv (Or.inr (Or.inl rfl)) k hp hi
  obtain ⟨s, e, hr⟩ := C71_cfb a (pyVal kv h) ivv key iv ((pyVal_data kv h).trans ek) hl hd h0 hv (some pad) dat
  rw [cipherRun_ok L n h a.name (known_bytes ek) modeCfb h2 (c := .cfb s) (by rw [h3]; exact e) trivial cs hx,
    history_map Cipher.cfb (enc := Cfb.encrypt) (dec := Cfb.decrypt) (clr := Fb.clear)
      (fun _ _ => rfl) (fun _ _ => rfl) (fun _ => rfl), (hr _).1, List.map_map, List.map_map]
  rfl

/-- C101, standard, OFB. -/
theorem C101_ofb (iv : Bytes) (hi : IvArg l h (defaultIv a modeOfb) iv) (h0 : 0 < iv.length) (hv : iv.length % a.blockSize = 0) :
    cipherRun (ctx L (n + 9)) a.name kv modeOfb l cs h =
        some (answers (anyRun (fun c => ofbCall (if c then a.cleared else a.encrypt key) a.blockSize
          (iv.length / a.blockSize)) false (blocks a.blockSize iv) (cs.map fun c => (c.model h).any)).2) := by
  obtain ⟨p, i, dat, ivv, h2, hd, h3⟩ := args_iv (Or.inr (Or.inr (Or.inl rfl))) k hp hi
  obtain ⟨s, e, hr⟩ := C71_ofb a (pyVal kv h) ivv key iv ((pyVal_data kv h).trans ek) hl hd h0 hv (some pad) dat
  rw [cipherRun_ok L n h a.name (known_bytes ek) modeOfb h2 (c := .ofb s) (by rw [h3]; exact e) trivial cs hx,
    history_map Cipher.ofb (enc := Ofb.encrypt) (dec := Ofb.decrypt) (clr := Fb.clear)
      (fun _ _ => rfl) (fun _ _ => rfl) (fun _ => rfl), (hr _).1, List.map_map, List.map_map]
  rfl

/-- C101, standard, CTR. -/
theorem C101_ctr (iv : Bytes) (hi : IvArg l h (defaultIv a modeCtr) iv) (hv : iv.length = a.blockSize / 2) :
    cipherRun (ctx L (n + 9)) a.name kv modeCtr l cs h =
        some (answers (anyRun (fun c => ctrCall (if c then a.cleared else a.encrypt key) a.blockSize iv) false 0 (cs.map fun c => (c.model h).any)).2) := by
  obtain ⟨p, i, dat, ivv, h2, hd, h3⟩ := args_iv (Or.inr (Or.inr (Or.inr rfl))) k hp hi
  obtain ⟨s, e, hr⟩ := C71_ctr a (pyVal kv h) ivv key iv ((pyVal_data kv h).trans ek) hl hd hv (some pad) dat
  rw [cipherRun_ok L n h a.name (known_bytes ek) modeCtr h2 (c := .ctr s) (by rw [h3]; exact e) trivial cs hx,
    history_map Cipher.ctr (enc := Ctr.encrypt) (dec := Ctr.decrypt) (clr := Ctr.clear)
      (fun _ _ => rfl) (fun _ _ => rfl) (fun _ => rfl), (hr _).1, List.map_map, List.map_map]
  rfl

omit ek hl k hp hx

/-! Values which meet the hypotheses. -/

example : bytesOf (.ref 0) [.bytearray (List.replicate 32 7)] = some (List.replicate 32 7) ∧
    (List.replicate 32 (7 : UInt8)).length = 32 ∧
    KwKnown [("init_vect", .bytes (List.replicate 16 9))] [.bytearray (List.replicate 32 7)] ∧
    PadArg [("init_vect", .bytes (List.replicate 16 9))] padMode1 ∧ PadOk padMode1 ∧
    IvArg [("init_vect", .bytes (List.replicate 16 9))] [.bytearray (List.replicate 32 7)]
      (defaultIv .kuznechik modeCbc) (List.replicate 16 9) ∧
    (∀ x ∈ [SrcCall.encrypt (.bytes [1, 2, 3]), .encrypt (.int 5), .clear, .decrypt (.ref 0)],
      x.Known [.bytearray (List.replicate 32 7)]) := by
  refine ⟨rfl, rfl, ?_, Or.inl ⟨rfl, rfl⟩, Or.inl rfl, Or.inr ⟨_, rfl, rfl⟩, ?_⟩
  · intro k v e r hr
    subst hr
    by_cases hk : k = "init_vect" <;> simp [findAttr, hk] at e
  · intro x hx
    simp only [List.mem_cons, List.not_mem_nil, or_false] at hx
    rcases hx with rfl | rfl | rfl | rfl <;> simp [SrcCall.Known, Known]

/-- The default vectors are accepted. -/
example (a : Alg) : IvArg [] [] (defaultIv a modeCfb) (defaultIv a modeCfb) ∧ 0 < (defaultIv a modeCfb).length ∧
    (defaultIv a modeCfb).length % a.blockSize = 0 ∧ (defaultIv a modeCbc).length % a.blockSize = 0 ∧
    (defaultIv a modeCtr).length = a.blockSize / 2 := by
  cases a <;> exact ⟨Or.inl ⟨rfl, rfl⟩, by decide, by decide, by decide, by decide⟩

/-- An object which the hypothesis of `C101_methods` is about. -/
example : ∃ h me P s, IsCipher (.ctr s) me P h := by
  obtain ⟨s, e, -⟩ := C71_ctr .magma (.bytes (List.replicate 32 1)) (.bytes [1, 2, 3, 4]) _ _ rfl rfl rfl rfl none none
  have := C101_new 0 0 [] "magma" (.bytes (List.replicate 32 1)) (fun r hr => by cases hr) modeCtr
    [("init_vect", .bytes [1, 2, 3, 4])] none (some (.bytes [1, 2, 3, 4])) none ⟨rfl, rfl, rfl, fun k v e r hr => by
      subst hr
      by_cases hk : "init_vect" = k <;> simp [findAttr, hk] at e⟩
  rw [show pyVal (.bytes (List.replicate 32 1)) [] = .bytes (List.replicate 32 1) from rfl] at this
  rw [show newCipher "magma" (.bytes (List.replicate 32 1)) modeCtr none (some (.bytes [1, 2, 3, 4])) none =
    .ok (.ctr s) from e] at this
  obtain ⟨me, P, h', -, -, -, -, a⟩ := this
  exact ⟨h', me, P, s, a⟩

end Gost.Src
