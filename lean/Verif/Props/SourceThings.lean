import Verif.SourceProofs.Things
import Verif.Props.CurveCheck

/-! Calls of the package on objects of any kind, as they are written and in the model: the steps of the programs of
C131. -/

namespace Gost.Src
open Spec ModesSrc
open Streebog (IsHash OidAt HashAt Other)
open HmacSrc (IsHmac HmacAt DataArg)
open PbkdfSrc (PbkdfAt)
open RandomSrc (RandAt)
open SigSrc (SigCell sigAttrs BytesResult CurveDict intDict curveInts)

/-- A method and its arguments. -/
inductive Meth (α : Type) where
  | encrypt (a : α)
  | decrypt (a : α)
  | update (a : α)
  | digest (size : Option Int)
  | hexdigest (size : Option Int)
  | reset
  | clear
  | derive (size : Int)
  | hexderive (size : Int)
  | random
  | reseed (seed : α)
  | publicKey (key : α)
  | sign (key digest k : α)
  | verify (publicKey digest signature : α)
  | macFinal
  | hashFinal
  | getHash

/-- A function `new` and its arguments: of `gostcipher`, `gosthash`, `gosthmac`, `gostpbkdf`,
`gostrandom` and `gostsignature`. -/
inductive Make (α : Type) where
  | cipher (alg : String) (key : α) (mode : Int) (pad : Option Int) (iv data : Option α)
  | hash (name : String) (data : Option α)
  | hmac (name : String) (key : α) (data : Option α)
  | pbkdf (password salt : α) (counter : Int)
  | rand (size : Int) (seed : α) (sizeS : Option Nat)
  | sig (mode : Int) (curve : CurveParams)

def Meth.map {α β : Type} (f : α → β) : Meth α → Meth β
  | .encrypt a => .encrypt (f a)
  | .decrypt a => .decrypt (f a)
  | .update a => .update (f a)
  | .digest i => .digest i
  | .hexdigest i => .hexdigest i
  | .reset => .reset
  | .clear => .clear
  | .derive i => .derive i
  | .hexderive i => .hexderive i
  | .random => .random
  | .reseed a => .reseed (f a)
  | .publicKey a => .publicKey (f a)
  | .sign a b c => .sign (f a) (f b) (f c)
  | .verify a b c => .verify (f a) (f b) (f c)
  | .macFinal => .macFinal
  | .hashFinal => .hashFinal
  | .getHash => .getHash

def Make.map {α β : Type} (f : α → β) : Make α → Make β
  | .cipher alg key mode pad iv data => .cipher alg (f key) mode pad (iv.map f) (data.map f)
  | .hash name data => .hash name (data.map f)
  | .hmac name key data => .hmac name (f key) (data.map f)
  | .pbkdf password salt counter => .pbkdf (f password) (f salt) counter
  | .rand size seed sizeS => .rand size (f seed) sizeS
  | .sig mode curve => .sig mode curve

def Meth.args {α : Type} : Meth α → List α
  | .encrypt a | .decrypt a | .update a | .reseed a | .publicKey a => [a]
  | .sign a b c | .verify a b c => [a, b, c]
  | _ => []

def Make.args {α : Type} : Make α → List α
  | .cipher _ key _ _ iv data => key :: iv.toList ++ data.toList
  | .hash _ data => data.toList
  | .hmac _ key data => key :: data.toList
  | .pbkdf password salt _ => [password, salt]
  | .rand _ seed _ => [seed]
  | .sig _ _ => []

/-! ### As it is written -/

/-- The name of the method and its arguments. -/
def Meth.text : Meth Val → String × List Val
  | .encrypt v => ("encrypt", [v])
  | .decrypt v => ("decrypt", [v])
  | .update v => ("update", [v])
  | .digest i => ("digest", (i.map Val.int).toList)
  | .hexdigest i => ("hexdigest", (i.map Val.int).toList)
  | .reset => ("reset", [])
  | .clear => ("clear", [])
  | .derive i => ("derive", [.int i])
  | .hexderive i => ("hexderive", [.int i])
  | .random => ("random", [])
  | .reseed v => ("reset", [v])
  | .publicKey v => ("public_key_generate", [v])
  | .sign a b c => ("sign", [a, b, c])
  | .verify a b c => ("verify", [a, b, c])
  | .macFinal => ("mac_final", [])
  | .hashFinal => ("hash_final", [])
  | .getHash => ("get_hash", [])

/-- Keyword arguments, of which some are left out. -/
def kwGiven : List (String × Option Val) → List (String × Val)
  | [] => []
  | (x, some v) :: l => (x, v) :: kwGiven l
  | (_, none) :: l => kwGiven l

/-- The function and its arguments. -/
def Make.text : Make Val → String × List Val
  | .cipher alg key mode pad iv data =>
    ("Modes.new", [.str alg, key, .int mode, .dict (kwGiven [("pad_mode", pad.map .int), ("init_vect", iv), ("data", data)])])
  | .hash name data => ("Hash.new", [.str name, .dict (kwGiven [("data", data)])])
  | .hmac name key data => ("Hmac.new", [.str name, key, .dict (kwGiven [("data", data)])])
  | .pbkdf password salt counter =>
    ("Pbkdf.new", [password, .dict (kwGiven [("salt", some salt), ("counter", some (.int counter))])])
  | .rand size seed sizeS =>
    ("Random.new", [.int size, .dict (kwGiven [("rand_k", some seed), ("size_s", sizeS.map fun i : Nat => .int i)])])
  | .sig mode curve => ("Signature.new", [.int mode, .dict (intDict (curveInts curve))])

/-! ### In the model -/

/-- What a method returns. -/
inductive Answer where
  | nothing
  | bytes (b : Bytes)
  | text (t : List Char)
  | truth (b : Bool)
  | raised (e : Err)
deriving DecidableEq

def answerUnit : Res Unit → Answer
  | .ok _ => .nothing
  | .error e => .raised e

def answerBytes : Res Bytes → Answer
  | .ok b => .bytes b
  | .error e => .raised e

def answerText : Res (List Char) → Answer
  | .ok t => .text t
  | .error e => .raised e

/-- The answer of a method of a signature object; `Thing.beyond` says when there is none. -/
def answerSig : Option (Res Bytes) → Answer
  | some r => answerBytes r
  | none => .nothing

def answerTruth : Option (Res Bool) → Answer
  | some (.ok b) => .truth b
  | some (.error e) => .raised e
  | none => .nothing

/-- The object after the call, and the answer; `none` if the class has no such method, or the method takes other
arguments. A loop makes fewer than `L` turns. -/
def Thing.use (L : Nat) : Thing → Meth PyVal → Option (Thing × Answer)
  | .cipher (.mac s), .update v => some (.cipher (.mac (s.update v).1), answerUnit (s.update v).2)
  | .cipher (.mac s), .digest (some i) => some (.cipher (.mac (s.digest i).1), answerBytes (s.digest i).2)
  | .cipher (.mac s), .hexdigest (some i) => some (.cipher (.mac (s.hexdigest i).1), answerText (s.hexdigest i).2)
  | .cipher (.mac s), .macFinal => some (.cipher (.mac s.macFinal.1), answerBytes s.macFinal.2)
  | .cipher c, .clear => some (.cipher c.clear, .nothing)
  | .cipher (.mac _), _ => none
  | .cipher c, .encrypt v => some (.cipher (encryptOf c v).1, answerBytes (encryptOf c v).2)
  | .cipher c, .decrypt v => some (.cipher (decryptOf c v).1, answerBytes (decryptOf c v).2)
  | .hash s, .update v => some (.hash (s.update v).1, answerUnit (s.update v).2)
  | .hash s, .digest none => some (.hash s, .bytes s.digest)
  | .hash s, .hexdigest none => some (.hash s, .text s.hexdigest)
  | .hash s, .reset => some (.hash s.reset, .nothing)
  | .hash s, .hashFinal => some (.hash s.hashFinal, .nothing)
  | .hash s, .getHash => some (.hash s, .bytes s.getHash)
  | .hmac s, .update v => some (.hmac (s.update v).1, answerUnit (s.update v).2)
  | .hmac s, .digest none => some (.hmac s, .bytes s.digest)
  | .hmac s, .hexdigest none => some (.hmac s, .text s.hexdigest)
  | .hmac s, .reset => some (.hmac s.reset, .nothing)
  | .hmac s, .clear => some (.hmac s.clear, .nothing)
  | .pbkdf s, .derive i => some (.pbkdf (s.derive i).1, answerBytes (s.derive i).2)
  | .pbkdf s, .hexderive i => some (.pbkdf (s.hexderive i).1, answerText (s.hexderive i).2)
  | .pbkdf s, .clear => some (.pbkdf s.clear, .nothing)
  | .rand s, .random => some (.rand s.random.1, answerBytes s.random.2)
  | .rand s, .reseed v => some (.rand (Gost.Rand.reset [] s v).1, answerUnit (Gost.Rand.reset [] s v).2)
  | .rand s, .clear => some (.rand s.clear, .nothing)
  | .sig s, .publicKey k => some (.sig s, answerSig (s.publicKeyGenerate (L - 1) k))
  | .sig s, .sign k d r => some (.sig s, answerSig (s.sign (L - 1) (fun _ => []) k d r))
  | .sig s, .verify k d g => some (.sig s, answerTruth (s.verify (L - 1) k d g))
  | _, _ => none

/-- The call asks the system for random bytes - `reset` of a generator without a seed or with an empty one, a signature
with an empty random number -, or a loop of a signature object does not end in `L` turns. -/
def Thing.beyond (L : Nat) : Thing → Meth PyVal → Bool
  | .rand _, .reset => true
  | .rand _, .reseed v => v.isEmpty
  | .sig s, .publicKey k => (s.publicKeyGenerate (L - 1) k).isNone
  | .sig s, .sign k d r => r.isEmpty || (s.sign (L - 1) (fun _ => []) k d r).isNone
  | .sig s, .verify k d g => (s.verify (L - 1) k d g).isNone
  | _, _ => false

/-- The same for `new`: a key derivation with an empty salt, a generator with an empty seed. -/
def Make.beyond : Make PyVal → Bool
  | .pbkdf _ salt _ => salt.isEmpty
  | .rand _ seed _ => seed.isEmpty
  | _ => false

/-- `copy` of the hash and HMAC objects. -/
def Thing.copy : Thing → Option Thing
  | .hash s => some (.hash s.copy)
  | .hmac s => some (.hmac s.copy)
  | _ => none

/-- The new object, if the system is not asked for random bytes. -/
def Make.model : Make PyVal → Res Thing
  | .cipher alg key mode pad iv data => (newCipher alg key mode pad iv data).map .cipher
  | .hash name data => (HashObj.new name data).map .hash
  | .hmac name key data => (Gost.Hmac.new name key data).map .hmac
  | .pbkdf password salt counter => (Gost.Pbkdf.new [] password (some salt) counter).map .pbkdf
  | .rand size seed sizeS => (Gost.Rand.new [] size (some seed) (sizeS.getD 48)).map .rand
  | .sig mode curve => (Sig.new mode curve).map .sig

/-! ### Methods -/

/-- The outcome `o` of a call in the memory `h` is this answer, only the cells `W` are changed, and `At` holds
afterwards; bytes are a new byte array. -/
def Answer.Of (o : Out Val) (h : Heap) (W : List Nat) (At : Heap → Prop) : Answer → Prop
  | .nothing => ∃ h', o = ok .none h' ∧ Frame W h h' ∧ At h'
  | .bytes b => ∃ r h', o = ok (.ref r) h' ∧ Frame W h h' ∧ h.length ≤ r ∧ bytesOf (.ref r) h' = some b ∧ At h'
  | .text t => ∃ h', o = ok (.str (String.ofList t)) h' ∧ Frame W h h' ∧ At h'
  | .truth b => ∃ h', o = ok (.bool b) h' ∧ Frame W h h' ∧ At h'
  | .raised e => ∃ h', o = fail (exc e) h' ∧ Frame W h h' ∧ At h'

/-- The call is refused by Python itself: there is no such method, or it takes other arguments. -/
def Refused (o : Out Val) (h : Heap) : Prop := ∃ x, o = fail x h ∧ excOf x = none

section
variable {h : Heap} {me : Nat} {P : List Nat}

theorem no_method (L n : Nat) {cls m : String} {l : List (String × Val)} (g : h[me]? = some (.inst cls l)) (args : List Val)
    (e : package.method cls m = none) : Refused (callMeth (ctx L n) (.ref me) m args h) h :=
  ⟨.attribute, by simp only [callMeth, g, ctx, e], rfl⟩

theorem wrong_args (L n : Nat) {cls m f : String} {l : List (String × Val)} {d : FunDef} (g : h[me]? = some (.inst cls l))
    (args : List Val) (e : package.method cls m = some (f, false)) (e' : package.fn f = some d)
    (ha : ¬ args.length + 1 = d.params.length)
    (hd : d.params.length < args.length + 1 ∨ d.defaults.length < d.params.length - (args.length + 1)) :
    Refused (callMeth (ctx L (n + 1)) (.ref me) m args h) h := by
  refine ⟨.type, ?_, rfl⟩
  have : (ctx L (n + 1)).method cls m = some (f, false) := e
  simp only [callMeth, g, this, Bool.false_eq_true, if_false, ctx_call]
  rw [call_succ e', run, bindParams, if_neg (by simpa using ha)]
  simp only [List.length_cons]
  rw [if_neg (by omega)]
  rfl

theorem method_answer {L n : Nat} {c : Cipher × Res Bytes} {o : Out Val} (a : Method o h P (fun c h => IsCipher c me P h) c) :
    Answer.Of o h P (IsThing L n (.cipher c.1) me P) (answerBytes c.2) := by
  obtain ⟨c, R⟩ := c
  cases R with
  | ok b => exact a
  | error e => exact a

theorem newBytes_answer {o : Out Val} {b : Bytes} {At : Heap → Prop} (a : NewBytes o h b) (k : ∀ h', Ext h h' → At h') :
    Answer.Of o h P At (.bytes b) := by
  obtain ⟨r, h', e, x, hr, hb⟩ := a
  exact ⟨r, h', e, x.frame _, hr, hb, k h' x⟩

/-- The classes of the five modes. -/
theorem cipher_class {c : Cipher} (hc : Enciphers c) (a : IsCipher c me P h) : ∃ cls l, h[me]? = some (.inst cls l) ∧
    cls ∈ ["GOST34132015ecb", "GOST34132015cbc", "GOST34132015cfb", "GOST34132015ofb", "GOST34132015ctr"] := by
  cases c with
  | ecb s => obtain ⟨cr, kr, a, -⟩ := a; obtain ⟨o, g, -⟩ := ModeAt.obj a; exact ⟨_, _, g, by simp⟩
  | cbc s => obtain ⟨cr, kr, iv, a, -⟩ := a; obtain ⟨o, g, -⟩ := a.mode.obj; exact ⟨_, _, g, by simp⟩
  | cfb s => obtain ⟨cr, kr, iv, a, -⟩ := a; obtain ⟨o, g, -⟩ := a.mode.obj; exact ⟨_, _, g, by simp⟩
  | ofb s => obtain ⟨cr, kr, iv, a, -⟩ := a; obtain ⟨o, g, -⟩ := a.mode.obj; exact ⟨_, _, g, by simp⟩
  | ctr s => obtain ⟨cr, kr, i0, ct, a, -⟩ := a; obtain ⟨o, g, -⟩ := a.mode.obj; exact ⟨_, _, g, by simp⟩
  | mac s => exact hc.elim

/-- The methods which the modes do not have. -/
theorem cipher_refused (L n : Nat) {c : Cipher} (hc : Enciphers c) (a : IsCipher c me P h) (m : String) (args : List Val)
    (hm : m ∈ ["update", "digest", "hexdigest", "reset", "derive", "hexderive", "random", "copy", "public_key_generate", "sign", "verify",
        "mac_final", "hash_final", "get_hash"]) :
    Refused (callMeth (ctx L n) (.ref me) m args h) h := by
  obtain ⟨cls, l, g, hcls⟩ := cipher_class hc a
  refine no_method L n g args ?_
  have : ∀ cls ∈ ["GOST34132015ecb", "GOST34132015cbc", "GOST34132015cfb", "GOST34132015ofb", "GOST34132015ctr"],
      ∀ m ∈ ["update", "digest", "hexdigest", "reset", "derive", "hexderive", "random", "copy", "public_key_generate", "sign", "verify",
        "mac_final", "hash_final", "get_hash"], package.method cls m = none := by
    decide +kernel
  exact this cls hcls m hm

theorem mac_use (L n : Nat) {s : Mac} (a : IsCipher (.mac s) me P h) (m : Meth Val) :
    match (Thing.cipher (.mac s)).use L (m.map (pyVal · h)) with
    | some (t, r) => r.Of (callMeth (ctx L (n + 11)) (.ref me) m.text.1 m.text.2 h) h P (IsThing L n t me P)
    | none => Refused (callMeth (ctx L (n + 11)) (.ref me) m.text.1 m.text.2 h) h := by
  obtain ⟨cr, kr, x, a', hP⟩ := id a
  obtain ⟨o, l, g, -⟩ := a'.mode.get
  have none : ∀ m args, package.method "GOST34132015mac" m = none →
      Refused (callMeth (ctx L (n + 11)) (.ref me) m args h) h := fun m args e => no_method L _ g args e
  cases m with
  | encrypt v => exact none "encrypt" _ (by decide +kernel)
  | decrypt v => exact none "decrypt" _ (by decide +kernel)
  | publicKey v => exact none "public_key_generate" _ (by decide +kernel)
  | sign a b c => exact none "sign" _ (by decide +kernel)
  | verify a b c => exact none "verify" _ (by decide +kernel)
  | macFinal =>
    have f := mac_final_ok L (n + 5) a'
    simp only [Meth.map, Thing.use, Meth.text]
    rw [show callMeth (ctx L (n + 11)) (.ref me) "mac_final" [] h =
      call package L (n + 11) "GOST34132015mac.mac_final" [.ref me] h by py [g]]
    generalize s.macFinal = res at f ⊢
    obtain ⟨s', res⟩ := res
    subst hP
    cases res with
    | ok b =>
      obtain ⟨w, h', f, k, hw, hb, x', a'⟩ := f
      exact ⟨w, h', f, k.frame.mono (by simp), hw, hb, cr, kr, x', a', rfl⟩
    | error e =>
      obtain ⟨h', f, k, x', a'⟩ := f
      exact ⟨h', f, k.frame.mono (by simp), cr, kr, x', a', rfl⟩
  | hashFinal => exact none "hash_final" _ (by decide +kernel)
  | getHash => exact none "get_hash" _ (by decide +kernel)
  | update v =>
    have f := mac_update L (n + 5) a' (v := v)
    simp only [Meth.map, Thing.use, Meth.text]
    rw [show callMeth (ctx L (n + 11)) (.ref me) "update" [v] h =
      call package L (n + 11) "GOST34132015mac.update" [.ref me, v] h by py [g]]
    generalize s.update (pyVal v h) = res at f ⊢
    obtain ⟨s', res⟩ := res
    subst hP
    cases res with
    | ok u =>
      obtain ⟨x', h', f, k, -, a'⟩ := f
      exact ⟨h', f, k.mono (by simp), cr, kr, x', a', rfl⟩
    | error e =>
      obtain ⟨h', f, k, a'⟩ := f
      exact ⟨h', f, k.mono (by simp), cr, kr, x, a', rfl⟩
  | digest i =>
    cases i with
    | none => exact wrong_args L (n + 10) (m := "digest") g _ (f := "GOST34132015mac.digest") (by decide +kernel) Fn.GOST34132015mac.digest (by decide) (by decide)
    | some i =>
      have f := mac_digest_ok L (n + 4) a' i
      simp only [Meth.map, Thing.use, Meth.text, Option.map_some, Option.toList_some, Mac.digest_state]
      rw [show callMeth (ctx L (n + 11)) (.ref me) "digest" [.int i] h =
        call package L (n + 11) "GOST34132015mac.digest" [.ref me, .int i] h by py [g]]
      generalize (s.digest i).2 = res at f ⊢
      subst hP
      rcases f.cases with ⟨y, w, l', rfl, f', hw, b⟩ | ⟨y, l', rfl, f'⟩
      · have e := (Ext.refl h).add l'
        exact ⟨w, _, f', e.frame _, hw, b, cr, kr, x, a'.ext e, rfl⟩
      · have e := (Ext.refl h).add l'
        exact ⟨_, f', e.frame _, cr, kr, x, a'.ext e, rfl⟩
  | hexdigest i =>
    cases i with
    | none => exact wrong_args L (n + 10) (m := "hexdigest") g _ (f := "GOST34132015mac.hexdigest") (by decide +kernel) Fn.GOST34132015mac.hexdigest (by decide) (by decide)
    | some i =>
      have f := mac_hexdigest_ok L (n + 3) a' i
      have hs : (s.hexdigest i).1 = s := by rw [Mac.hexdigest_eq, Mac.digest_state]
      simp only [Meth.map, Thing.use, Meth.text, Option.map_some, Option.toList_some, hs]
      rw [show callMeth (ctx L (n + 11)) (.ref me) "hexdigest" [.int i] h =
        call package L (n + 11) "GOST34132015mac.hexdigest" [.ref me, .int i] h by py [g]]
      generalize (s.hexdigest i).2 = res at f ⊢
      subst hP
      cases res with
      | ok t =>
        obtain ⟨h', f, e⟩ := f
        exact ⟨h', f, e.frame _, cr, kr, x, a'.ext e, rfl⟩
      | error y =>
        obtain ⟨h', f, e⟩ := f
        exact ⟨h', f, e.frame _, cr, kr, x, a'.ext e, rfl⟩
  | reset => exact none "reset" _ (by decide +kernel)
  | clear =>
    obtain ⟨h', f, k, a'⟩ := C101_clear L (n + 2) h (.mac s) me P a
    exact ⟨h', f, k, a'⟩
  | derive i => exact none "derive" _ (by decide +kernel)
  | hexderive i => exact none "hexderive" _ (by decide +kernel)
  | random => exact none "random" _ (by decide +kernel)
  | reseed v => exact none "reset" _ (by decide +kernel)

theorem mode_use (L n : Nat) {c : Cipher} (hc : Enciphers c) (a : IsCipher c me P h) (m : Meth Val)
    (hm : ∀ v ∈ m.args, Known v h ∧ ∀ q ∈ P, v ≠ .ref q) :
    match (Thing.cipher c).use L (m.map (pyVal · h)) with
    | some (t, r) => r.Of (callMeth (ctx L (n + 11)) (.ref me) m.text.1 m.text.2 h) h P (IsThing L n t me P)
    | none => Refused (callMeth (ctx L (n + 11)) (.ref me) m.text.1 m.text.2 h) h := by
  have none : ∀ m args, m ∈ ["update", "digest", "hexdigest", "reset", "derive", "hexderive", "random", "copy", "public_key_generate", "sign", "verify",
        "mac_final", "hash_final", "get_hash"] →
      Refused (callMeth (ctx L (n + 11)) (.ref me) m args h) h := fun m args e => cipher_refused L _ hc a m args e
  have e1 : ∀ v, (Thing.cipher c).use L (.encrypt v) = some (.cipher (encryptOf c v).1, answerBytes (encryptOf c v).2) := by
    cases c <;> first | exact hc.elim | exact fun _ => rfl
  have e2 : ∀ v, (Thing.cipher c).use L (.decrypt v) = some (.cipher (decryptOf c v).1, answerBytes (decryptOf c v).2) := by
    cases c <;> first | exact hc.elim | exact fun _ => rfl
  have e3 : (Thing.cipher c).use L .clear = some (.cipher c.clear, .nothing) := by
    cases c <;> first | exact hc.elim | rfl
  have e4 : ∀ m : Meth PyVal, (∀ v, m ≠ .encrypt v) → (∀ v, m ≠ .decrypt v) → m ≠ .clear → (Thing.cipher c).use L m = .none := by
    intro m h1 h2 h3
    cases c <;> first | exact hc.elim | (cases m <;> first | exact (h1 _ rfl).elim | exact (h2 _ rfl).elim | exact (h3 rfl).elim | rfl)
  cases m with
  | encrypt v =>
    obtain ⟨k1, k2⟩ := hm v (by simp [Meth.args])
    simp only [Meth.map, e1]
    exact method_answer (C101_methods L (n + 2) h c hc me P a v k1 k2).1
  | decrypt v =>
    obtain ⟨k1, k2⟩ := hm v (by simp [Meth.args])
    simp only [Meth.map, e2]
    exact method_answer (C101_methods L (n + 2) h c hc me P a v k1 k2).2
  | clear =>
    simp only [Meth.map, e3]
    obtain ⟨h', f, k, a'⟩ := C101_clear L (n + 2) h c me P a
    exact ⟨h', f, k, a'⟩
  | _ =>
    rw [e4 _ (fun _ e => by simp [Meth.map] at e) (fun _ e => by simp [Meth.map] at e) (fun e => by simp [Meth.map] at e)]
    exact none _ _ (by simp [Meth.text])

theorem hash_use (L n : Nat) {s : HashObj} (a : IsHash s me h) (m : Meth Val) :
    match (Thing.hash s).use L (m.map (pyVal · h)) with
    | some (t, r) => r.Of (callMeth (ctx L (n + 11)) (.ref me) m.text.1 m.text.2 h) h [me] (IsThing L n t me [me])
    | none => Refused (callMeth (ctx L (n + 11)) (.ref me) m.text.1 m.text.2 h) h := by
  obtain ⟨p1, p2, p3, p4, p5, p6, p7, -⟩ := C97_methods L (n + 4) h s me a
  obtain ⟨cls, l, g, hcls⟩ : ∃ cls l, h[me]? = some (.inst cls l) ∧ cls = "GOST34112012" := by
    obtain ⟨o, c, r, -⟩ := a
    exact ⟨_, _, r.obj, rfl⟩
  subst hcls
  have none : ∀ m args, package.method "GOST34112012" m = none →
      Refused (callMeth (ctx L (n + 11)) (.ref me) m args h) h := fun m args e => no_method L _ g args e
  cases m with
  | encrypt v => exact none "encrypt" _ (by decide +kernel)
  | decrypt v => exact none "decrypt" _ (by decide +kernel)
  | publicKey v => exact none "public_key_generate" _ (by decide +kernel)
  | sign a b c => exact none "sign" _ (by decide +kernel)
  | verify a b c => exact none "verify" _ (by decide +kernel)
  | macFinal => exact none "mac_final" _ (by decide +kernel)
  | hashFinal =>
    obtain ⟨h', f, k, r⟩ := p6
    exact ⟨h', f, k.frame, r, rfl⟩
  | getHash => exact newBytes_answer p7 fun h' x => ⟨a.ext x, rfl⟩
  | update v =>
    simp only [Meth.map, Thing.use, HashObj.update, pyVal_data, Meth.text]
    cases e : bytesOf v h with
    | none =>
      rw [p2 v e]
      exact ⟨h, rfl, (Ext.refl h).frame _, a, rfl⟩
    | some d =>
      obtain ⟨h', f, k, r⟩ := p1 v d e
      exact ⟨h', f, k.frame, r, rfl⟩
  | digest i =>
    cases i with
    | none => exact newBytes_answer p3 fun h' x => ⟨a.ext x, rfl⟩
    | some i => exact wrong_args L (n + 10) (m := "digest") g _ (f := "GOST34112012.digest") (by decide +kernel) Fn.GOST34112012.digest (by simp [Meth.text]; decide) (by simp [Meth.text]; decide)
  | hexdigest i =>
    cases i with
    | none =>
      obtain ⟨h', f, x⟩ := p4
      exact ⟨h', f, x.frame _, a.ext x, rfl⟩
    | some i => exact wrong_args L (n + 10) (m := "hexdigest") g _ (f := "GOST34112012.hexdigest") (by decide +kernel) Fn.GOST34112012.hexdigest (by simp [Meth.text]; decide) (by simp [Meth.text]; decide)
  | reset =>
    obtain ⟨h', f, k, r⟩ := p5
    exact ⟨h', f, k.frame, r, rfl⟩
  | clear => exact none "clear" _ (by decide +kernel)
  | derive i => exact none "derive" _ (by decide +kernel)
  | hexderive i => exact none "hexderive" _ (by decide +kernel)
  | random => exact none "random" _ (by decide +kernel)
  | reseed v => exact wrong_args L (n + 10) (m := "reset") g _ (f := "GOST34112012.reset") (by decide +kernel) Fn.GOST34112012.reset (by simp [Meth.text]; decide) (by simp [Meth.text]; decide)

theorem hmac_use (L n : Nat) {s : Gost.Hmac} {hr : Nat} (a : IsHmac s me hr h) (m : Meth Val) :
    match (Thing.hmac s).use L (m.map (pyVal · h)) with
    | some (t, r) => r.Of (callMeth (ctx L (n + 11)) (.ref me) m.text.1 m.text.2 h) h [me, hr] (IsThing L n t me [me, hr])
    | none => Refused (callMeth (ctx L (n + 11)) (.ref me) m.text.1 m.text.2 h) h := by
  obtain ⟨p1, p2, p3, p4, p5, p6, -⟩ := C98_methods L (n + 3) h s me hr a
  obtain ⟨cls, l, g, hcls⟩ : ∃ cls l, h[me]? = some (.inst cls l) ∧ cls = "R5011132016" := by
    obtain ⟨kv, o, r, -⟩ := a
    exact ⟨_, _, r, rfl⟩
  subst hcls
  have none : ∀ m args, package.method "R5011132016" m = none →
      Refused (callMeth (ctx L (n + 11)) (.ref me) m args h) h := fun m args e => no_method L _ g args e
  have ext : ∀ h', Ext h h' → IsHmac s me hr h' := fun h' x => by
    obtain ⟨kv, r⟩ := a
    exact ⟨kv, r.ext x⟩
  cases m with
  | encrypt v => exact none "encrypt" _ (by decide +kernel)
  | decrypt v => exact none "decrypt" _ (by decide +kernel)
  | publicKey v => exact none "public_key_generate" _ (by decide +kernel)
  | sign a b c => exact none "sign" _ (by decide +kernel)
  | verify a b c => exact none "verify" _ (by decide +kernel)
  | macFinal => exact none "mac_final" _ (by decide +kernel)
  | hashFinal => exact none "hash_final" _ (by decide +kernel)
  | getHash => exact none "get_hash" _ (by decide +kernel)
  | update v =>
    simp only [Meth.map, Thing.use, Gost.Hmac.update, pyVal_data, Meth.text]
    cases e : bytesOf v h with
    | none =>
      rw [p2 v e]
      exact ⟨h, rfl, (Ext.refl h).frame _, hr, a, rfl⟩
    | some d =>
      obtain ⟨h', f, k, r⟩ := p1 v d e
      exact ⟨h', f, k.frame, hr, r, rfl⟩
  | digest i =>
    cases i with
    | none => exact newBytes_answer p3 fun h' x => ⟨hr, ext h' x, rfl⟩
    | some i => exact wrong_args L (n + 10) (m := "digest") g _ (f := "R5011132016.digest") (by decide +kernel) Fn.R5011132016.digest (by simp [Meth.text]; decide) (by simp [Meth.text]; decide)
  | hexdigest i =>
    cases i with
    | none =>
      obtain ⟨h', f, x⟩ := p4
      exact ⟨h', f, x.frame _, hr, ext h' x, rfl⟩
    | some i => exact wrong_args L (n + 10) (m := "hexdigest") g _ (f := "R5011132016.hexdigest") (by decide +kernel) Fn.R5011132016.hexdigest (by simp [Meth.text]; decide) (by simp [Meth.text]; decide)
  | reset =>
    obtain ⟨h', f, k, r⟩ := p5
    exact ⟨h', f, k.frame, hr, r, rfl⟩
  | clear =>
    obtain ⟨h', f, k, r⟩ := p6
    exact ⟨h', f, k.frame, hr, r, rfl⟩
  | derive i => exact none "derive" _ (by decide +kernel)
  | hexderive i => exact none "hexderive" _ (by decide +kernel)
  | random => exact none "random" _ (by decide +kernel)
  | reseed v => exact wrong_args L (n + 10) (m := "reset") g _ (f := "R5011132016.reset") (by decide +kernel) Fn.R5011132016.reset (by simp [Meth.text]; decide) (by simp [Meth.text]; decide)

theorem pbkdf_use (L n : Nat) {s : Gost.Pbkdf} {c : PbkdfSrc.Cells} (a : PbkdfAt s me c h) (m : Meth Val) :
    match (Thing.pbkdf s).use L (m.map (pyVal · h)) with
    | some (t, r) => r.Of (callMeth (ctx L (n + 11)) (.ref me) m.text.1 m.text.2 h) h [me, c.hmac, c.hash]
        (IsThing L n t me [me, c.hmac, c.hash])
    | none => Refused (callMeth (ctx L (n + 11)) (.ref me) m.text.1 m.text.2 h) h := by
  obtain ⟨p1, p2, p3, -⟩ := C99_methods L n h s me c a
  have none : ∀ m args, package.method "R5011112016" m = none →
      Refused (callMeth (ctx L (n + 11)) (.ref me) m args h) h := fun m args e => no_method L _ a.obj args e
  cases m with
  | encrypt v => exact none "encrypt" _ (by decide +kernel)
  | decrypt v => exact none "decrypt" _ (by decide +kernel)
  | publicKey v => exact none "public_key_generate" _ (by decide +kernel)
  | sign a b c => exact none "sign" _ (by decide +kernel)
  | verify a b c => exact none "verify" _ (by decide +kernel)
  | macFinal => exact none "mac_final" _ (by decide +kernel)
  | hashFinal => exact none "hash_final" _ (by decide +kernel)
  | getHash => exact none "get_hash" _ (by decide +kernel)
  | update v => exact none "update" _ (by decide +kernel)
  | digest i => exact none "digest" _ (by decide +kernel)
  | hexdigest i => exact none "hexdigest" _ (by decide +kernel)
  | reset => exact none "reset" _ (by decide +kernel)
  | random => exact none "random" _ (by decide +kernel)
  | reseed v => exact none "reset" _ (by decide +kernel)
  | clear =>
    obtain ⟨h', c', f, k, r, e1, e2⟩ := p3
    exact ⟨h', f, k.frame.mono (by simp), c', r, by rw [e1, e2]⟩
  | derive i =>
    simp only [Meth.map, Thing.use, Meth.text]
    by_cases hi : (2 ^ 32 - 1) * 64 < i
    · rw [(p1 i hi).1]
      unfold Gost.Pbkdf.derive
      rw [if_pos hi]
      exact ⟨h, rfl, (Ext.refl h).frame _, c, a, rfl⟩
    · obtain ⟨h', w, nb, b, f, k, hw, e, hb, r⟩ := (p2 i (by omega)).1
      rw [e]
      exact ⟨w, h', f, k.frame, hw, hb, _, r, rfl⟩
  | hexderive i =>
    simp only [Meth.map, Thing.use, Meth.text]
    by_cases hi : (2 ^ 32 - 1) * 64 < i
    · rw [(p1 i hi).2]
      unfold Gost.Pbkdf.hexderive Gost.Pbkdf.derive
      rw [if_pos hi]
      exact ⟨h, rfl, (Ext.refl h).frame _, c, a, rfl⟩
    · obtain ⟨h', nb, t, f, k, e, r⟩ := (p2 i (by omega)).2
      rw [e]
      exact ⟨h', f, k.frame, _, r, rfl⟩

theorem isEmpty_data {v : Val} : (pyVal v h).isEmpty = true ↔ bytesOf v h = some [] := by
  rw [← pyVal_data]
  cases pyVal v h with
  | bytes b => cases b <;> simp [PyVal.isEmpty, PyVal.data?]
  | bytearray b => cases b <;> simp [PyVal.isEmpty, PyVal.data?]
  | other => simp [PyVal.isEmpty, PyVal.data?]

/-- The seed, if it is given. -/
theorem seed_given {sizeS : Nat} {v : PyVal} (ne : ¬ v.isEmpty = true) : Gost.Rand.seed [] sizeS v =
    match v.data? with
    | some b => if b.length = sizeS then .ok (seedReg b) else .error (.randomError "GOSTRandomError: invalid seed value")
    | none => .error (.randomError "GOSTRandomError: invalid seed value") := by
  have e : Gost.Rand.seed [] sizeS v = Gost.Rand.seed (List.replicate sizeS 0) sizeS v := by
    unfold Gost.Rand.seed
    rw [if_neg ne, if_neg ne]
  rw [e, rand_seed _ _ (by simp)]
  have e' : ¬ v.data? = some [] := fun h => ne <| by
    cases v with
    | bytes b => cases b <;> simp_all [PyVal.isEmpty, PyVal.data?]
    | bytearray b => cases b <;> simp_all [PyVal.isEmpty, PyVal.data?]
    | other => cases h
  rw [if_neg e']
  cases v.data? <;> rfl

theorem reset_given (s : Gost.Rand) {v : PyVal} (ne : ¬ v.isEmpty = true) : Gost.Rand.reset [] s v =
    match v.data? with
    | some b => if b.length = s.sizeS then ({ s with randU := seedReg b, hash := s.hash.reset }, .ok ())
        else (s, .error (.randomError "GOSTRandomError: invalid seed value"))
    | none => (s, .error (.randomError "GOSTRandomError: invalid seed value")) := by
  unfold Gost.Rand.reset
  rw [seed_given ne]
  cases v.data? with
  | none => rfl
  | some b =>
    by_cases hb : b.length = s.sizeS
    · simp only [hb, if_true]
    · simp only [hb, if_false]

theorem rand_use (L n : Nat) {s : Gost.Rand} {u hr : Nat} (a : RandAt s me u hr h) (hL : s.q.toNat < L) (m : Meth Val)
    (hm : ∀ v ∈ m.args, Known v h) (ha : (Thing.rand s).beyond L (m.map (pyVal · h)) = false) :
    match (Thing.rand s).use L (m.map (pyVal · h)) with
    | some (t, r) => r.Of (callMeth (ctx L (n + 11)) (.ref me) m.text.1 m.text.2 h) h [me, hr] (IsThing L n t me [me, hr])
    | none => Refused (callMeth (ctx L (n + 11)) (.ref me) m.text.1 m.text.2 h) h := by
  obtain ⟨p1, p2, p3, -, p5⟩ := C100_methods L (n + 3) h s me u hr a
  have none : ∀ m args, package.method "R132356510062017" m = none →
      Refused (callMeth (ctx L (n + 11)) (.ref me) m args h) h := fun m args e => no_method L _ a.obj args e
  cases m with
  | encrypt v => exact none "encrypt" _ (by decide +kernel)
  | decrypt v => exact none "decrypt" _ (by decide +kernel)
  | publicKey v => exact none "public_key_generate" _ (by decide +kernel)
  | sign a b c => exact none "sign" _ (by decide +kernel)
  | verify a b c => exact none "verify" _ (by decide +kernel)
  | macFinal => exact none "mac_final" _ (by decide +kernel)
  | hashFinal => exact none "hash_final" _ (by decide +kernel)
  | getHash => exact none "get_hash" _ (by decide +kernel)
  | update v => exact none "update" _ (by decide +kernel)
  | digest i => exact none "digest" _ (by decide +kernel)
  | hexdigest i => exact none "hexdigest" _ (by decide +kernel)
  | derive i => exact none "derive" _ (by decide +kernel)
  | hexderive i => exact none "hexderive" _ (by decide +kernel)
  | reset => cases ha
  | clear =>
    obtain ⟨h', u', f, k, r⟩ := p5
    exact ⟨h', f, k.frame.mono (by simp), u', hr, r, hL, rfl⟩
  | random =>
    obtain ⟨q1, q2⟩ := p1 hL
    have q := random_q s
    simp only [Meth.map, Thing.use, Meth.text]
    cases e : s.random.2 with
    | ok b =>
      obtain ⟨h', w, u', f, k, hw, hb, r⟩ := q1 b e
      exact ⟨w, h', f, k.frame, hw, hb, u', hr, r, by rw [q]; exact hL, rfl⟩
    | error x =>
      obtain ⟨m, h', u', rfl, f, k, r⟩ := q2 x e
      exact ⟨h', f, k.frame, u', hr, r, by rw [q]; exact hL, rfl⟩
  | reseed v =>
    have ne : ¬ (pyVal v h).isEmpty = true := by simpa [Thing.beyond, Meth.map] using ha
    have kv := hm v (by simp [Meth.args])
    simp only [Meth.map, Thing.use, Meth.text]
    rw [reset_given s ne]
    rw [isEmpty_data] at ne
    rw [pyVal_data]
    cases e : bytesOf v h with
    | none =>
      obtain ⟨h', f, x, r⟩ := p2 v (.inl ⟨e, kv⟩)
      exact ⟨h', f, x.frame _, u, hr, r, hL, rfl⟩
    | some b =>
      by_cases hb : b.length = s.sizeS
      · obtain ⟨h', u', f, k, r⟩ := p3 v b e (fun e' => ne (e' ▸ e)) hb
        simp only [hb, if_true]
        exact ⟨h', f, k.frame, u', hr, r, hL, rfl⟩
      · obtain ⟨h', f, x, r⟩ := p2 v (.inr ⟨b, e, fun e' => ne (e' ▸ e), hb⟩)
        simp only [hb, if_false]
        exact ⟨h', f, x.frame _, u, hr, r, hL, rfl⟩

theorem sig_use (L n : Nat) {s : Sig} {o : Nat} (a : SigCell s me o h) (hL : 0 < L) (hn : 732 ≤ n) (p0 : 0 < s.p)
    (hp : s.p ≤ 2 ^ 512) (q0 : 0 < s.q) (hq : s.q ≤ 2 ^ 512) (m : Meth Val) (hm : ∀ v ∈ m.args, Known v h)
    (ha : (Thing.sig s).beyond L (m.map (pyVal · h)) = false) :
    match (Thing.sig s).use L (m.map (pyVal · h)) with
    | some (t, r) => r.Of (callMeth (ctx L (n + 11)) (.ref me) m.text.1 m.text.2 h) h [] (IsThing L n t me [])
    | none => Refused (callMeth (ctx L (n + 11)) (.ref me) m.text.1 m.text.2 h) h := by
  have g : h[me]? = some (.inst "GOST34102012" (sigAttrs s o)) := a
  have none : ∀ m args, package.method "GOST34102012" m = none →
      Refused (callMeth (ctx L (n + 11)) (.ref me) m args h) h := fun m args e => no_method L _ g args e
  have kept : ∀ h', Keeps [] h h' → IsThing L n (.sig s) me [] h' := fun h' k =>
    ⟨o, k.get a (by simp), hL, hn, p0, hp, q0, hq, rfl⟩
  have run : ∀ {m f : String}, package.method "GOST34102012" m = some (f, false) → ∀ args,
      callMeth (ctx L (n + 11)) (.ref me) m args h = call package L (n + 11) f (.ref me :: args) h := fun hm args => by
    simp only [callMeth, g, ctx, hm, Bool.false_eq_true, if_false]
  have bytes : ∀ {out : Out Val} {R : Option (Res Bytes)}, R.isNone = false → BytesResult [] out h R →
      (answerSig R).Of out h [] (IsThing L n (.sig s) me []) := fun {out R} hR f => by
    match R, hR, f with
    | some (.ok b), _, ⟨h', v, e, k, hv, hb⟩ => exact ⟨v, h', e, k.frame, hv, hb, kept h' k⟩
    | some (.error x), _, ⟨h', e, k⟩ => exact ⟨h', e, k.frame, kept h' k⟩
  obtain ⟨F, rfl⟩ : ∃ F, L = F + 1 := ⟨L - 1, by omega⟩
  have dp := deep_of_le p0 hp (n := n + 7) (by omega)
  have dq := deep_of_le q0 hq (n := n + 7) (by omega)
  cases m with
  | macFinal => exact none "mac_final" _ (by decide +kernel)
  | hashFinal => exact none "hash_final" _ (by decide +kernel)
  | getHash => exact none "get_hash" _ (by decide +kernel)
  | encrypt v => exact none "encrypt" _ (by decide +kernel)
  | decrypt v => exact none "decrypt" _ (by decide +kernel)
  | update v => exact none "update" _ (by decide +kernel)
  | digest i => exact none "digest" _ (by decide +kernel)
  | hexdigest i => exact none "hexdigest" _ (by decide +kernel)
  | reset => exact none "reset" _ (by decide +kernel)
  | clear => exact none "clear" _ (by decide +kernel)
  | derive i => exact none "derive" _ (by decide +kernel)
  | hexderive i => exact none "hexderive" _ (by decide +kernel)
  | random => exact none "random" _ (by decide +kernel)
  | reseed v => exact none "reset" _ (by decide +kernel)
  | publicKey v =>
    simp only [Meth.map, Thing.use, Meth.text, Nat.add_sub_cancel]
    rw [run Meth.GOST34102012.public_key_generate]
    exact bytes (by simpa only [Thing.beyond, Meth.map, Nat.add_sub_cancel] using ha)
      (SigSrc.public_key_ok F (n + 7) a p0.ne' dp v)
  | sign kv dv rv =>
    simp only [Thing.beyond, Meth.map, Nat.add_sub_cancel, Bool.or_eq_false_iff] at ha
    simp only [Meth.map, Thing.use, Meth.text, Nat.add_sub_cancel]
    rw [run Meth.GOST34102012.sign]
    have f := SigSrc.sign_ok F (n + 7) a p0.ne' q0.ne' dp kv dv rv (hm rv (by simp [Meth.args])) (fun _ => [])
      (fun e => by rw [ha.1] at e; cases e)
    rw [ha.1] at f
    exact bytes ha.2 f
  | verify kv dv gv =>
    simp only [Thing.beyond, Meth.map, Nat.add_sub_cancel] at ha
    simp only [Meth.map, Thing.use, Meth.text, Nat.add_sub_cancel]
    rw [run Meth.GOST34102012.verify]
    have f := SigSrc.verify_ok F (n + 7) a p0.ne' q0.ne' dp dq kv dv gv
    generalize s.verify F (pyVal kv h) (pyVal dv h) (pyVal gv h) = R at f ha
    have k : ∀ l, Keeps [] h (h ++ l) := fun l => ((Ext.refl h).add l).keeps []
    match R, ha, f with
    | some (.ok b), _, ⟨l, e⟩ => exact ⟨_, e, (k l).frame, kept _ (k l)⟩
    | some (.error x), _, ⟨l, e⟩ => exact ⟨_, e, (k l).frame, kept _ (k l)⟩

/-- Every method of every object, with any arguments. -/
theorem use_ok (L n : Nat) {t : Thing} (a : IsThing L n t me P h) (m : Meth Val)
    (hm : ∀ v ∈ m.args, Known v h ∧ ∀ q ∈ P, v ≠ .ref q) (ha : t.beyond L (m.map (pyVal · h)) = false) :
    match t.use L (m.map (pyVal · h)) with
    | some (t', r) => r.Of (callMeth (ctx L (n + 11)) (.ref me) m.text.1 m.text.2 h) h P (IsThing L n t' me P)
    | none => Refused (callMeth (ctx L (n + 11)) (.ref me) m.text.1 m.text.2 h) h := by
  cases t with
  | cipher c =>
    by_cases hc : Enciphers c
    · exact mode_use L n hc a m hm
    · cases c with
      | mac s => exact mac_use L n a m
      | _ => exact (hc trivial).elim
  | hash s =>
    obtain ⟨r, rfl⟩ := a
    exact hash_use L n r m
  | hmac s =>
    obtain ⟨hr, r, rfl⟩ := a
    exact hmac_use L n r m
  | pbkdf s =>
    obtain ⟨c, r, rfl⟩ := a
    exact pbkdf_use L n r m
  | rand s =>
    obtain ⟨u, hr, r, hL, rfl⟩ := a
    exact rand_use L n r hL m (fun v hv => (hm v hv).1) ha
  | sig s =>
    obtain ⟨o, r, h1, h2, h3, h4, h5, h6, rfl⟩ := a
    exact sig_use L n r h1 h2 h3 h4 h5 h6 m (fun v hv => (hm v hv).1) ha

/-- `copy`: a new object, which does not reach the one which is copied. -/
theorem copy_ok (L n : Nat) {t : Thing} (a : IsThing L n t me P h) :
    match t.copy with
    | some t' => ∃ me' P' h', callMeth (ctx L (n + 11)) (.ref me) "copy" [] h = ok (.ref me') h' ∧ Ext h h' ∧
        (∀ q ∈ P', h.length ≤ q) ∧ IsThing L n t' me' P' h' ∧ ∀ q ∈ P, ¬ Reach h' [.ref me'] q
    | none => Refused (callMeth (ctx L (n + 11)) (.ref me) "copy" [] h) h := by
  cases t with
  | cipher c =>
    by_cases hc : Enciphers c
    · exact cipher_refused L _ hc a _ _ (by simp)
    · cases c with
      | mac s =>
        obtain ⟨cr, kr, x, a', hP⟩ := id a
        obtain ⟨o, l, g, -⟩ := a'.mode.get
        exact no_method L _ g _ (by decide +kernel)
      | _ => exact (hc trivial).elim
  | hash s =>
    obtain ⟨r, rfl⟩ := a
    obtain ⟨-, -, -, -, -, -, -, ⟨me', h', f, x, hl, r'⟩, -⟩ := C97_methods L (n + 4) h s me r
    refine ⟨me', [me'], h', f, x, by simpa using hl, ⟨r', rfl⟩, fun q hq c => ?_⟩
    obtain ⟨o, d, r, -⟩ := r
    have g := x.get r.obj
    have := (List.getElem?_eq_some_iff.1 r.obj).1
    rw [List.mem_singleton.1 hq] at c
    rcases isHash_reach r' c with rfl | ⟨b, e⟩ | ⟨str, e⟩
    · omega
    · rw [g] at e; cases e
    · have := g.symm.trans e
      simp at this
  | hmac s =>
    obtain ⟨hr, r, rfl⟩ := a
    obtain ⟨-, -, -, -, -, -, ⟨h', me', hr', f, x, hl, hl', r'⟩, -⟩ := C98_methods L (n + 3) h s me hr r
    refine ⟨me', [me', hr'], h', f, x, by simpa using ⟨hl, hl'⟩, ⟨hr', r', rfl⟩, fun q hq c => ?_⟩
    obtain ⟨kv, o, r, -, ⟨o', d, r2, -⟩, -⟩ := r
    have inst : ∃ cls l, h[q]? = some (.inst cls l) ∧ cls ≠ "ObjectIdentifier" := by
      rcases List.mem_cons.1 hq with rfl | hq
      · exact ⟨_, _, r, by decide⟩
      · rw [List.mem_singleton.1 hq]
        exact ⟨_, _, r2.obj, by decide⟩
    obtain ⟨cls, l, g, hc⟩ := inst
    have := (List.getElem?_eq_some_iff.1 g).1
    have g := x.get g
    rcases isHmac_reach r' c with rfl | rfl | ⟨b, e⟩ | ⟨str, e⟩
    · omega
    · omega
    · rw [g] at e; cases e
    · have := g.symm.trans e
      simp only [Option.some.injEq, Obj.inst.injEq] at this
      exact hc this.1
  | pbkdf s =>
    obtain ⟨c, r, rfl⟩ := a
    exact no_method L _ r.obj _ (by decide +kernel)
  | rand s =>
    obtain ⟨u, hr, r, -, rfl⟩ := a
    exact no_method L _ r.obj _ (by decide +kernel)
  | sig s =>
    obtain ⟨o, r, -⟩ := a
    have g : h[me]? = some (.inst "GOST34102012" (sigAttrs s o)) := r
    exact no_method L _ g _ (by decide +kernel)

/-! ### Constructors -/

theorem pyVal_none {v : Val} (k : Known v h) (e : bytesOf v h = none) : Other v h := ⟨e, k⟩

theorem hash_make (L n : Nat) (name : String) (data : Option Val) (k : ∀ v, data = some v → Known v h) :
    match HashObj.new name (data.map (pyVal · h)) with
    | .ok s => ∃ me h', call package L (n + 7) "Hash.new" [.str name, .dict (kwGiven [("data", data)])] h = ok (.ref me) h' ∧
        Ext h h' ∧ h.length ≤ me ∧ IsHash s me h'
    | .error e => ∃ h', call package L (n + 7) "Hash.new" [.str name, .dict (kwGiven [("data", data)])] h = fail (exc e) h' ∧
        Ext h h' := by
  obtain ⟨p, q⟩ := C97_new L n h (kwGiven [("data", data)])
  unfold HashObj.new
  by_cases hn : name ≠ "streebog512" ∧ name ≠ "streebog256"
  · rw [if_pos hn]
    exact ⟨h, p (.str name) (by simpa using hn.1) (by simpa using hn.2), .refl h⟩
  · rw [if_neg hn]
    have hn : name = "streebog512" ∨ name = "streebog256" := by
      by_cases e : name = "streebog512"
      · exact .inl e
      · exact .inr (by simpa [e] using hn)
    obtain ⟨q1, q2, q3⟩ := q name hn
    cases data with
    | none =>
      obtain ⟨h', r, f, x, hl, a⟩ := q1 rfl
      exact ⟨r, h', f, x, hl, a⟩
    | some v =>
      simp only [Option.map_some, Option.getD_some, HashObj.init]
      cases e : bytesOf v h with
      | none =>
        have he : ¬ (pyVal v h).isEmpty = true := by rw [isEmpty_data, e]; simp
        rw [if_neg he]
        simp only [HashObj.update, pyVal_data, e]
        exact q3 v (by simp [kwGiven, findAttr]) ⟨e, k v rfl⟩
      | some d =>
        obtain ⟨h', r, f, x, hl, a⟩ := q2 v d (by simp [kwGiven, findAttr]) e
        by_cases hd : d = []
        · rw [if_pos (isEmpty_data.2 (hd ▸ e))]
          rw [hd, Streebog.updateBytes_nil] at a
          exact ⟨r, h', f, x, hl, a⟩
        · rw [if_neg (by rw [isEmpty_data, e]; simpa using hd)]
          simp only [HashObj.update, pyVal_data, e]
          exact ⟨r, h', f, x, hl, a⟩

theorem initKey_cases (name : String) (kv : Val) :
    (¬ IsHmacName name ∧ Gost.Hmac.initKey name (pyVal kv h) = .error (.hmacError "GOSTHMACError: unsupported mode")) ∨
    (IsHmacName name ∧ (bytesOf kv h = none ∨ ∃ key, bytesOf kv h = some key ∧ 64 < key.length) ∧
      Gost.Hmac.initKey name (pyVal kv h) = .error (.hmacError "GOSTHMACError: invalid key value")) ∨
    (IsHmacName name ∧ ∃ key, bytesOf kv h = some key ∧ key.length ≤ 64 ∧
      Gost.Hmac.initKey name (pyVal kv h) = .ok ⟨hmacKey key, HashObj.hashInit (hmacHash name), 0⟩) := by
  by_cases hn : IsHmacName name
  · refine .inr ?_
    have hn' : ¬ (name ≠ "HMAC_GOSTR3411_2012_256" ∧ name ≠ "HMAC_GOSTR3411_2012_512") := by
      rintro ⟨h1, h2⟩
      rcases hn with e | e
      · exact h1 e
      · exact h2 e
    cases e : bytesOf kv h with
    | none =>
      refine .inl ⟨hn, .inl rfl, ?_⟩
      unfold Gost.Hmac.initKey
      rw [if_neg hn', pyVal_data, e]
    | some key =>
      by_cases hk : 64 < key.length
      · refine .inl ⟨hn, .inr ⟨key, rfl, hk⟩, ?_⟩
        unfold Gost.Hmac.initKey
        rw [if_neg hn', pyVal_data, e]
        exact if_pos hk
      · exact .inr ⟨hn, key, rfl, by omega, Gost.Hmac.initKey_ok name hn _ key (by rw [pyVal_data, e]) (by omega)⟩
  · refine .inl ⟨hn, ?_⟩
    unfold Gost.Hmac.initKey
    rw [if_pos]
    exact ⟨fun e => hn (.inl e), fun e => hn (.inr e)⟩

theorem hmac_make (L n : Nat) (name : String) (kv : Val) (data : Option Val) (hk : Known kv h)
    (k : ∀ v, data = some v → Known v h) :
    match Gost.Hmac.new name (pyVal kv h) (data.map (pyVal · h)) with
    | .ok s => ∃ me hr h', call package L (n + 8) "Hmac.new" [.str name, kv, .dict (kwGiven [("data", data)])] h = ok (.ref me) h' ∧
        Ext h h' ∧ h.length ≤ me ∧ h.length ≤ hr ∧ IsHmac s me hr h'
    | .error e => ∃ h', call package L (n + 8) "Hmac.new" [.str name, kv, .dict (kwGiven [("data", data)])] h = fail (exc e) h' ∧
        Ext h h' := by
  obtain ⟨p, q⟩ := C98_new L n h (kwGiven [("data", data)])
  rcases initKey_cases (h := h) name kv with ⟨hn, e⟩ | ⟨hn, hb, e⟩ | ⟨hn, key, hb, hl, e⟩
  · unfold Gost.Hmac.new
    rw [e]
    exact p (.str name) kv (by simpa using fun e => hn (.inl e)) (by simpa using fun e => hn (.inr e))
  · unfold Gost.Hmac.new
    rw [e]
    refine (q name hn).1 kv ?_
    rcases hb with hb | hb
    · exact .inl ⟨hb, hk⟩
    · exact .inr hb
  · obtain ⟨q1, q2⟩ := (q name hn).2 kv key hb hl
    have key : ∀ d, DataArg (kwGiven [("data", data)]) h d → ∃ me hr h',
        call package L (n + 8) "Hmac.new" [.str name, kv, .dict (kwGiven [("data", data)])] h = ok (.ref me) h' ∧
        Ext h h' ∧ h.length ≤ me ∧ h.length ≤ hr ∧ IsHmac (if d = [] then ⟨hmacKey key, HashObj.hashInit (hmacHash name), 0⟩ else
              (⟨hmacKey key, HashObj.hashInit (hmacHash name), 0⟩ : Gost.Hmac).updateBytes d) me hr h' := by
      intro d hd
      obtain ⟨h', r, hr, kv', f, x, h1, h2, -, a⟩ := q2 d hd
      exact ⟨r, hr, h', f, x, h1, h2, kv', a⟩
    unfold Gost.Hmac.new
    rw [e]
    cases data with
    | none =>
      obtain ⟨r, hr, h', f, x, h1, h2, a⟩ := key [] (.inl ⟨rfl, rfl⟩)
      exact ⟨r, hr, h', f, x, h1, h2, a⟩
    | some v =>
      cases ev : bytesOf v h with
      | none =>
        have he : ¬ (pyVal v h).isEmpty = true := by rw [isEmpty_data, ev]; simp
        simp only [Option.map_some, Option.getD_some, bind, Except.bind, if_neg he, Gost.Hmac.update, pyVal_data, ev]
        exact q1 v (by simp [kwGiven, findAttr]) ⟨ev, k v rfl⟩
      | some d =>
        obtain ⟨r, hr, h', f, x, h1, h2, a⟩ := key d (.inr ⟨v, by simp [kwGiven, findAttr], ev⟩)
        by_cases hd : d = []
        · simp only [Option.map_some, Option.getD_some, bind, Except.bind, if_pos (isEmpty_data.2 (hd ▸ ev))]
          rw [if_pos hd] at a
          exact ⟨r, hr, h', f, x, h1, h2, a⟩
        · have he : ¬ (pyVal v h).isEmpty = true := by rw [isEmpty_data, ev]; simpa using hd
          simp only [Option.map_some, Option.getD_some, bind, Except.bind, if_neg he, Gost.Hmac.update, pyVal_data, ev]
          rw [if_neg hd] at a
          exact ⟨r, hr, h', f, x, h1, h2, a⟩

theorem pbkdf_make (L n : Nat) (pv sv : Val) (it : Int) (hp : Known pv h) (hs : Known sv h) (ne : bytesOf sv h ≠ some []) :
    match Gost.Pbkdf.new [] (pyVal pv h) (some (pyVal sv h)) it with
    | .ok s => ∃ me c h', call package L (n + 9) "Pbkdf.new"
          [pv, .dict (kwGiven [("salt", some sv), ("counter", some (.int it))])] h = ok (.ref me) h' ∧
        Ext h h' ∧ h.length ≤ me ∧ h.length ≤ c.hmac ∧ h.length ≤ c.hash ∧ PbkdfAt s me c h'
    | .error e => ∃ h', call package L (n + 9) "Pbkdf.new"
          [pv, .dict (kwGiven [("salt", some sv), ("counter", some (.int it))])] h = fail (exc e) h' ∧ Ext h h' := by
  obtain ⟨p, q⟩ := C99_new L n h (kwGiven [("salt", some sv), ("counter", some (.int it))])
  have he : ¬ (pyVal sv h).isEmpty = true := by rw [isEmpty_data]; exact ne
  unfold Gost.Pbkdf.new
  rw [pyVal_data]
  cases ep : bytesOf pv h with
  | none => exact p pv ⟨ep, hp⟩
  | some pw =>
    obtain ⟨q1, q2⟩ := q pv pw ep
    simp only [Option.getD_some, if_neg he, pyVal_data]
    cases es : bytesOf sv h with
    | none => exact q1 sv (by simp [kwGiven, findAttr]) ⟨es, hs⟩
    | some salt =>
      obtain ⟨q3, q4⟩ := (q2 it (.inr (by simp [kwGiven, findAttr]))).1 sv salt (by simp [kwGiven, findAttr]) es
        (fun e => ne (e ▸ es))
      by_cases hl : 64 < pw.length
      · have e : Gost.Hmac.new "HMAC_GOSTR3411_2012_512" (.bytearray pw) (some (.bytearray [])) =
            .error (.hmacError "GOSTHMACError: invalid key value") := by
          unfold Gost.Hmac.new Gost.Hmac.initKey
          simp [PyVal.data?, hl]
        simp only [e]
        exact q3 hl
      · obtain ⟨h', r, c, f, x, h1, h2, h3, a⟩ := q4 (by omega)
        have e := pbkdf_new_ok [] (.bytearray pw) pw rfl (by omega) (some (.bytearray salt)) salt (by
          simp [saltUsed, PyVal.data?, show salt ≠ [] from fun e => ne (e ▸ es)]) it
        unfold Gost.Pbkdf.new at e
        simp only [PyVal.data?, Option.getD_some] at e
        rw [if_neg (by
          intro e'
          cases salt with
          | nil => exact ne es
          | cons => simp [PyVal.isEmpty] at e')] at e
        simp only at e
        simp only [e]
        exact ⟨r, c, h', f, x, h1, h2, h3, a⟩

theorem rand_make (L n : Nat) (z : Int) (sv : Val) (sizeS : Option Nat) (hs : Known sv h) (ne : bytesOf sv h ≠ some [])
    (h64 : sizeS.getD 48 ≤ 64) :
    match Gost.Rand.new [] z (some (pyVal sv h)) (sizeS.getD 48) with
    | .ok s => ∃ me u hr h', call package L (n + 8) "Random.new"
          [.int z, .dict (kwGiven [("rand_k", some sv), ("size_s", sizeS.map fun i : Nat => .int i)])] h = ok (.ref me) h' ∧
        Ext h h' ∧ h.length ≤ me ∧ h.length ≤ hr ∧ RandAt s me u hr h' ∧ s.q = z.fdiv 64
    | .error e => ∃ h', call package L (n + 8) "Random.new"
          [.int z, .dict (kwGiven [("rand_k", some sv), ("size_s", sizeS.map fun i : Nat => .int i)])] h = fail (exc e) h' ∧
        Ext h h' := by
  obtain ⟨q1, q2⟩ := C100_new L n h (kwGiven [("rand_k", some sv), ("size_s", sizeS.map fun i : Nat => .int i)])
    (sizeS.getD 48) (by
      cases sizeS with
      | none => exact .inl ⟨rfl, rfl⟩
      | some i => exact .inr rfl)
  have f0 : findAttr "rand_k" (kwGiven [("rand_k", some sv), ("size_s", sizeS.map fun i : Nat => .int i)]) = some sv := rfl
  have q2 := q2 h64
  have he : ¬ (pyVal sv h).isEmpty = true := by rw [isEmpty_data]; exact ne
  unfold Gost.Rand.new
  generalize sizeS.getD 48 = size at q1 q2 ⊢
  rw [Option.getD_some, seed_given he, pyVal_data]
  cases e : bytesOf sv h with
  | none => exact q1 (.int z) sv f0 (.inl ⟨e, hs⟩)
  | some b =>
    by_cases hb : b.length = size
    · obtain ⟨h', r, u, hr, f, x, h1, h2, a⟩ := (q2 z b hb).1 sv f0 e fun e' => ne (e' ▸ e)
      simp only [hb, if_true]
      exact ⟨r, u, hr, h', f, x, h1, h2, by subst hb; exact a, rfl⟩
    · simp only [hb, if_false]
      exact q1 (.int z) sv f0 (.inr ⟨b, e, fun e' => ne (e' ▸ e), hb⟩)

theorem kwGiven_args {pad : Option Int} {iv data : Option Val} (k : ∀ v, iv = some v ∨ data = some v → Known v h) :
    KwArgs (kwGiven [("pad_mode", pad.map .int), ("init_vect", iv), ("data", data)]) h pad (iv.map (pyVal · h))
      (data.map (pyVal · h)) := by
  refine ⟨?_, ?_, ?_, fun x w hw => ?_⟩
  · cases pad <;> cases iv <;> cases data <;> simp [kwGiven, findAttr]
  · cases pad <;> cases iv <;> cases data <;> simp [kwGiven, findAttr]
  · cases pad <;> cases iv <;> cases data <;> simp [kwGiven, findAttr]
  · have : (∃ p, w = .int p) ∨ iv = some w ∨ data = some w := by
      have mem : ∀ {l : List (String × Val)}, findAttr x l = some w → ∃ y, (y, w) ∈ l := by
        intro l
        induction l with
        | nil => intro e; cases e
        | cons p l ih =>
          intro e
          obtain ⟨y, v⟩ := p
          simp only [findAttr] at e
          split at e
          · cases e; exact ⟨y, by simp⟩
          · obtain ⟨z, hz⟩ := ih e
            exact ⟨z, by simp [hz]⟩
      obtain ⟨y, hy⟩ := mem hw
      cases pad <;> cases iv <;> cases data <;> simp [kwGiven] at hy <;> rcases hy with hy | hy | hy <;> simp_all
    rcases this with ⟨p, rfl⟩ | e
    · exact fun r e => Val.noConfusion e
    · exact k w e

/-- The curve of a signature object. -/
theorem sig_new {mode : Int} {c : CurveParams} {s : Sig} (e : Sig.new mode c = .ok s) :
    s.p = c.p.getD 1 ∧ 0 < s.q ∧ s.q ≤ 2 ^ 512 := by
  by_cases hm : mode = 1 ∨ mode = 2
  · rw [Sig.new_eq mode c hm] at e
    cases e1 : (Sig.given mode c).edvardsToCanonical with
    | error x => rw [e1] at e; cases e
    | ok s1 =>
      rw [e1] at e
      have size := Sig.given_size mode c s1 e1
      have hp : s1.p = c.p.getD 1 := by
        unfold Sig.edvardsToCanonical at e1
        split at e1
        · split at e1
          · cases e1
          · cases e1; rfl
        · cases e1; rfl
      obtain ⟨c1, c2, c3⟩ := Sig.checkCurve_eq s1 size
      simp only [bind, Except.bind] at e
      by_cases ha : Sig.Acceptable s1
      · rw [c1 ha] at e
        cases e
        refine ⟨hp, ?_⟩
        obtain ⟨-, -, -, ⟨-, h1, h2⟩ | ⟨-, h1, h2⟩⟩ := ha
        · exact ⟨lt_of_lt_of_le (by positivity) h1, h2.trans (pow_le_pow_right₀ (by norm_num) (by norm_num))⟩
        · exact ⟨lt_of_lt_of_le (by positivity) h1, h2⟩
      · by_cases hz : s1.m ≠ s1.p ∧ (s1.p = 0 ∨ (Sig.OnCurve s1 ∧ s1.q = 0))
        · rw [c2 hz] at e; cases e
        · rw [c3 ⟨ha, hz⟩] at e; cases e
  · unfold Sig.new at e
    rw [if_pos (by rw [not_or] at hm; exact hm)] at e
    cases e

/-- A generator with a seed of at most 64 bytes and outputs of fewer blocks than the turns of a loop; a signature object
with a positive modulus of at most 512 bits. -/
def Make.Small {α : Type} (L n : Nat) : Make α → Prop
  | .sig _ c => 0 < L ∧ 732 ≤ n ∧ 0 < c.p.getD 1 ∧ c.p.getD 1 ≤ 2 ^ 512
  | .rand z _ sizeS => sizeS.getD 48 ≤ 64 ∧ (z.fdiv 64).toNat < L
  | _ => True

/-- Every function `new`, with any arguments for which the system is not asked for random bytes. -/
theorem make_ok (L n : Nat) (mk : Make Val) (hk : ∀ v ∈ mk.args, Known v h)
    (ha : (mk.map (pyVal · h)).beyond = false) (hz : mk.Small L n) :
    match (mk.map (pyVal · h)).model with
    | .ok t => ∃ me P h', call package L (n + 11) mk.text.1 mk.text.2 h = ok (.ref me) h' ∧ Ext h h' ∧
        (∀ q ∈ P, h.length ≤ q) ∧ IsThing L n t me P h'
    | .error e => ∃ h', call package L (n + 11) mk.text.1 mk.text.2 h = fail (exc e) h' ∧ Ext h h' := by
  cases mk with
  | cipher alg key mode pad iv data =>
    have := C101_new L (n + 3) h alg key (hk key (by simp [Make.args])) mode _ pad _ _
      (kwGiven_args (pad := pad) (iv := iv) (data := data) fun v e => hk v (by
        rcases e with rfl | rfl <;> simp [Make.args]))
    simp only [Make.map, Make.model, Make.text]
    generalize newCipher alg (pyVal key h) mode pad (iv.map (pyVal · h)) (data.map (pyVal · h)) = R at this ⊢
    cases R with
    | ok c =>
      obtain ⟨me, P, h', f, x, -, h2, r⟩ := this
      exact ⟨me, P, h', f, x, h2, r⟩
    | error e => exact this
  | hash name data =>
    have := hash_make (h := h) L (n + 4) name data fun v e => hk v (by simp [Make.args, e])
    simp only [Make.map, Make.model, Make.text]
    generalize HashObj.new name (data.map (pyVal · h)) = R at this ⊢
    cases R with
    | ok s =>
      obtain ⟨me, h', f, x, h1, r⟩ := this
      exact ⟨me, [me], h', f, x, by simpa using h1, r, rfl⟩
    | error e => exact this
  | hmac name key data =>
    have := hmac_make (h := h) L (n + 3) name key data (hk key (by simp [Make.args])) fun v e => hk v (by simp [Make.args, e])
    simp only [Make.map, Make.model, Make.text]
    generalize Gost.Hmac.new name (pyVal key h) (data.map (pyVal · h)) = R at this ⊢
    cases R with
    | ok s =>
      obtain ⟨me, hr, h', f, x, h1, h2, r⟩ := this
      exact ⟨me, [me, hr], h', f, x, by simpa using ⟨h1, h2⟩, hr, r, rfl⟩
    | error e => exact this
  | pbkdf pw salt it =>
    have := pbkdf_make (h := h) L (n + 2) pw salt it (hk pw (by simp [Make.args])) (hk salt (by simp [Make.args]))
      (fun e => by rw [← isEmpty_data] at e; simp [Make.beyond, Make.map, e] at ha)
    simp only [Make.map, Make.model, Make.text]
    generalize Gost.Pbkdf.new [] (pyVal pw h) (some (pyVal salt h)) it = R at this ⊢
    cases R with
    | ok s =>
      obtain ⟨me, c, h', f, x, h1, h2, h3, r⟩ := this
      exact ⟨me, [me, c.hmac, c.hash], h', f, x, by simpa using ⟨h1, h2, h3⟩, c, r, rfl⟩
    | error e => exact this
  | rand z seed sizeS =>
    have := rand_make (h := h) L (n + 3) z seed sizeS (hk seed (by simp [Make.args]))
      (fun e => by rw [← isEmpty_data] at e; simp [Make.beyond, Make.map, e] at ha) hz.1
    simp only [Make.map, Make.model, Make.text]
    generalize Gost.Rand.new [] z (some (pyVal seed h)) (sizeS.getD 48) = R at this ⊢
    cases R with
    | ok s =>
      obtain ⟨me, u, hr, h', f, x, h1, h2, r, q⟩ := this
      exact ⟨me, [me, hr], h', f, x, by simpa using ⟨h1, h2⟩, u, hr, r, by rw [q]; exact hz.2, rfl⟩
    | error e => exact this
  | sig mode c =>
    obtain ⟨hL, hn, p0, hp⟩ := hz
    have f := SigSrc.new_ok L (n + 7) h mode (SigSrc.curveDict c) (deep_of_le p0 hp (by omega))
    simp only [Make.map, Make.model, Make.text]
    cases e : Sig.new mode c with
    | ok s =>
      rw [e] at f
      obtain ⟨h', me, o, f, x, -, -, r, -⟩ := f
      obtain ⟨e1, e2, e3⟩ := sig_new e
      exact ⟨me, [], h', f, x, by simp, o, r, hL, hn, by rw [e1]; exact p0, by rw [e1]; exact hp, e2, e3, rfl⟩
    | error x =>
      rw [e] at f
      exact f

end

end Gost.Src
