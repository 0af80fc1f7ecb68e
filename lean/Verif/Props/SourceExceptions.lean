import Verif.Props.SourceHash
import Verif.Props.SourceHmac
import Verif.Props.SourcePbkdf
import Verif.Props.SourceRandom
import Verif.Props.SourceModes

/-! C116: which exceptions reach the caller. Every function and method of the package as it is written, for any
values of the arguments and after any calls on the object, returns or raises the exception of its module; the calls
which raise another one are listed. -/

namespace Gost.Src

open Spec ModesSrc Streebog PbkdfSrc RandomSrc HmacSrc


/-- A method called on an object, or an attribute read. -/
inductive Use where
  | meth (m : String) (args : List Val)
  | attr (a : String)

/-- What it does. -/
def Use.run (C : Ctx) (o : Val) : Use → Heap → Out Val
  | .meth m args, h => callMeth C o m args h
  | .attr a, h => getAttr C o a h

/-- A result, or an exception in `E`. -/
def Answers (E : Exc → Prop) (o : Out Val) : Prop :=
  match o.1 with
  | .ok _ => True
  | .error e => E e

/-- The uses one after the other on the object `o`, exceptions being caught, answer. -/
def AllAnswer (E : Exc → Prop) (C : Ctx) (o : Val) : List Use → Heap → Prop
  | [], _ => True
  | u :: us, h => Answers E (u.run C o h) ∧ AllAnswer E C o us (u.run C o h).2

/-- The exceptions of the class `cls`. -/
def Only (cls : String) (e : Exc) : Prop := ∃ m, e = .raised cls m

theorem answers_ok {E : Exc → Prop} {o : Out Val} {v : Val} {h : Heap} (e : o = ok v h) : Answers E o := by
  subst e
  trivial

theorem answers_fail {E : Exc → Prop} {o : Out Val} {x : Exc} {h : Heap} (e : o = fail x h) (hx : E x) : Answers E o := by
  subst e
  exact hx

theorem answers_new {E : Exc → Prop} {o : Out Val} {h : Heap} {b : Bytes} (e : NewBytes o h b) : Answers E o := by
  obtain ⟨r, h', f, -⟩ := e
  exact answers_ok f

theorem newBytes_ext {o : Out Val} {h : Heap} {b : Bytes} (e : NewBytes o h b) : Ext h o.2 := by
  obtain ⟨r, h', rfl, x, -⟩ := e
  exact x

/-- An invariant of the object which every use keeps. -/
theorem allAnswer {E : Exc → Prop} {C : Ctx} {o : Val} {A : Use → Prop} (Inv : Heap → Prop)
    (step : ∀ u, A u → ∀ h, Inv h → Answers E (u.run C o h) ∧ Inv (u.run C o h).2) :
    ∀ us, (∀ u ∈ us, A u) → ∀ h, Inv h → AllAnswer E C o us h := by
  intro us
  induction us with
  | nil => intros; trivial
  | cons u us ih =>
    intro hA h i
    have := step u (hA u (by simp)) h i
    exact ⟨this.1, ih (fun x hx => hA x (by simp [hx])) _ this.2⟩

/-! ### Hash -/

/-- The uses of a hash object. -/
inductive HashUse : Use → Prop where
  | update (v : Val) : HashUse (.meth "update" [v])
  | digest : HashUse (.meth "digest" [])
  | hexdigest : HashUse (.meth "hexdigest" [])
  | reset : HashUse (.meth "reset" [])
  | hashFinal : HashUse (.meth "hash_final" [])
  | getHash : HashUse (.meth "get_hash" [])
  | copy : HashUse (.meth "copy" [])
  | digestSize : HashUse (.attr "digest_size")
  | blockSize : HashUse (.attr "block_size")
  | name : HashUse (.attr "name")

theorem hash_uses (L n : Nat) {s : HashObj} {me : Nat} {h : Heap} (r : Streebog.IsHash s me h) (us : List Use)
    (hu : ∀ u ∈ us, HashUse u) : AllAnswer (Only "GOSTHashError") (ctx L (n + 7)) (.ref me) us h := by
  refine allAnswer (fun h => ∃ s, Streebog.IsHash s me h) ?_ us hu h ⟨s, r⟩
  rintro u a h ⟨s, r⟩
  obtain ⟨p1, p2, p3, p4, p5, p6, p7, p8, p9, p10, p11⟩ := C97_methods L n h s me r
  cases a with
  | update v =>
    cases e : bytesOf v h with
    | some d =>
      obtain ⟨h', f, -, q⟩ := p1 v d e
      simp only [Use.run]
      rw [f]
      exact ⟨trivial, _, q⟩
    | none =>
      simp only [Use.run]
      rw [p2 v e]
      exact ⟨⟨_, rfl⟩, s, r⟩
  | digest => exact ⟨answers_new p3, s, r.ext (newBytes_ext p3)⟩
  | hexdigest =>
    obtain ⟨h', f, x⟩ := p4
    simp only [Use.run]
    rw [f]
    exact ⟨trivial, s, r.ext x⟩
  | reset =>
    obtain ⟨h', f, -, q⟩ := p5
    simp only [Use.run]
    rw [f]
    exact ⟨trivial, _, q⟩
  | hashFinal =>
    obtain ⟨h', f, -, q⟩ := p6
    simp only [Use.run]
    rw [f]
    exact ⟨trivial, _, q⟩
  | getHash => exact ⟨answers_new p7, s, r.ext (newBytes_ext p7)⟩
  | copy =>
    obtain ⟨me', h', f, x, -⟩ := p8
    simp only [Use.run]
    rw [f]
    exact ⟨trivial, s, r.ext x⟩
  | digestSize => simp only [Use.run]; rw [p9]; exact ⟨trivial, s, r⟩
  | blockSize => simp only [Use.run]; rw [p10]; exact ⟨trivial, s, r⟩
  | name => simp only [Use.run]; rw [p11]; exact ⟨trivial, s, r⟩

/-- C116, `gosthash`: `gosthash.new(name, **kwargs)` for any name and any keyword arguments returns or raises
`GOSTHashError`, and so does every use of the object, in any order and for any arguments. -/
theorem C116_hash (L n : Nat) (h : Heap) (nv : Val) (l : List (String × Val)) (k : KwKnown l h) :
    Answers (Only "GOSTHashError") (call package L (n + 7) "Hash.new" [nv, .dict l] h) ∧
    ∀ o h', call package L (n + 7) "Hash.new" [nv, .dict l] h = ok o h' → ∀ us, (∀ u ∈ us, HashUse u) →
      AllAnswer (Only "GOSTHashError") (ctx L (n + 7)) o us h' := by
  obtain ⟨p, q⟩ := C97_new L n h l
  by_cases hn : nv = .str "streebog512" ∨ nv = .str "streebog256"
  · have key : ∀ name, nv = .str name → (name = "streebog512" ∨ name = "streebog256") →
        (∃ h', call package L (n + 7) "Hash.new" [nv, .dict l] h =
          fail (.raised "GOSTHashError" "GOSTHashError: invalid data value") h') ∨
        (∃ h' r s, call package L (n + 7) "Hash.new" [nv, .dict l] h = ok (.ref r) h' ∧ Streebog.IsHash s r h') := by
      rintro name rfl hn
      obtain ⟨q1, q2, q3⟩ := q name hn
      cases e : findAttr "data" l with
      | none =>
        obtain ⟨h', r, f, -, -, a⟩ := q1 e
        exact Or.inr ⟨h', r, _, f, a⟩
      | some v =>
        cases b : bytesOf v h with
        | some d =>
          obtain ⟨h', r, f, -, -, a⟩ := q2 v d e b
          exact Or.inr ⟨h', r, _, f, a⟩
        | none =>
          obtain ⟨h', f, -⟩ := q3 v e ⟨b, k _ _ e⟩
          exact Or.inl ⟨h', f⟩
    have key := hn.elim (fun e => key _ e (Or.inl rfl)) (fun e => key _ e (Or.inr rfl))
    rcases key with ⟨h', f⟩ | ⟨h', r, s, f, a⟩
    · rw [f]
      exact ⟨⟨_, rfl⟩, fun o h' e => by cases e⟩
    · rw [f]
      refine ⟨trivial, fun o h1 e => ?_⟩
      cases e
      exact hash_uses L n a
  · have hn' : nv ≠ .str "streebog512" ∧ nv ≠ .str "streebog256" := ⟨fun e => hn (Or.inl e), fun e => hn (Or.inr e)⟩
    rw [p nv hn'.1 hn'.2]
    exact ⟨⟨_, rfl⟩, fun o h' e => by cases e⟩

/-! ### HMAC -/

/-- The uses of an HMAC object. -/
inductive HmacUse : Use → Prop where
  | update (v : Val) : HmacUse (.meth "update" [v])
  | digest : HmacUse (.meth "digest" [])
  | hexdigest : HmacUse (.meth "hexdigest" [])
  | reset : HmacUse (.meth "reset" [])
  | clear : HmacUse (.meth "clear" [])
  | copy : HmacUse (.meth "copy" [])
  | digestSize : HmacUse (.attr "digest_size")
  | blockSize : HmacUse (.attr "block_size")
  | name : HmacUse (.attr "name")

theorem hmac_uses (L n : Nat) {s : Gost.Hmac} {me hr : Nat} {h : Heap} (r : HmacSrc.IsHmac s me hr h) (us : List Use)
    (hu : ∀ u ∈ us, HmacUse u) : AllAnswer (Only "GOSTHMACError") (ctx L (n + 8)) (.ref me) us h := by
  refine allAnswer (fun h => ∃ s, HmacSrc.IsHmac s me hr h) ?_ us hu h ⟨s, r⟩
  rintro u a h ⟨s, r⟩
  obtain ⟨p1, p2, p3, p4, p5, p6, p8, p9, p10, p11⟩ := C98_methods L n h s me hr r
  have ext : ∀ {h'}, Ext h h' → HmacSrc.IsHmac s me hr h' := fun x => by
    obtain ⟨kv, q⟩ := r
    exact ⟨kv, q.ext x⟩
  cases a with
  | update v =>
    cases e : bytesOf v h with
    | some d =>
      obtain ⟨h', f, -, q⟩ := p1 v d e
      simp only [Use.run]
      rw [f]
      exact ⟨trivial, _, q⟩
    | none =>
      simp only [Use.run]
      rw [p2 v e]
      exact ⟨⟨_, rfl⟩, s, r⟩
  | digest => exact ⟨answers_new p3, s, ext (newBytes_ext p3)⟩
  | hexdigest =>
    obtain ⟨h', f, x⟩ := p4
    simp only [Use.run]
    rw [f]
    exact ⟨trivial, s, ext x⟩
  | reset =>
    obtain ⟨h', f, -, q⟩ := p5
    simp only [Use.run]
    rw [f]
    exact ⟨trivial, _, q⟩
  | clear =>
    obtain ⟨h', f, -, q⟩ := p6
    simp only [Use.run]
    rw [f]
    exact ⟨trivial, _, q⟩
  | copy =>
    obtain ⟨h', me', hr', f, x, -⟩ := p8
    simp only [Use.run]
    rw [f]
    exact ⟨trivial, s, ext x⟩
  | digestSize => simp only [Use.run]; rw [p9]; exact ⟨trivial, s, r⟩
  | blockSize => simp only [Use.run]; rw [p10]; exact ⟨trivial, s, r⟩
  | name => simp only [Use.run]; rw [p11]; exact ⟨trivial, s, r⟩

/-- C116, `gosthmac`: the same with `GOSTHMACError`. -/
theorem C116_hmac (L n : Nat) (h : Heap) (nv kv : Val) (l : List (String × Val)) (hk : Known kv h) (k : KwKnown l h) :
    Answers (Only "GOSTHMACError") (call package L (n + 8) "Hmac.new" [nv, kv, .dict l] h) ∧
    ∀ o h', call package L (n + 8) "Hmac.new" [nv, kv, .dict l] h = ok o h' → ∀ us, (∀ u ∈ us, HmacUse u) →
      AllAnswer (Only "GOSTHMACError") (ctx L (n + 8)) o us h' := by
  obtain ⟨p, q⟩ := C98_new L n h l
  have bad : ∀ m, (∃ h', call package L (n + 8) "Hmac.new" [nv, kv, .dict l] h = fail (.raised "GOSTHMACError" m) h' ∧
      Ext h h') → Answers (Only "GOSTHMACError") (call package L (n + 8) "Hmac.new" [nv, kv, .dict l] h) ∧
    ∀ o h', call package L (n + 8) "Hmac.new" [nv, kv, .dict l] h = ok o h' → ∀ us, (∀ u ∈ us, HmacUse u) →
      AllAnswer (Only "GOSTHMACError") (ctx L (n + 8)) o us h' := by
    rintro m ⟨h', f, -⟩
    rw [f]
    exact ⟨⟨_, rfl⟩, fun o h' e => by cases e⟩
  by_cases hn : nv = .str "HMAC_GOSTR3411_2012_256" ∨ nv = .str "HMAC_GOSTR3411_2012_512"
  · obtain ⟨name, rfl, hn'⟩ : ∃ name, nv = .str name ∧ IsHmacName name := by
      rcases hn with hn | hn
      · exact ⟨_, hn, Or.inl rfl⟩
      · exact ⟨_, hn, Or.inr rfl⟩
    obtain ⟨q1, q2⟩ := q name hn'
    cases b : bytesOf kv h with
    | none => exact bad _ (q1 kv (Or.inl ⟨b, hk⟩))
    | some key =>
      by_cases hl : 64 < key.length
      · exact bad _ (q1 kv (Or.inr ⟨key, b, hl⟩))
      · obtain ⟨q3, q4⟩ := q2 kv key b (by omega)
        have good : ∀ d, HmacSrc.DataArg l h d →
            Answers (Only "GOSTHMACError") (call package L (n + 8) "Hmac.new" [.str name, kv, .dict l] h) ∧
            ∀ o h', call package L (n + 8) "Hmac.new" [.str name, kv, .dict l] h = ok o h' → ∀ us, (∀ u ∈ us, HmacUse u) →
              AllAnswer (Only "GOSTHMACError") (ctx L (n + 8)) o us h' := by
          intro d hd
          obtain ⟨h', r, hr, kv', f, -, -, -, -, a⟩ := q4 d hd
          rw [f]
          refine ⟨trivial, fun o h1 e => ?_⟩
          cases e
          exact hmac_uses L n ⟨_, a⟩
        cases e : findAttr "data" l with
        | none => exact good [] (Or.inl ⟨e, rfl⟩)
        | some v =>
          cases b' : bytesOf v h with
          | some d => exact good d (Or.inr ⟨v, e, b'⟩)
          | none => exact bad _ (q3 v e ⟨b', k _ _ e⟩)
  · exact bad _ (p nv kv (fun e => hn (Or.inl e)) (fun e => hn (Or.inr e)))

/-! ### PBKDF -/

/-- The uses of a key derivation object. -/
inductive PbkdfUse : Use → Prop where
  | derive (d : Int) : PbkdfUse (.meth "derive" [.int d])
  | hexderive (d : Int) : PbkdfUse (.meth "hexderive" [.int d])
  | clear : PbkdfUse (.meth "clear" [])
  | salt : PbkdfUse (.attr "salt")

theorem pbkdf_uses (L n : Nat) {s : Gost.Pbkdf} {me : Nat} {c : PbkdfSrc.Cells} {h : Heap} (r : PbkdfSrc.PbkdfAt s me c h)
    (us : List Use) (hu : ∀ u ∈ us, PbkdfUse u) :
    AllAnswer (Only "GOSTPBKDFError") (ctx L (n + 11)) (.ref me) us h := by
  refine allAnswer (fun h => ∃ s c, PbkdfSrc.PbkdfAt s me c h) ?_ us hu h ⟨s, c, r⟩
  rintro u a h ⟨s, c, r⟩
  obtain ⟨p1, p2, p3, p4, -⟩ := C99_methods L n h s me c r
  cases a with
  | derive d =>
    simp only [Use.run]
    by_cases hd : (2 ^ 32 - 1) * 64 < d
    · rw [(p1 d hd).1]
      exact ⟨⟨_, rfl⟩, s, c, r⟩
    · obtain ⟨h', w, nb, b, f, -, -, -, -, q⟩ := (p2 d (by omega)).1
      rw [f]
      exact ⟨trivial, _, _, q⟩
  | hexderive d =>
    simp only [Use.run]
    by_cases hd : (2 ^ 32 - 1) * 64 < d
    · rw [(p1 d hd).2]
      exact ⟨⟨_, rfl⟩, s, c, r⟩
    · obtain ⟨h', nb, t, f, -, -, q⟩ := (p2 d (by omega)).2
      rw [f]
      exact ⟨trivial, _, _, q⟩
  | clear =>
    obtain ⟨h', c', f, -, q, -⟩ := p3
    simp only [Use.run]
    rw [f]
    exact ⟨trivial, _, _, q⟩
  | salt => simp only [Use.run]; rw [p4]; exact ⟨trivial, s, c, r⟩

/-- C116, `gostpbkdf`: with an integer `counter` (or none) and a source which delivers 32 bytes if the salt is missing
or empty. The exception of the HMAC module is raised exactly for a password of more than 64 bytes (if the salt is a
byte string); otherwise the exceptions are those of the module. -/
theorem C116_pbkdf_partial (L n : Nat) (h : Heap) (pv : Val) (l : List (String × Val)) (hk : Known pv h) (k : KwKnown l h)
    (it : Int) (hi : CounterArg l it) (hr : ∃ b, b.length = 32 ∧ NextRandom b h) :
    (Answers (Only "GOSTPBKDFError") (call package L (n + 9) "Pbkdf.new" [pv, .dict l] h) ↔
      ¬ ∃ pw, bytesOf pv h = some pw ∧ 64 < pw.length ∧ ∀ v, findAttr "salt" l = some v → ∃ b, bytesOf v h = some b) ∧
    Answers (fun e => Only "GOSTPBKDFError" e ∨ Only "GOSTHMACError" e) (call package L (n + 9) "Pbkdf.new" [pv, .dict l] h) ∧
    ∀ o h', call package L (n + 9) "Pbkdf.new" [pv, .dict l] h = ok o h' → ∀ us, (∀ u ∈ us, PbkdfUse u) →
      AllAnswer (Only "GOSTPBKDFError") (ctx L (n + 11)) o us h' := by
  generalize ec : call package L (n + 9) "Pbkdf.new" [pv, .dict l] h = out
  have key : (∃ h' m, out = fail (.raised "GOSTPBKDFError" m) h' ∧
        ¬ ∃ pw, bytesOf pv h = some pw ∧ 64 < pw.length ∧ ∀ v, findAttr "salt" l = some v → ∃ b, bytesOf v h = some b) ∨
      (∃ h' m, out = fail (.raised "GOSTHMACError" m) h' ∧
        ∃ pw, bytesOf pv h = some pw ∧ 64 < pw.length ∧ ∀ v, findAttr "salt" l = some v → ∃ b, bytesOf v h = some b) ∨
      (∃ h' r c s, out = ok (.ref r) h' ∧ PbkdfAt s r c h' ∧
        ¬ ∃ pw, bytesOf pv h = some pw ∧ 64 < pw.length ∧ ∀ v, findAttr "salt" l = some v → ∃ b, bytesOf v h = some b) := by
    subst ec
    obtain ⟨p, q⟩ := C99_new L n h l
    cases b : bytesOf pv h with
    | none =>
      obtain ⟨h', f, -⟩ := p pv ⟨b, hk⟩
      exact Or.inl ⟨h', _, f, by simp⟩
    | some pw =>
      obtain ⟨q1, q2⟩ := q pv pw b
      obtain ⟨q3, q4⟩ := q2 it hi
      have no : pw.length ≤ 64 → ¬ ∃ pw', some pw = some pw' ∧ 64 < pw'.length ∧
          ∀ v, findAttr "salt" l = some v → ∃ b, bytesOf v h = some b := by
        rintro h1 ⟨pw', e, h2, -⟩
        cases e
        omega
      obtain ⟨rb, rl, rn⟩ := hr
      cases e : findAttr "salt" l with
      | none =>
        obtain ⟨s1, s2⟩ := q4 (Or.inl e) rb rl rn
        rw [← e]
        by_cases hl : 64 < pw.length
        · obtain ⟨h', f, -⟩ := s1 hl
          exact Or.inr (Or.inl ⟨h', _, f, pw, rfl, hl, by simp [e]⟩)
        · obtain ⟨h', r, c, f, -, -, -, -, a⟩ := s2 (by omega)
          exact Or.inr (Or.inr ⟨h', r, c, _, f, a, no (by omega)⟩)
      | some v =>
        rw [← e]
        cases b' : bytesOf v h with
        | none =>
          obtain ⟨h', f, -⟩ := q1 v e ⟨b', k _ _ e⟩
          refine Or.inl ⟨h', _, f, ?_⟩
          rintro ⟨pw', -, -, hs⟩
          obtain ⟨b, hb⟩ := hs v e
          rw [b'] at hb
          cases hb
        | some salt =>
          have hs : ∀ w, findAttr "salt" l = some w → ∃ b, bytesOf w h = some b := fun w hw => by
            rw [e] at hw
            cases hw
            exact ⟨_, b'⟩
          by_cases hz : salt = []
          · obtain ⟨s1, s2⟩ := q4 (Or.inr ⟨v, e, by rw [b', hz]⟩) rb rl rn
            by_cases hl : 64 < pw.length
            · obtain ⟨h', f, -⟩ := s1 hl
              exact Or.inr (Or.inl ⟨h', _, f, pw, rfl, hl, hs⟩)
            · obtain ⟨h', r, c, f, -, -, -, -, a⟩ := s2 (by omega)
              exact Or.inr (Or.inr ⟨h', r, c, _, f, a, no (by omega)⟩)
          · obtain ⟨s1, s2⟩ := q3 v salt e b' hz
            by_cases hl : 64 < pw.length
            · obtain ⟨h', f, -⟩ := s1 hl
              exact Or.inr (Or.inl ⟨h', _, f, pw, rfl, hl, hs⟩)
            · obtain ⟨h', r, c, f, -, -, -, -, a⟩ := s2 (by omega)
              exact Or.inr (Or.inr ⟨h', r, c, _, f, a, no (by omega)⟩)
  rcases key with ⟨h', m, rfl, no⟩ | ⟨h', m, rfl, yes⟩ | ⟨h', r, c, s, rfl, a, no⟩
  · exact ⟨⟨fun _ => no, fun _ => ⟨_, rfl⟩⟩, Or.inl ⟨_, rfl⟩, fun o h' e => by cases e⟩
  · refine ⟨⟨fun a => ?_, fun a => absurd yes a⟩, Or.inr ⟨_, rfl⟩, fun o h' e => by cases e⟩
    obtain ⟨m, e⟩ := a
    simp at e
  · refine ⟨⟨fun _ => no, fun _ => trivial⟩, trivial, fun o h1 e => ?_⟩
    cases e
    exact pbkdf_uses L n a

/-! ### Random -/

/-- The uses of a generator; `reset` with a value which existed before the object and is not an empty byte string
(with the empty one, or with none, `reset` reads the source of random bytes, see `C100_methods`). -/
inductive RandomUse (h : Heap) : Use → Prop where
  | random : RandomUse h (.meth "random" [])
  | reset (kv : Val) (k : ∀ r, kv = .ref r → r ≠ 0 ∧ r < h.length) (e : bytesOf kv h ≠ some []) : RandomUse h (.meth "reset" [kv])
  | clear : RandomUse h (.meth "clear" [])

/-- A value which existed before keeps its bytes. -/
theorem bytesOf_same {v : Val} {h h' : Heap} {W : List Nat} (k : Keeps W h h') (kn : ∀ r, v = .ref r → r ∉ W ∧ r < h.length) :
    bytesOf v h' = bytesOf v h := by
  cases v with
  | ref r =>
    obtain ⟨a, b⟩ := kn r rfl
    have := k.frame.2 r b a
    simp only [bytesOf, this]
  | _ => rfl

theorem random_uses (L n : Nat) {s : Rand} {me u hr : Nat} {h0 h : Heap} (hL : s.q.toNat < L) (hm : h0.length ≤ me)
    (hh : h0.length ≤ hr) (x : Keeps [0, me, hr] h0 h) (r : RandAt s me u hr h) (us : List Use) (hu : ∀ u ∈ us, RandomUse h0 u) :
    AllAnswer (Only "GOSTRandomError") (ctx L (n + 8)) (.ref me) us h := by
  refine allAnswer (fun h => ∃ s u, s.q.toNat < L ∧ Keeps [0, me, hr] h0 h ∧ RandAt s me u hr h) ?_ us hu h ⟨s, u, hL, x, r⟩
  rintro us a h ⟨s, u, hL, x, r⟩
  obtain ⟨p1, p2, p3, -, p5⟩ := C100_methods L n h s me u hr r
  have mono : ∀ {h'}, Keeps [me, hr] h h' → Keeps [0, me, hr] h0 h' := fun k => x.trans (k.mono (by simp))
  cases a with
  | random =>
    obtain ⟨a1, a2⟩ := p1 hL
    simp only [Use.run]
    cases e : s.random.2 with
    | ok b =>
      obtain ⟨h', w, u', f, k, -, -, q⟩ := a1 b e
      rw [f]
      exact ⟨trivial, _, u', by rw [random_q]; exact hL, mono k, q⟩
    | error e' =>
      obtain ⟨m, h', u', -, f, k, q⟩ := a2 e' e
      rw [f]
      exact ⟨⟨_, rfl⟩, _, u', by rw [random_q]; exact hL, mono k, q⟩
  | reset kv k e =>
    have kn : ∀ r, kv = .ref r → r < h.length := fun r hr => Nat.lt_of_lt_of_le (k r hr).2 x.length
    have hb : bytesOf kv h = bytesOf kv h0 := bytesOf_same x fun r e => ⟨by
      have := k r e
      simp
      omega, (k r e).2⟩
    rw [← hb] at e
    simp only [Use.run]
    have bad : Other kv h ∨ (∃ b, bytesOf kv h = some b ∧ b ≠ [] ∧ b.length ≠ s.sizeS) →
        Answers (Only "GOSTRandomError") (callMeth (ctx L (n + 8)) (.ref me) "reset" [kv] h) ∧
        ∃ s' u', s'.q.toNat < L ∧ Keeps [0, me, hr] h0 (callMeth (ctx L (n + 8)) (.ref me) "reset" [kv] h).2 ∧
          RandAt s' me u' hr (callMeth (ctx L (n + 8)) (.ref me) "reset" [kv] h).2 := by
      intro c
      obtain ⟨h', f, y, q⟩ := p2 kv c
      rw [f]
      exact ⟨⟨_, rfl⟩, s, u, hL, x.trans (y.keeps _), q⟩
    cases b : bytesOf kv h with
    | none => exact bad (Or.inl ⟨b, kn⟩)
    | some seed =>
      have hne : seed ≠ [] := fun e' => e (by rw [b, e'])
      by_cases hl : seed.length = s.sizeS
      · obtain ⟨h', u', f, k, q⟩ := p3 kv seed b hne hl
        rw [f]
        exact ⟨trivial, { s with randU := seedReg seed, hash := s.hash.reset }, u', hL, mono k, q⟩
      · exact bad (Or.inr ⟨seed, b, hne, hl⟩)
  | clear =>
    obtain ⟨h', u', f, k, q⟩ := p5
    simp only [Use.run]
    rw [f]
    exact ⟨trivial, s.clear, u', hL, mono (k.mono (by simp)), q⟩

/-- C116, `gostrandom`: a size of the output which is an integer, a seed of up to 64 bytes (an argument or read from
the source of random bytes). -/
theorem C116_random (L n : Nat) (h : Heap) (z : Int) (l : List (String × Val)) (k : KwKnown l h) (size : Nat)
    (hs : SizeArg l size) (h64 : size ≤ 64) (hr : ∃ b, b.length = size ∧ NextRandom b h) :
    Answers (Only "GOSTRandomError") (call package L (n + 8) "Random.new" [.int z, .dict l] h) ∧
    ∀ o h', call package L (n + 8) "Random.new" [.int z, .dict l] h = ok o h' → ∀ us, (∀ u ∈ us, RandomUse h u) →
      (z.fdiv 64).toNat < L → AllAnswer (Only "GOSTRandomError") (ctx L (n + 8)) o us h' := by
  obtain ⟨p, q⟩ := C100_new L n h l size hs
  generalize ec : call package L (n + 8) "Random.new" [.int z, .dict l] h = out at *
  have key : (∃ h' m, out = fail (.raised "GOSTRandomError" m) h') ∨
      ∃ h' r u hr seed, out = ok (.ref r) h' ∧ Keeps [0] h h' ∧ h.length ≤ r ∧ h.length ≤ hr ∧ RandAt (seeded seed z) r u hr h' := by
    subst ec
    obtain ⟨rb, rl, rn⟩ := hr
    have drawn := (q h64 z rb rl).2
    have bad := p (.int z)
    cases e : findAttr "rand_k" l with
    | none =>
      obtain ⟨h', r, u, hr, f, a⟩ := drawn (Or.inl e) rn
      exact Or.inr ⟨h', r, u, hr, rb, f, a⟩
    | some kv =>
      cases b : bytesOf kv h with
      | none =>
        obtain ⟨h', f, -⟩ := bad kv e (Or.inl ⟨b, k _ _ e⟩)
        exact Or.inl ⟨h', _, f⟩
      | some seed =>
        by_cases hz : seed = []
        · obtain ⟨h', r, u, hr, f, a⟩ := drawn (Or.inr ⟨kv, e, by rw [b, hz]⟩) rn
          exact Or.inr ⟨h', r, u, hr, rb, f, a⟩
        · by_cases hl : seed.length = size
          · obtain ⟨h', r, u, hr, f, x, a⟩ := (q h64 z seed hl).1 kv e b hz
            exact Or.inr ⟨h', r, u, hr, seed, f, x.keeps _, a⟩
          · obtain ⟨h', f, -⟩ := bad kv e (Or.inr ⟨seed, b, hz, hl⟩)
            exact Or.inl ⟨h', _, f⟩
  rcases key with ⟨h', m, rfl⟩ | ⟨h', r, u, hr, seed, rfl, x, hm, hh, a⟩
  · exact ⟨⟨_, rfl⟩, fun o h' e => by cases e⟩
  · refine ⟨trivial, fun o h1 e => ?_⟩
    cases e
    exact fun us hu hL => random_uses L n (s := seeded seed z) hL hm hh (x.mono (by simp)) a us hu

end Gost.Src
