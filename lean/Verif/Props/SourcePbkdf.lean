import Verif.SourceProofs.Pbkdf
import Verif.Props.SourceHmac
import Verif.Props.Pbkdf

/-! C99: the text of `r_50_1_111_2016.py` computes the functions of the model, and the keys of the
recommendations. -/

namespace Gost.Src

open Spec PbkdfSrc
open Streebog (Other)

/-- The object which the model makes. -/
def pbkdfInit (pw salt : Bytes) (it : Int) : Gost.Pbkdf :=
  ⟨pw, salt, it, 0, ⟨hmacKey pw, HashObj.hashInit "streebog512", 0⟩⟩

theorem initOf_eq (pw salt : Bytes) (it : Int) : PbkdfSrc.initOf pw salt it = pbkdfInit pw salt it := by
  unfold PbkdfSrc.initOf pbkdfInit HmacSrc.initOf
  rw [padKey_eq]
  rfl

/-- The iterations: the argument `counter`, or 1000. -/
def CounterArg (l : List (String × Val)) (it : Int) : Prop :=
  (findAttr "counter" l = none ∧ it = 1000) ∨ findAttr "counter" l = some (.int it)

theorem counterArg_val {l : List (String × Val)} {it : Int} (a : CounterArg l it) : counterVal l = .int it := by
  unfold counterVal
  rcases a with ⟨a, rfl⟩ | a <;> rw [a] <;> rfl

/-- C99, constructor: `gostpbkdf.new(password, **kwargs)` as it is written, for any values in any memory. A password
which is not a byte object is refused first, then a salt which is not one, then a password of more than 64 bytes
(with the exception of the HMAC module). Without a salt, or with an empty one, the salt is the next 32 bytes of
the source of random bytes, and this is the only thing which exists before and is changed. Without `counter`
there are 1000 iterations. -/
theorem C99_new (L n : Nat) (h : Heap) (l : List (String × Val)) :
    (∀ pv, Other pv h → ∃ h', call package L (n + 9) "Pbkdf.new" [pv, .dict l] h =
      fail (.raised "GOSTPBKDFError" "GOSTPBKDFError: invalid password value") h' ∧ Ext h h') ∧
    ∀ pv pw, bytesOf pv h = some pw →
      (∀ v, findAttr "salt" l = some v → Other v h → ∃ h', call package L (n + 9) "Pbkdf.new" [pv, .dict l] h =
        fail (.raised "GOSTPBKDFError" "GOSTPBKDFError: invalid salt value") h' ∧ Ext h h') ∧
      ∀ it, CounterArg l it →
        (∀ v salt, findAttr "salt" l = some v → bytesOf v h = some salt → salt ≠ [] →
          (64 < pw.length → ∃ h', call package L (n + 9) "Pbkdf.new" [pv, .dict l] h =
            fail (.raised "GOSTHMACError" "GOSTHMACError: invalid key value") h' ∧ Ext h h') ∧
          (pw.length ≤ 64 → ∃ h' r c, call package L (n + 9) "Pbkdf.new" [pv, .dict l] h = ok (.ref r) h' ∧
            Ext h h' ∧ h.length ≤ r ∧ h.length ≤ c.hmac ∧ h.length ≤ c.hash ∧
            PbkdfAt (pbkdfInit pw salt it) r c h')) ∧
        ((findAttr "salt" l = none ∨ ∃ v, findAttr "salt" l = some v ∧ bytesOf v h = some []) →
          ∀ salt, salt.length = 32 → NextRandom salt h →
          (64 < pw.length → ∃ h', call package L (n + 9) "Pbkdf.new" [pv, .dict l] h =
            fail (.raised "GOSTHMACError" "GOSTHMACError: invalid key value") h' ∧ Keeps [0] h h') ∧
          (pw.length ≤ 64 → ∃ h' r c, call package L (n + 9) "Pbkdf.new" [pv, .dict l] h = ok (.ref r) h' ∧
            Keeps [0] h h' ∧ h.length ≤ r ∧ h.length ≤ c.hmac ∧ h.length ≤ c.hash ∧
            PbkdfAt (pbkdfInit pw salt it) r c h')) := by
  refine ⟨fun pv ep => new_password L (n + 7) h ep l, fun pv pw ep => ⟨fun v hf es => new_badsalt L (n + 6) h ep l hf es,
    fun it hi => ⟨fun v salt hf es hne => ?_, fun hf salt hl hr => ?_⟩⟩⟩
  · obtain ⟨p1, p2⟩ := PbkdfSrc.new_ok L n h l ep (W := []) (salt := salt) (Or.inl ⟨by unfold saltVal; rw [hf]; exact es, hne, rfl⟩)
      (counterArg_val hi)
    constructor
    · intro h1
      obtain ⟨h', f, k⟩ := p2 h1
      exact ⟨h', f, k.ext⟩
    · intro h1
      obtain ⟨h', r, c, f, k, a⟩ := p1 h1
      rw [initOf_eq] at a
      exact ⟨h', r, c, f, k.ext, a⟩
  · obtain ⟨p1, p2⟩ := PbkdfSrc.new_ok L n h l ep (W := [0]) (salt := salt) (Or.inr ⟨by
      unfold saltVal
      rcases hf with hf | ⟨v, hf, e⟩
      · rw [hf]; rfl
      · rw [hf]; exact e, hr, hl, rfl⟩) (counterArg_val hi)
    refine ⟨p2, fun h1 => ?_⟩
    have := p1 h1
    rw [initOf_eq] at this
    exact this

/-- C99, what is left out: a call without `counter` (and one without `salt`) makes the object which `new` of the model
makes if the same arguments are left out there, so that the defaults of the text are those of the model. -/
theorem C99_defaults (L n : Nat) (h : Heap) (l : List (String × Val)) (hc : findAttr "counter" l = none)
    (pv : Val) (pw : Bytes) (ep : bytesOf pv h = some pw) (hpw : pw.length ≤ 64) :
    (∀ v salt, findAttr "salt" l = some v → bytesOf v h = some salt → salt ≠ [] → ∀ rand,
      ∃ s h' r c, Gost.Pbkdf.new rand (pyVal pv h) (some (pyVal v h)) = .ok s ∧
        call package L (n + 9) "Pbkdf.new" [pv, .dict l] h = ok (.ref r) h' ∧ Ext h h' ∧ PbkdfAt s r c h') ∧
    (findAttr "salt" l = none → ∀ rand, rand.length = 32 → NextRandom rand h →
      ∃ s h' r c, Gost.Pbkdf.new rand (pyVal pv h) = .ok s ∧
        call package L (n + 9) "Pbkdf.new" [pv, .dict l] h = ok (.ref r) h' ∧ Keeps [0] h h' ∧ PbkdfAt s r c h') := by
  have hp : (pyVal pv h).data? = some pw := by rw [pyVal_data, ep]
  have q := ((C99_new L n h l).2 pv pw ep).2 1000 (Or.inl ⟨hc, rfl⟩)
  refine ⟨fun v salt hf es hne rand => ?_, fun hf rand hl hr => ?_⟩
  · obtain ⟨h', r, c, f, x, -, -, -, a⟩ := (q.1 v salt hf es hne).2 hpw
    refine ⟨_, h', r, c, pbkdf_new_ok rand _ pw hp hpw _ salt ?_ _, f, x, a⟩
    simp [saltUsed, pyVal_data, es, hne]
  · obtain ⟨h', r, c, f, x, -, -, -, a⟩ := (q.2 (Or.inl hf) rand hl hr).2 hpw
    exact ⟨_, h', r, c, pbkdf_new_ok rand _ pw hp hpw none rand rfl _, f, x, a⟩

/-- C99, methods, on any object, whatever was done with it before. Only the object, its HMAC object and the hash
object of this one are changed, and only by `derive`, `hexderive` and `clear`; derived keys are new byte arrays.
The property `salt` is the byte array of the object itself. -/
theorem C99_methods (L n : Nat) (h : Heap) (s : Gost.Pbkdf) (me : Nat) (c : Cells) (r : PbkdfAt s me c h) :
    (∀ d : Int, (2 ^ 32 - 1) * 64 < d →
      callMeth (ctx L (n + 11)) (.ref me) "derive" [.int d] h =
        fail (.raised "GOSTPBKDFError" "GOSTPBKDFError: invalid size of the derived key") h ∧
      callMeth (ctx L (n + 11)) (.ref me) "hexderive" [.int d] h =
        fail (.raised "GOSTPBKDFError" "GOSTPBKDFError: invalid size of the derived key") h) ∧
    (∀ d : Int, d ≤ (2 ^ 32 - 1) * 64 →
      (∃ h' w nb b, callMeth (ctx L (n + 11)) (.ref me) "derive" [.int d] h = ok (.ref w) h' ∧
        Keeps [me, c.hmac, c.hash] h h' ∧ h.length ≤ w ∧ (s.derive d).2 = .ok b ∧ bytesOf (.ref w) h' = some b ∧
        PbkdfAt (s.derive d).1 me { c with blocks := nb } h') ∧
      (∃ h' nb t, callMeth (ctx L (n + 11)) (.ref me) "hexderive" [.int d] h = ok (.str (String.ofList t)) h' ∧
        Keeps [me, c.hmac, c.hash] h h' ∧ (s.hexderive d).2 = .ok t ∧
        PbkdfAt (s.hexderive d).1 me { c with blocks := nb } h')) ∧
    (∃ h' c', callMeth (ctx L (n + 11)) (.ref me) "clear" [] h = ok .none h' ∧ Keeps [me] h h' ∧
      PbkdfAt s.clear me c' h' ∧ c'.hmac = c.hmac ∧ c'.hash = c.hash) ∧
    getAttr (ctx L (n + 11)) (.ref me) "salt" h = ok (.ref c.salt) h ∧ bytesOf (.ref c.salt) h = some s.saltProp := by
  refine ⟨fun d hd => ⟨?_, ?_⟩, fun d hd => ⟨?_, ?_⟩, ?_, ?_, r.salt⟩
  · py [r.obj]
    exact derive_large L (n + 10) me h d hd
  · py [r.obj]
    exact hexderive_large L (n + 10) me h d hd
  · obtain ⟨h', w, f, k, hw, b, q⟩ := derive_ok L n r d hd
    refine ⟨h', w, numBlocks d, pyUpto (s.calculate d).2 d, by py [r.obj]; exact f, k, hw, ?_, b, ?_⟩
    · unfold Gost.Pbkdf.derive; rw [if_neg (by omega)]
    · unfold Gost.Pbkdf.derive; rw [if_neg (by omega)]; exact q
  · obtain ⟨h', f, k, q⟩ := hexderive_ok L n r d hd
    refine ⟨h', numBlocks d, _, by py [r.obj]; exact f, k, ?_, ?_⟩
    · unfold Gost.Pbkdf.hexderive Gost.Pbkdf.derive; rw [if_neg (by omega)]
    · unfold Gost.Pbkdf.hexderive Gost.Pbkdf.derive; rw [if_neg (by omega)]; exact q
  · py [r.obj]
    exact PbkdfSrc.clear_ok L (n + 9) r
  · py [r.obj, Cells.attrs]
    exact salt_ok L (n + 10) r

/-- `o.derive(d)` for all `d` in turn. -/
def derivesOf (C : Ctx) (o : Val) : List Nat → Heap → Out Val
  | [], h => ok .none h
  | d :: ds, h => andThen (callMeth C o "derive" [.int d] h) fun _ h => derivesOf C o ds h

/-- `o = gostpbkdf.new(password, salt=salt, counter=c)`, the derivations `ds`, then `o.derive(d)`. -/
def pbkdfMany (C : Ctx) (password salt : Val) (c : Nat) (ds : List Nat) (d : Nat) (h : Heap) : Out Val :=
  andThen (C.call "Pbkdf.new" [password, .dict [("salt", salt), ("counter", .int c)]] h) fun o h =>
    andThen (derivesOf C o ds h) fun _ h => callMeth C o "derive" [.int d] h

theorem derive_std (L n : Nat) {h : Heap} {s : Gost.Pbkdf} {me : Nat} {c : Cells} (r : PbkdfAt s me c h) {pw salt : Bytes}
    {it : Nat} (i : Gost.Pbkdf.Inv pw salt it s) (hpw : pw.length ≤ 64) (d : Nat) (hd : d ≤ (2 ^ 32 - 1) * 64) :
    ∃ h' w nb, callMeth (ctx L (n + 11)) (.ref me) "derive" [.int d] h = ok (.ref w) h' ∧
      Keeps [me, c.hmac, c.hash] h h' ∧ h.length ≤ w ∧ bytesOf (.ref w) h' = some (pbkdf2 (hmac512 pw) salt it d) ∧
      PbkdfAt (s.derive d).1 me { c with blocks := nb } h' ∧ Gost.Pbkdf.Inv pw salt it (s.derive d).1 := by
  obtain ⟨h', w, nb, b, f, k, hw, e, hb, q⟩ := ((C99_methods L n h s me c r).2.1 d (by omega)).1
  obtain ⟨e1, e2⟩ := Gost.Pbkdf.derive_ok i hpw d hd
  rw [e1] at e
  cases e
  exact ⟨h', w, nb, f, k, hw, hb, q, e2⟩

theorem derives_std (L n : Nat) (h0 : Heap) {pw salt : Bytes} {it : Nat} (hpw : pw.length ≤ 64) (me hm hr : Nat)
    (ds : List Nat) (hd : ∀ d ∈ ds, d ≤ (2 ^ 32 - 1) * 64) :
    ∀ (h : Heap) (s : Gost.Pbkdf) (c : Cells), c.hmac = hm → c.hash = hr → Keeps [me, hm, hr] h0 h → PbkdfAt s me c h →
    Gost.Pbkdf.Inv pw salt it s →
    ∃ h' s' c', derivesOf (ctx L (n + 11)) (.ref me) ds h = ok .none h' ∧ Keeps [me, hm, hr] h0 h' ∧
      PbkdfAt s' me c' h' ∧ Gost.Pbkdf.Inv pw salt it s' ∧ c'.hmac = hm ∧ c'.hash = hr := by
  induction ds with
  | nil => exact fun h s c c1 c2 k r i => ⟨h, s, c, rfl, k, r, i, c1, c2⟩
  | cons d ds ih =>
    intro h s c c1 c2 k r i
    subst c1 c2
    obtain ⟨h1, w, nb, f, k1, -, -, r1, i1⟩ := derive_std L n r i hpw d (hd d (by simp))
    obtain ⟨h2, s2, c2, f2, k2, r2, i2⟩ := ih (fun q hq => hd q (by simp [hq])) h1 _ { c with blocks := nb } rfl rfl (k.trans k1) r1 i1
    refine ⟨h2, s2, c2, ?_, k2, r2, i2⟩
    simp only [derivesOf]
    rw [f, andThen_ok, f2]

/-- C99, recommendations: for every password of at most 64 bytes, every non-empty salt, every number of iterations
and every length the key derived as it is written is PBKDF2 over HMAC_GOSTR3411_2012_512, also after any number of
other derivations with the same object. -/
theorem C99_standard (L n : Nat) (h : Heap) (pv sv : Val) (pw salt : Bytes) (ep : bytesOf pv h = some pw)
    (hpw : pw.length ≤ 64) (es : bytesOf sv h = some salt) (hne : salt ≠ []) (c : Nat) (ds : List Nat)
    (hds : ∀ d ∈ ds, d ≤ (2 ^ 32 - 1) * 64) (d : Nat) (hd : d ≤ (2 ^ 32 - 1) * 64) :
    NewBytes (pbkdfMany (ctx L (n + 11)) pv sv c ds d h) h (pbkdf2 (hmac512 pw) salt c d) := by
  obtain ⟨h1, r, cc, f, x, h2, h3, h4, q⟩ := (((((C99_new L (n + 2) h [("salt", sv), ("counter", .int c)]).2 pv pw ep).2
    c (Or.inr rfl)).1 sv salt rfl es hne).2 hpw)
  have hi : Gost.Pbkdf.Inv pw salt c (pbkdfInit pw salt c) :=
    ⟨rfl, by show ((c : Int) - 1).toNat = c - 1; omega, rfl, rfl⟩
  obtain ⟨H2, s2, c2, f2, k2, r2, i2, e1, e2⟩ := derives_std L n h hpw r cc.hmac cc.hash ds hds h1 _ cc rfl rfl (x.keeps _) q hi
  obtain ⟨H3, w, nb, f3, k3, hw, b, -⟩ := derive_std L n r2 i2 hpw d hd
  rw [e1, e2] at k3
  have k := k2.trans k3
  unfold pbkdfMany
  rw [show (ctx L (n + 11)).call = call package L (n + 2 + 9) from rfl, f, andThen_ok, f2, andThen_ok, f3]
  exact .intro (k.mono (by simp; omega)).ext (Nat.le_trans k2.length hw) b

/-! Values which meet the hypotheses. -/

example : bytesOf (.ref 0) [.bytearray [0x70, 0x77]] = some [0x70, 0x77] ∧ ([0x70, 0x77] : Bytes).length ≤ 64 ∧
    bytesOf (.bytes [1]) [.bytearray [0x70, 0x77]] = some [1] ∧ ([1] : Bytes) ≠ [] ∧
    ∀ d ∈ [10, 64, 100], d ≤ (2 ^ 32 - 1) * 64 := ⟨rfl, by simp, rfl, by simp, by decide⟩

/-- A password without a salt: the random bytes are used. -/
example : ∃ h' r c, call package 0 (0 + 9) "Pbkdf.new" [.bytes [1, 2], .dict []]
      [.list [.bytes (List.replicate 32 5), .bytes [6]]] = ok (.ref r) h' ∧
    PbkdfAt (pbkdfInit [1, 2] (List.replicate 32 5) 1000) r c h' := by
  obtain ⟨h', r, c, f, -, -, -, -, q⟩ := (((((C99_new 0 0 [.list [.bytes (List.replicate 32 5), .bytes [6]]] []).2
    (.bytes [1, 2]) [1, 2] rfl).2 1000 (Or.inl ⟨rfl, rfl⟩)).2 (Or.inl rfl) (List.replicate 32 5) (by simp) ⟨_, rfl⟩).2
    (by simp))
  exact ⟨h', r, c, f, q⟩

/-- The defaults: the model without a salt and a counter, and the text. -/
example : ∃ s h' r c, Gost.Pbkdf.new (List.replicate 32 5) (.bytes [1, 2]) = .ok s ∧
    call package 0 (0 + 9) "Pbkdf.new" [.bytes [1, 2], .dict []]
      [.list [.bytes (List.replicate 32 5), .bytes [6]]] = ok (.ref r) h' ∧ PbkdfAt s r c h' := by
  obtain ⟨s, h', r, c, m, f, -, q⟩ := (C99_defaults 0 0 [.list [.bytes (List.replicate 32 5), .bytes [6]]] [] rfl
    (.bytes [1, 2]) [1, 2] rfl (by simp)).2 rfl (List.replicate 32 5) (by simp) ⟨_, rfl⟩
  exact ⟨s, h', r, c, m, f, q⟩

end Gost.Src
