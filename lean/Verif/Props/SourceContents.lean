import Verif.Props.SourceExceptions

/-! C117: what the caller sees of the package depends only on the contents of the arguments. -/

namespace Gost.Src

open Spec ModesSrc Streebog PbkdfSrc RandomSrc HmacSrc

/-- What the caller sees of the outcome of a call: an exception, the bytes of a byte string or byte array, any other
value which is not an object, or that it is an object. -/
inductive Obs where
  | exc (e : Exc)
  | bytes (b : Bytes)
  | val (v : Val)
  | obj

/-- What the caller sees of a value. -/
def obsVal (v : Val) (h : Heap) : Obs :=
  match bytesOf v h, v with
  | some b, _ => .bytes b
  | none, .ref _ => .obj
  | none, v => .val v

def obs : Out Val → Obs
  | (.error e, _) => .exc e
  | (.ok v, h) => obsVal v h

/-- What the caller sees of a sequence of uses of the object `o`; exceptions are caught. -/
def seenAll (C : Ctx) (o : Val) : List Use → Heap → List Obs
  | [], _ => []
  | u :: us, h => obs (u.run C o h) :: seenAll C o us (u.run C o h).2

/-- `o = f(args)` and the uses of `o`. -/
def programRun (C : Ctx) (f : String) (args : List Val) (us : List Use) (h : Heap) : Obs × List Obs :=
  match C.call f args h with
  | (.ok o, h') => (obsVal o h', seenAll C o us h')
  | (.error e, _) => (.exc e, [])

theorem program_fail {C : Ctx} {f : String} {args : List Val} {us : List Use} {h h' : Heap} {e : Exc}
    (x : C.call f args h = fail e h') : programRun C f args us h = (.exc e, []) := by
  unfold programRun
  rw [x]
  rfl

theorem obs_new {o : Out Val} {h : Heap} {b : Bytes} (e : NewBytes o h b) : obs o = .bytes b := by
  obtain ⟨r, l, rfl, -, hb⟩ := e.elim
  simp only [obs, ok, obsVal, hb]

theorem obsVal_bytes {v : Val} {h : Heap} {b : Bytes} (e : bytesOf v h = some b) : obsVal v h = .bytes b := by
  simp only [obsVal, e]

/-- The keyword `k` has the same contents (bytes, something else, or missing) in both calls. -/
def KwSame (k : String) (l : List (String × Val)) (h : Heap) (l' : List (String × Val)) (h' : Heap) : Prop :=
  (findAttr k l).map (bytesOf · h) = (findAttr k l').map (bytesOf · h')

/-! ### Hash -/

/-- A use of a hash object; `α` is the type of the arguments. -/
inductive HashCall (α : Type) where
  | update (a : α)
  | digest
  | hexdigest
  | reset
  | hashFinal
  | getHash
  | copy
  | digestSize
  | blockSize
  | name

/-- The use as it is written. -/
def HashCall.use : HashCall Val → Use
  | .update v => .meth "update" [v]
  | .digest => .meth "digest" []
  | .hexdigest => .meth "hexdigest" []
  | .reset => .meth "reset" []
  | .hashFinal => .meth "hash_final" []
  | .getHash => .meth "get_hash" []
  | .copy => .meth "copy" []
  | .digestSize => .attr "digest_size"
  | .blockSize => .attr "block_size"
  | .name => .attr "name"

/-- The contents of the argument. -/
def HashCall.contents (h : Heap) : HashCall Val → HashCall (Option Bytes)
  | .update v => .update (bytesOf v h)
  | .digest => .digest
  | .hexdigest => .hexdigest
  | .reset => .reset
  | .hashFinal => .hashFinal
  | .getHash => .getHash
  | .copy => .copy
  | .digestSize => .digestSize
  | .blockSize => .blockSize
  | .name => .name

/-- The argument exists. -/
def HashCall.Known (h : Heap) : HashCall Val → Prop
  | .update v => ModesSrc.Known v h
  | _ => True

/-- The next state of the model and what is seen. -/
def HashCall.act (s : HashObj) : HashCall (Option Bytes) → HashObj × Obs
  | .update (some d) => (s.updateBytes d, .val .none)
  | .update none => (s, .exc (.raised "GOSTHashError" "GOSTHashError: invalid data value"))
  | .digest => (s, .bytes s.digest)
  | .hexdigest => (s, .val (.str (String.ofList s.hexdigest)))
  | .reset => (s.reset, .val .none)
  | .hashFinal => (s.hashFinal, .val .none)
  | .getHash => (s, .bytes s.getHash)
  | .copy => (s, .obj)
  | .digestSize => (s, .val (.int s.digestSize))
  | .blockSize => (s, .val (.int s.blockSize))
  | .name => (s, .val (.str s.name))

theorem bytesOf_hash {s : HashObj} {me : Nat} {h : Heap} (r : IsHash s me h) : bytesOf (.ref me) h = none := by
  obtain ⟨o, c, r, ho⟩ := r
  simp [bytesOf, r.obj]

theorem hash_act (L n : Nat) {s : HashObj} {me : Nat} {h : Heap} (r : IsHash s me h) (c : HashCall Val) :
    obs (c.use.run (ctx L (n + 7)) (.ref me) h) = ((c.contents h).act s).2 ∧
    IsHash ((c.contents h).act s).1 me (c.use.run (ctx L (n + 7)) (.ref me) h).2 ∧
    Keeps [me] h (c.use.run (ctx L (n + 7)) (.ref me) h).2 := by
  obtain ⟨p1, p2, p3, p4, p5, p6, p7, p8, p9, p10, p11⟩ := C97_methods L n h s me r
  cases c with
  | update v =>
    simp only [HashCall.use, HashCall.contents, Use.run]
    cases e : bytesOf v h with
    | some d =>
      obtain ⟨h', f, k, q⟩ := p1 v d e
      rw [f]
      exact ⟨rfl, q, k⟩
    | none =>
      rw [p2 v e]
      exact ⟨rfl, r, Keeps.refl _ _⟩
  | digest => exact ⟨obs_new p3, r.ext (newBytes_ext p3), (newBytes_ext p3).keeps _⟩
  | hexdigest =>
    obtain ⟨h', f, x⟩ := p4
    simp only [HashCall.use, Use.run]
    rw [f]
    exact ⟨rfl, r.ext x, x.keeps _⟩
  | reset =>
    obtain ⟨h', f, k, q⟩ := p5
    simp only [HashCall.use, Use.run]
    rw [f]
    exact ⟨rfl, q, k⟩
  | hashFinal =>
    obtain ⟨h', f, k, q⟩ := p6
    simp only [HashCall.use, Use.run]
    rw [f]
    exact ⟨rfl, q, k⟩
  | getHash => exact ⟨obs_new p7, r.ext (newBytes_ext p7), (newBytes_ext p7).keeps _⟩
  | copy =>
    obtain ⟨me', h', f, x, -, q⟩ := p8
    simp only [HashCall.use, Use.run]
    rw [f]
    refine ⟨?_, r.ext x, x.keeps _⟩
    simp only [ok, obs, obsVal, bytesOf_hash q]
    rfl
  | digestSize => simp only [HashCall.use, Use.run]; rw [p9]; exact ⟨rfl, r, Keeps.refl _ _⟩
  | blockSize => simp only [HashCall.use, Use.run]; rw [p10]; exact ⟨rfl, r, Keeps.refl _ _⟩
  | name => simp only [HashCall.use, Use.run]; rw [p11]; exact ⟨rfl, r, Keeps.refl _ _⟩

/-- What is seen of the calls, by the contents of the arguments. -/
def hashSeen (s : HashObj) : List (HashCall (Option Bytes)) → List Obs
  | [] => []
  | c :: cs => (c.act s).2 :: hashSeen (c.act s).1 cs

theorem hash_seen (L n : Nat) {me : Nat} {h0 : Heap} (hm : h0.length ≤ me) (cs : List (HashCall Val))
    (hx : ∀ c ∈ cs, c.Known h0) {s : HashObj} {h : Heap} (k : Keeps [me] h0 h) (r : IsHash s me h) :
    seenAll (ctx L (n + 7)) (.ref me) (cs.map (·.use)) h = hashSeen s (cs.map (·.contents h0)) := by
  induction cs generalizing s h with
  | nil => rfl
  | cons c cs ih =>
    obtain ⟨e1, e2, e3⟩ := hash_act L n r c
    have hc : c.contents h = c.contents h0 := by
      have := hx c (by simp)
      cases c with
      | update v =>
        simp only [HashCall.contents]
        rw [bytesOf_same k fun r hr => ⟨by have := this r hr; simp; omega, this r hr⟩]
      | _ => rfl
    rw [hc] at e1 e2
    simp only [List.map_cons, seenAll, hashSeen]
    rw [e1, ih (fun c hc => hx c (by simp [hc])) (k.trans e3) e2]

/-- What is seen of `gosthash.new(name, data=…)` and the calls, by the contents. -/
def hashProgram (name : String) (data : Option (Option Bytes)) (cs : List (HashCall (Option Bytes))) : Obs × List Obs :=
  match data with
  | none => (.obj, hashSeen (HashObj.hashInit name) cs)
  | some (some d) => (.obj, hashSeen ((HashObj.hashInit name).updateBytes d) cs)
  | some none => (.exc (.raised "GOSTHashError" "GOSTHashError: invalid data value"), [])

theorem hash_program (L n : Nat) (h : Heap) (name : String) (hn : name = "streebog512" ∨ name = "streebog256")
    (l : List (String × Val)) (k : KwKnown l h) (cs : List (HashCall Val)) (hx : ∀ c ∈ cs, c.Known h) :
    programRun (ctx L (n + 7)) "Hash.new" [.str name, .dict l] (cs.map (·.use)) h =
      hashProgram name ((findAttr "data" l).map (bytesOf · h)) (cs.map (·.contents h)) := by
  obtain ⟨p1, p2, p3⟩ := (C97_new L n h l).2 name hn
  have fin : ∀ {s : HashObj}, (∃ h' r, call package L (n + 7) "Hash.new" [.str name, .dict l] h = ok (.ref r) h' ∧ Ext h h' ∧
      h.length ≤ r ∧ IsHash s r h') → programRun (ctx L (n + 7)) "Hash.new" [.str name, .dict l] (cs.map (·.use)) h =
      (.obj, hashSeen s (cs.map (·.contents h))) := by
    rintro s ⟨h', r, f, x, hr, q⟩
    unfold programRun
    rw [ctx_call, f]
    simp only [ok]
    rw [hash_seen L n hr cs hx (x.keeps _) q]
    simp only [obsVal, bytesOf_hash q]
  cases e : findAttr "data" l with
  | none => exact fin (p1 e)
  | some v =>
    cases b : bytesOf v h with
    | some d =>
      simp only [Option.map_some, b]
      exact fin (p2 v d e b)
    | none =>
      obtain ⟨h', f, -⟩ := p3 v e ⟨b, k _ _ e⟩
      simp only [Option.map_some, b]
      unfold programRun
      rw [ctx_call, f]
      rfl

/-- C117, `gosthash`: two programs whose arguments have the same contents see the same, whatever else is in the
memory and among the keyword arguments. -/
theorem C117_hash (L n : Nat) (h h' : Heap) (nv : Val) (l l' : List (String × Val)) (k : KwKnown l h) (k' : KwKnown l' h')
    (hd : KwSame "data" l h l' h') (cs cs' : List (HashCall Val)) (hx : ∀ c ∈ cs, c.Known h) (hx' : ∀ c ∈ cs', c.Known h')
    (hc : cs.map (·.contents h) = cs'.map (·.contents h')) :
    programRun (ctx L (n + 7)) "Hash.new" [nv, .dict l] (cs.map (·.use)) h =
      programRun (ctx L (n + 7)) "Hash.new" [nv, .dict l'] (cs'.map (·.use)) h' := by
  by_cases hn : ∃ name, nv = .str name ∧ (name = "streebog512" ∨ name = "streebog256")
  · obtain ⟨name, rfl, hn⟩ := hn
    rw [hash_program L n h name hn l k cs hx, hash_program L n h' name hn l' k' cs' hx', hc, hd]
  · have h1 : nv ≠ .str "streebog512" := fun e => hn ⟨_, e, Or.inl rfl⟩
    have h2 : nv ≠ .str "streebog256" := fun e => hn ⟨_, e, Or.inr rfl⟩
    rw [program_fail ((C97_new L n h l).1 nv h1 h2), program_fail ((C97_new L n h' l').1 nv h1 h2)]

/-! ### HMAC -/

/-- A use of an HMAC object. -/
inductive HmacCall (α : Type) where
  | update (a : α)
  | digest
  | hexdigest
  | reset
  | clear
  | copy
  | digestSize
  | blockSize
  | name

/-- The use as it is written. -/
def HmacCall.use : HmacCall Val → Use
  | .update v => .meth "update" [v]
  | .digest => .meth "digest" []
  | .hexdigest => .meth "hexdigest" []
  | .reset => .meth "reset" []
  | .clear => .meth "clear" []
  | .copy => .meth "copy" []
  | .digestSize => .attr "digest_size"
  | .blockSize => .attr "block_size"
  | .name => .attr "name"

/-- The contents of the argument. -/
def HmacCall.contents (h : Heap) : HmacCall Val → HmacCall (Option Bytes)
  | .update v => .update (bytesOf v h)
  | .digest => .digest
  | .hexdigest => .hexdigest
  | .reset => .reset
  | .clear => .clear
  | .copy => .copy
  | .digestSize => .digestSize
  | .blockSize => .blockSize
  | .name => .name

/-- The argument exists. -/
def HmacCall.Known (h : Heap) : HmacCall Val → Prop
  | .update v => ModesSrc.Known v h
  | _ => True

/-- The next state of the model and what is seen. -/
def HmacCall.act (s : Gost.Hmac) : HmacCall (Option Bytes) → Gost.Hmac × Obs
  | .update (some d) => (s.updateBytes d, .val .none)
  | .update none => (s, .exc (.raised "GOSTHMACError" "GOSTHMACError: invalid data value"))
  | .digest => (s, .bytes s.digest)
  | .hexdigest => (s, .val (.str (String.ofList s.hexdigest)))
  | .reset => (s.reset, .val .none)
  | .clear => (s.clear, .val .none)
  | .copy => (s, .obj)
  | .digestSize => (s, .val (.int s.digestSize))
  | .blockSize => (s, .val (.int s.blockSize))
  | .name => (s, .val (.str s.nameProp))

theorem bytesOf_hmac {s : Gost.Hmac} {me hr : Nat} {h : Heap} (r : IsHmac s me hr h) : bytesOf (.ref me) h = none := by
  obtain ⟨kv, q⟩ := r
  obtain ⟨o, o0, -⟩ := q
  simp [bytesOf, o0]

theorem hmac_act (L n : Nat) {s : Gost.Hmac} {me hr : Nat} {h : Heap} (r : IsHmac s me hr h) (c : HmacCall Val) :
    obs (c.use.run (ctx L (n + 8)) (.ref me) h) = ((c.contents h).act s).2 ∧
    IsHmac ((c.contents h).act s).1 me hr (c.use.run (ctx L (n + 8)) (.ref me) h).2 ∧
    Keeps [me, hr] h (c.use.run (ctx L (n + 8)) (.ref me) h).2 := by
  obtain ⟨p1, p2, p3, p4, p5, p6, p8, p9, p10, p11⟩ := C98_methods L n h s me hr r
  have ext : ∀ {h'}, Ext h h' → IsHmac s me hr h' := fun x => by
    obtain ⟨kv, q⟩ := r
    exact ⟨kv, q.ext x⟩
  cases c with
  | update v =>
    simp only [HmacCall.use, HmacCall.contents, Use.run]
    cases e : bytesOf v h with
    | some d =>
      obtain ⟨h', f, k, q⟩ := p1 v d e
      rw [f]
      exact ⟨rfl, q, k⟩
    | none =>
      rw [p2 v e]
      exact ⟨rfl, r, Keeps.refl _ _⟩
  | digest => exact ⟨obs_new p3, ext (newBytes_ext p3), (newBytes_ext p3).keeps _⟩
  | hexdigest =>
    obtain ⟨h', f, x⟩ := p4
    simp only [HmacCall.use, Use.run]
    rw [f]
    exact ⟨rfl, ext x, x.keeps _⟩
  | reset =>
    obtain ⟨h', f, k, q⟩ := p5
    simp only [HmacCall.use, Use.run]
    rw [f]
    exact ⟨rfl, q, k⟩
  | clear =>
    obtain ⟨h', f, k, q⟩ := p6
    simp only [HmacCall.use, Use.run]
    rw [f]
    exact ⟨rfl, q, k⟩
  | copy =>
    obtain ⟨h', me', hr', f, x, -, -, q⟩ := p8
    simp only [HmacCall.use, Use.run]
    rw [f]
    refine ⟨?_, ext x, x.keeps _⟩
    simp only [ok, obs, obsVal, bytesOf_hmac q]
    rfl
  | digestSize => simp only [HmacCall.use, Use.run]; rw [p9]; exact ⟨rfl, r, Keeps.refl _ _⟩
  | blockSize => simp only [HmacCall.use, Use.run]; rw [p10]; exact ⟨rfl, r, Keeps.refl _ _⟩
  | name => simp only [HmacCall.use, Use.run]; rw [p11]; exact ⟨rfl, r, Keeps.refl _ _⟩

/-- What is seen of the calls, by the contents of the arguments. -/
def hmacSeen (s : Gost.Hmac) : List (HmacCall (Option Bytes)) → List Obs
  | [] => []
  | c :: cs => (c.act s).2 :: hmacSeen (c.act s).1 cs

theorem hmac_seen (L n : Nat) {me hr : Nat} {h0 : Heap} (hm : h0.length ≤ me) (hh : h0.length ≤ hr) (cs : List (HmacCall Val))
    (hx : ∀ c ∈ cs, c.Known h0) {s : Gost.Hmac} {h : Heap} (k : Keeps [me, hr] h0 h) (r : IsHmac s me hr h) :
    seenAll (ctx L (n + 8)) (.ref me) (cs.map (·.use)) h = hmacSeen s (cs.map (·.contents h0)) := by
  induction cs generalizing s h with
  | nil => rfl
  | cons c cs ih =>
    obtain ⟨e1, e2, e3⟩ := hmac_act L n r c
    have hc : c.contents h = c.contents h0 := by
      have := hx c (by simp)
      cases c with
      | update v =>
        simp only [HmacCall.contents]
        rw [bytesOf_same k fun r hr => ⟨by have := this r hr; simp; omega, this r hr⟩]
      | _ => rfl
    rw [hc] at e1 e2
    simp only [List.map_cons, seenAll, hmacSeen]
    rw [e1, ih (fun c hc => hx c (by simp [hc])) (k.trans e3) e2]

/-- The object of `gosthmac.new` before the first update. -/
def hmacStart (name : String) (key : Bytes) : Gost.Hmac := ⟨hmacKey key, HashObj.hashInit (hmacHash name), 0⟩

/-- What is seen of `gosthmac.new(name, key, data=…)` and the calls, by the contents. -/
def hmacProgram (name : String) (key : Option Bytes) (data : Option (Option Bytes)) (cs : List (HmacCall (Option Bytes))) :
    Obs × List Obs :=
  match key, data with
  | none, _ => (.exc (.raised "GOSTHMACError" "GOSTHMACError: invalid key value"), [])
  | some key, data =>
    if 64 < key.length then (.exc (.raised "GOSTHMACError" "GOSTHMACError: invalid key value"), []) else
    match data with
    | some none => (.exc (.raised "GOSTHMACError" "GOSTHMACError: invalid data value"), [])
    | none => (.obj, hmacSeen (hmacStart name key) cs)
    | some (some []) => (.obj, hmacSeen (hmacStart name key) cs)
    | some (some d) => (.obj, hmacSeen ((hmacStart name key).updateBytes d) cs)

theorem hmac_program (L n : Nat) (h : Heap) (name : String) (hn : IsHmacName name) (kv : Val) (hk : Known kv h)
    (l : List (String × Val)) (k : KwKnown l h) (cs : List (HmacCall Val)) (hx : ∀ c ∈ cs, c.Known h) :
    programRun (ctx L (n + 8)) "Hmac.new" [.str name, kv, .dict l] (cs.map (·.use)) h =
      hmacProgram name (bytesOf kv h) ((findAttr "data" l).map (bytesOf · h)) (cs.map (·.contents h)) := by
  obtain ⟨p1, p2⟩ := (C98_new L n h l).2 name hn
  cases ek : bytesOf kv h with
  | none =>
    obtain ⟨h', f, -⟩ := p1 kv (Or.inl ⟨ek, hk⟩)
    exact program_fail f
  | some key =>
    by_cases hl : 64 < key.length
    · obtain ⟨h', f, -⟩ := p1 kv (Or.inr ⟨key, ek, hl⟩)
      unfold hmacProgram
      simp only [if_pos hl]
      exact program_fail f
    · obtain ⟨q1, q2⟩ := p2 kv key ek (by omega)
      have fin : ∀ d, DataArg l h d → programRun (ctx L (n + 8)) "Hmac.new" [.str name, kv, .dict l] (cs.map (·.use)) h =
          (.obj, hmacSeen (if d = [] then hmacStart name key else (hmacStart name key).updateBytes d) (cs.map (·.contents h))) := by
        intro d hd
        obtain ⟨h', r, hr, kv', f, x, x1, x2, -, q⟩ := q2 d hd
        unfold programRun
        rw [ctx_call, f]
        simp only [ok]
        rw [hmac_seen L n x1 x2 cs hx (x.keeps _) ⟨_, q⟩]
        simp only [obsVal, bytesOf_hmac ⟨_, q⟩]
        rfl
      unfold hmacProgram
      simp only [if_neg hl]
      cases e : findAttr "data" l with
      | none => exact (fin [] (Or.inl ⟨e, rfl⟩)).trans (by rw [if_pos rfl]; rfl)
      | some v =>
        simp only [Option.map_some]
        cases b : bytesOf v h with
        | none =>
          obtain ⟨h', f, -⟩ := q1 v e ⟨b, k _ _ e⟩
          exact program_fail f
        | some d =>
          rw [fin d (Or.inr ⟨v, e, b⟩)]
          cases d with
          | nil => rw [if_pos rfl]
          | cons x d => rw [if_neg (by simp)]

/-- C117, `gosthmac`: two programs whose arguments have the same contents see the same. -/
theorem C117_hmac (L n : Nat) (h h' : Heap) (nv kv kv' : Val) (hk : Known kv h) (hk' : Known kv' h')
    (ek : bytesOf kv h = bytesOf kv' h') (l l' : List (String × Val)) (k : KwKnown l h) (k' : KwKnown l' h')
    (hd : KwSame "data" l h l' h') (cs cs' : List (HmacCall Val)) (hx : ∀ c ∈ cs, c.Known h) (hx' : ∀ c ∈ cs', c.Known h')
    (hc : cs.map (·.contents h) = cs'.map (·.contents h')) :
    programRun (ctx L (n + 8)) "Hmac.new" [nv, kv, .dict l] (cs.map (·.use)) h =
      programRun (ctx L (n + 8)) "Hmac.new" [nv, kv', .dict l'] (cs'.map (·.use)) h' := by
  by_cases hn : ∃ name, nv = .str name ∧ IsHmacName name
  · obtain ⟨name, rfl, hn⟩ := hn
    rw [hmac_program L n h name hn kv hk l k cs hx, hmac_program L n h' name hn kv' hk' l' k' cs' hx', hc, hd, ek]
  · have h1 : nv ≠ .str "HMAC_GOSTR3411_2012_256" := fun e => hn ⟨_, e, Or.inl rfl⟩
    have h2 : nv ≠ .str "HMAC_GOSTR3411_2012_512" := fun e => hn ⟨_, e, Or.inr rfl⟩
    obtain ⟨h1', f, -⟩ := (C98_new L n h l).1 nv kv h1 h2
    obtain ⟨h2', f', -⟩ := (C98_new L n h' l').1 nv kv' h1 h2
    rw [program_fail f, program_fail f']

/-! ### PBKDF2 -/

/-- A use of a key derivation object. -/
inductive PbkdfCall where
  | derive (d : Int)
  | hexderive (d : Int)
  | clear
  | salt

/-- The use as it is written. -/
def PbkdfCall.use : PbkdfCall → Use
  | .derive d => .meth "derive" [.int d]
  | .hexderive d => .meth "hexderive" [.int d]
  | .clear => .meth "clear" []
  | .salt => .attr "salt"

/-- The next state of the model and what is seen. -/
def PbkdfCall.act (s : Gost.Pbkdf) : PbkdfCall → Gost.Pbkdf × Obs
  | .derive d => ((s.derive d).1, match (s.derive d).2 with | .ok b => .bytes b | .error e => .exc (exc e))
  | .hexderive d => ((s.hexderive d).1,
      match (s.hexderive d).2 with | .ok t => .val (.str (String.ofList t)) | .error e => .exc (exc e))
  | .clear => (s.clear, .val .none)
  | .salt => (s, .bytes s.saltProp)

def pbkdfSeen (s : Gost.Pbkdf) : List PbkdfCall → List Obs
  | [] => []
  | c :: cs => (c.act s).2 :: pbkdfSeen (c.act s).1 cs

theorem pbkdf_act (L n : Nat) {s : Gost.Pbkdf} {me : Nat} {c : PbkdfSrc.Cells} {h : Heap} (r : PbkdfAt s me c h)
    (x : PbkdfCall) :
    obs (x.use.run (ctx L (n + 11)) (.ref me) h) = (x.act s).2 ∧
    ∃ c', PbkdfAt (x.act s).1 me c' (x.use.run (ctx L (n + 11)) (.ref me) h).2 := by
  obtain ⟨p1, p2, p3, p4, p5⟩ := C99_methods L n h s me c r
  cases x with
  | derive d =>
    simp only [PbkdfCall.use, Use.run, PbkdfCall.act]
    by_cases hd : (2 ^ 32 - 1) * 64 < d
    · rw [(p1 d hd).1]
      unfold Gost.Pbkdf.derive
      rw [if_pos hd]
      exact ⟨rfl, c, r⟩
    · obtain ⟨h', w, nb, b, f, -, -, e, eb, q⟩ := (p2 d (by omega)).1
      rw [f, e]
      exact ⟨obsVal_bytes eb, _, q⟩
  | hexderive d =>
    simp only [PbkdfCall.use, Use.run, PbkdfCall.act]
    by_cases hd : (2 ^ 32 - 1) * 64 < d
    · rw [(p1 d hd).2]
      unfold Gost.Pbkdf.hexderive Gost.Pbkdf.derive
      rw [if_pos hd]
      exact ⟨rfl, c, r⟩
    · obtain ⟨h', nb, t, f, -, e, q⟩ := (p2 d (by omega)).2
      rw [f, e]
      exact ⟨rfl, _, q⟩
  | clear =>
    obtain ⟨h', c', f, -, q, -⟩ := p3
    simp only [PbkdfCall.use, Use.run, PbkdfCall.act]
    rw [f]
    exact ⟨rfl, _, q⟩
  | salt =>
    simp only [PbkdfCall.use, Use.run, PbkdfCall.act]
    rw [p4]
    exact ⟨obsVal_bytes p5, _, r⟩

theorem pbkdf_seen (L n : Nat) {me : Nat} (cs : List PbkdfCall) {s : Gost.Pbkdf} {c : PbkdfSrc.Cells} {h : Heap}
    (r : PbkdfAt s me c h) : seenAll (ctx L (n + 11)) (.ref me) (cs.map (·.use)) h = pbkdfSeen s cs := by
  induction cs generalizing s h c with
  | nil => rfl
  | cons x cs ih =>
    obtain ⟨e1, c', e2⟩ := pbkdf_act L n r x
    simp only [List.map_cons, seenAll, pbkdfSeen]
    rw [e1, ih e2]

/-- What is seen of `gostpbkdf.new(password, salt=…, counter=…)` and the calls, by the contents; `random` are the
bytes which are drawn if the salt is missing or empty. -/
def pbkdfProgram (pw : Option Bytes) (salt : Option (Option Bytes)) (it : Int) (random : Bytes) (cs : List PbkdfCall) :
    Obs × List Obs :=
  match pw with
  | none => (.exc (.raised "GOSTPBKDFError" "GOSTPBKDFError: invalid password value"), [])
  | some pw =>
    match salt.getD (some []) with
    | none => (.exc (.raised "GOSTPBKDFError" "GOSTPBKDFError: invalid salt value"), [])
    | some salt =>
      if 64 < pw.length then (.exc (.raised "GOSTHMACError" "GOSTHMACError: invalid key value"), [])
      else (.obj, pbkdfSeen (pbkdfInit pw (if salt = [] then random else salt) it) cs)

theorem pbkdf_program (L n : Nat) (h : Heap) (pv : Val) (hk : Known pv h) (l : List (String × Val)) (k : KwKnown l h)
    (it : Int) (hi : CounterArg l it) (random : Bytes) (hr : random.length = 32) (nr : NextRandom random h)
    (cs : List PbkdfCall) :
    programRun (ctx L (n + 11)) "Pbkdf.new" [pv, .dict l] (cs.map (·.use)) h =
      pbkdfProgram (bytesOf pv h) ((findAttr "salt" l).map (bytesOf · h)) it random cs := by
  obtain ⟨p1, p2⟩ := C99_new L (n + 2) h l
  cases ep : bytesOf pv h with
  | none =>
    obtain ⟨h', f, -⟩ := p1 pv ⟨ep, hk⟩
    exact program_fail f
  | some pw =>
    obtain ⟨q1, q2⟩ := p2 pv pw ep
    obtain ⟨q3, q4⟩ := q2 it hi
    have good : ∀ {s : Gost.Pbkdf} {W}, (∃ h' r c, call package L (n + 2 + 9) "Pbkdf.new" [pv, .dict l] h = ok (.ref r) h' ∧
        Keeps W h h' ∧ h.length ≤ r ∧ h.length ≤ c.hmac ∧ h.length ≤ c.hash ∧ PbkdfAt s r c h') →
        programRun (ctx L (n + 11)) "Pbkdf.new" [pv, .dict l] (cs.map (·.use)) h = (.obj, pbkdfSeen s cs) := by
      rintro s W ⟨h', r, c, f, -, -, -, -, q⟩
      unfold programRun
      rw [ctx_call, f]
      simp only [ok]
      rw [pbkdf_seen L n cs q]
      simp [obsVal, bytesOf, q.obj]
    unfold pbkdfProgram
    simp only
    have drawn : (findAttr "salt" l = none ∨ ∃ v, findAttr "salt" l = some v ∧ bytesOf v h = some []) →
        programRun (ctx L (n + 11)) "Pbkdf.new" [pv, .dict l] (cs.map (·.use)) h =
        if 64 < pw.length then (.exc (.raised "GOSTHMACError" "GOSTHMACError: invalid key value"), [])
        else (.obj, pbkdfSeen (pbkdfInit pw random it) cs) := by
      intro hs
      obtain ⟨a1, a2⟩ := q4 hs random hr nr
      split
      · next hl =>
        obtain ⟨h', f, -⟩ := a1 hl
        exact program_fail f
      · next hl => exact good (a2 (by omega))
    cases e : findAttr "salt" l with
    | none => exact (drawn (Or.inl e)).trans (by simp)
    | some v =>
      cases b : bytesOf v h with
      | none =>
        obtain ⟨h', f, -⟩ := q1 v e ⟨b, k _ _ e⟩
        simp only [Option.map_some, b, Option.getD_some]
        exact program_fail f
      | some salt =>
        simp only [Option.map_some, b, Option.getD_some]
        by_cases hne : salt = []
        · subst hne
          exact (drawn (Or.inr ⟨v, e, b⟩)).trans (by simp)
        · obtain ⟨a1, a2⟩ := q3 v salt e b hne
          split
          · next hl =>
            obtain ⟨h', f, -⟩ := a1 hl
            exact program_fail f
          · next hl =>
            obtain ⟨h', r, c, f, x, q⟩ := a2 (by omega)
            exact good (W := []) ⟨h', r, c, f, x.keeps _, q⟩

/-- C117, `gostpbkdf`, with the same 32 bytes at hand as a salt: two programs whose arguments have the same contents
see the same. -/
theorem C117_pbkdf (L n : Nat) (h h' : Heap) (pv pv' : Val) (hk : Known pv h) (hk' : Known pv' h')
    (ep : bytesOf pv h = bytesOf pv' h') (l l' : List (String × Val)) (k : KwKnown l h) (k' : KwKnown l' h')
    (hs : KwSame "salt" l h l' h') (it : Int) (hi : CounterArg l it) (hi' : CounterArg l' it) (random : Bytes)
    (hr : random.length = 32) (nr : NextRandom random h) (nr' : NextRandom random h') (cs : List PbkdfCall) :
    programRun (ctx L (n + 11)) "Pbkdf.new" [pv, .dict l] (cs.map (·.use)) h =
      programRun (ctx L (n + 11)) "Pbkdf.new" [pv', .dict l'] (cs.map (·.use)) h' := by
  rw [pbkdf_program L n h pv hk l k it hi random hr nr, pbkdf_program L n h' pv' hk' l' k' it hi' random hr nr', hs, ep]

/-! ### Random generator -/

/-- A use of a generator. -/
inductive RandCall (α : Type) where
  | random
  | reset (a : α)
  | clear

/-- The use as it is written. -/
def RandCall.use : RandCall Val → Use
  | .random => .meth "random" []
  | .reset v => .meth "reset" [v]
  | .clear => .meth "clear" []

/-- The contents of the argument. -/
def RandCall.contents (h : Heap) : RandCall Val → RandCall (Option Bytes)
  | .random => .random
  | .reset v => .reset (bytesOf v h)
  | .clear => .clear

/-- The argument exists, is not the source of random bytes, and no random bytes are drawn. -/
def RandCall.Known (h : Heap) : RandCall Val → Prop
  | .reset v => (∀ r, v = .ref r → r ≠ 0 ∧ r < h.length) ∧ bytesOf v h ≠ some []
  | _ => True

/-- The next state of the model and what is seen. -/
def RandCall.act (s : Rand) : RandCall (Option Bytes) → Rand × Obs
  | .random => (s.random.1, match s.random.2 with | .ok b => .bytes b | .error e => .exc (exc e))
  | .reset none => (s, .exc (.raised "GOSTRandomError" "GOSTRandomError: invalid seed value"))
  | .reset (some seed) =>
    if seed.length = s.sizeS then ({ s with randU := seedReg seed, hash := s.hash.reset }, .val .none)
    else (s, .exc (.raised "GOSTRandomError" "GOSTRandomError: invalid seed value"))
  | .clear => (s.clear, .val .none)

def randSeen (s : Rand) : List (RandCall (Option Bytes)) → List Obs
  | [] => []
  | c :: cs => (c.act s).2 :: randSeen (c.act s).1 cs

theorem rand_act (L n : Nat) {s : Rand} {me u hr : Nat} {h0 h : Heap} (hL : s.q.toNat < L) (hm : h0.length ≤ me)
    (hh : h0.length ≤ hr) (x : Keeps [0, me, hr] h0 h) (r : RandAt s me u hr h) (c : RandCall Val) (hc : c.Known h0) :
    obs (c.use.run (ctx L (n + 8)) (.ref me) h) = ((c.contents h0).act s).2 ∧ ((c.contents h0).act s).1.q.toNat < L ∧
    Keeps [0, me, hr] h0 (c.use.run (ctx L (n + 8)) (.ref me) h).2 ∧
    ∃ u', RandAt ((c.contents h0).act s).1 me u' hr (c.use.run (ctx L (n + 8)) (.ref me) h).2 := by
  obtain ⟨p1, p2, p3, -, p5⟩ := C100_methods L n h s me u hr r
  have mono : ∀ {h'}, Keeps [me, hr] h h' → Keeps [0, me, hr] h0 h' := fun k => x.trans (k.mono (by simp))
  cases c with
  | random =>
    obtain ⟨a1, a2⟩ := p1 hL
    simp only [RandCall.use, RandCall.contents, RandCall.act, Use.run]
    cases e : s.random.2 with
    | ok b =>
      obtain ⟨h', w, u', f, k, -, eb, q⟩ := a1 b e
      rw [f]
      exact ⟨obsVal_bytes eb, by rw [random_q]; exact hL, mono k, u', q⟩
    | error e' =>
      obtain ⟨m, h', u', rfl, f, k, q⟩ := a2 e' e
      rw [f]
      exact ⟨rfl, by rw [random_q]; exact hL, mono k, u', q⟩
  | reset kv =>
    obtain ⟨k, e⟩ := hc
    have kn : ∀ r, kv = .ref r → r < h.length := fun r hr => Nat.lt_of_lt_of_le (k r hr).2 x.length
    have hb : bytesOf kv h = bytesOf kv h0 := bytesOf_same x fun r e => ⟨by
      have := k r e
      simp
      omega, (k r e).2⟩
    simp only [RandCall.use, RandCall.contents, Use.run]
    rw [← hb] at e ⊢
    have bad : Other kv h ∨ (∃ b, bytesOf kv h = some b ∧ b ≠ [] ∧ b.length ≠ s.sizeS) →
        obs (callMeth (ctx L (n + 8)) (.ref me) "reset" [kv] h) =
          .exc (.raised "GOSTRandomError" "GOSTRandomError: invalid seed value") ∧ s.q.toNat < L ∧
        Keeps [0, me, hr] h0 (callMeth (ctx L (n + 8)) (.ref me) "reset" [kv] h).2 ∧
        ∃ u', RandAt s me u' hr (callMeth (ctx L (n + 8)) (.ref me) "reset" [kv] h).2 := by
      intro c
      obtain ⟨h', f, y, q⟩ := p2 kv c
      rw [f]
      exact ⟨rfl, hL, x.trans (y.keeps _), u, q⟩
    cases b : bytesOf kv h with
    | none => exact bad (Or.inl ⟨b, kn⟩)
    | some seed =>
      have hne : seed ≠ [] := fun e' => e (by rw [b, e'])
      simp only [RandCall.act]
      by_cases hl : seed.length = s.sizeS
      · obtain ⟨h', u', f, k, q⟩ := p3 kv seed b hne hl
        rw [f, if_pos hl]
        exact ⟨rfl, hL, mono k, u', q⟩
      · rw [if_neg hl]
        exact bad (Or.inr ⟨seed, b, hne, hl⟩)
  | clear =>
    obtain ⟨h', u', f, k, q⟩ := p5
    simp only [RandCall.use, RandCall.contents, RandCall.act, Use.run]
    rw [f]
    exact ⟨rfl, hL, mono (k.mono (by simp)), u', q⟩

theorem rand_seen (L n : Nat) {me hr : Nat} {h0 : Heap} (hm : h0.length ≤ me) (hh : h0.length ≤ hr)
    (cs : List (RandCall Val)) (hx : ∀ c ∈ cs, c.Known h0) {s : Rand} {u : Nat} {h : Heap} (hL : s.q.toNat < L)
    (k : Keeps [0, me, hr] h0 h) (r : RandAt s me u hr h) :
    seenAll (ctx L (n + 8)) (.ref me) (cs.map (·.use)) h = randSeen s (cs.map (·.contents h0)) := by
  induction cs generalizing s h u with
  | nil => rfl
  | cons c cs ih =>
    obtain ⟨e1, e2, e3, u', e4⟩ := rand_act L n hL hm hh k r c (hx c (by simp))
    simp only [List.map_cons, seenAll, randSeen]
    rw [e1, ih (fun c hc => hx c (by simp [hc])) e2 e3 e4]

/-- What is seen of `gostrandom.new(rand_size, rand_k=…, size_s=…)` and the calls, by the contents; `random` are the
bytes which are drawn if the seed is missing or empty. -/
def randProgram (z : Int) (seed : Option (Option Bytes)) (size : Nat) (random : Bytes) (cs : List (RandCall (Option Bytes))) :
    Obs × List Obs :=
  match seed.getD (some []) with
  | none => (.exc (.raised "GOSTRandomError" "GOSTRandomError: invalid seed value"), [])
  | some seed =>
    if seed = [] then (.obj, randSeen (seeded random z) cs)
    else if seed.length = size then (.obj, randSeen (seeded seed z) cs)
    else (.exc (.raised "GOSTRandomError" "GOSTRandomError: invalid seed value"), [])

theorem rand_program (L n : Nat) (h : Heap) (z : Int) (hz : (z.fdiv 64).toNat < L) (l : List (String × Val)) (k : KwKnown l h)
    (size : Nat) (hs : SizeArg l size) (h64 : size ≤ 64) (random : Bytes) (hr : random.length = size)
    (nr : NextRandom random h) (cs : List (RandCall Val)) (hx : ∀ c ∈ cs, c.Known h) :
    programRun (ctx L (n + 8)) "Random.new" [.int z, .dict l] (cs.map (·.use)) h =
      randProgram z ((findAttr "rand_k" l).map (bytesOf · h)) size random (cs.map (·.contents h)) := by
  obtain ⟨p, q⟩ := C100_new L n h l size hs
  have good : ∀ {seed : Bytes} {W}, W ⊆ [0] → (∃ h' r u hr, call package L (n + 8) "Random.new" [.int z, .dict l] h = ok (.ref r) h' ∧
      Keeps W h h' ∧ h.length ≤ r ∧ h.length ≤ hr ∧ RandAt (seeded seed z) r u hr h') →
      programRun (ctx L (n + 8)) "Random.new" [.int z, .dict l] (cs.map (·.use)) h =
        (.obj, randSeen (seeded seed z) (cs.map (·.contents h))) := by
    rintro seed W hW ⟨h', r, u, hr, f, k', x1, x2, q⟩
    unfold programRun
    rw [ctx_call, f]
    simp only [ok]
    rw [rand_seen L n x1 x2 cs hx hz (k'.mono fun p hp _ => by have := hW hp; simp at this; simp [this]) q]
    simp [obsVal, bytesOf, q.obj]
  have drawn := (q h64 z random hr).2
  have bad := p (.int z)
  unfold randProgram
  cases e : findAttr "rand_k" l with
  | none => exact good (fun _ h => h) (drawn (Or.inl e) nr)
  | some kv =>
    simp only [Option.map_some, Option.getD_some]
    cases b : bytesOf kv h with
    | none =>
      obtain ⟨h', f, -⟩ := bad kv e (Or.inl ⟨b, k _ _ e⟩)
      exact program_fail f
    | some seed =>
      by_cases hne : seed = []
      · subst hne
        exact good (fun _ h => h) (drawn (Or.inr ⟨kv, e, b⟩) nr)
      · simp only [if_neg hne]
        split
        · next hl =>
          obtain ⟨h', r, u, hr', f, x, a⟩ := (q h64 z seed hl).1 kv e b hne
          exact good (W := []) (by simp) ⟨h', r, u, hr', f, x.keeps _, a⟩
        · next hl =>
          obtain ⟨h', f, -⟩ := bad kv e (Or.inr ⟨seed, b, hne, hl⟩)
          exact program_fail f

/-- C117, `gostrandom`, with the same bytes at hand as a seed of up to 64 bytes: two programs whose arguments have the
same contents see the same. -/
theorem C117_random (L n : Nat) (h h' : Heap) (z : Int) (hz : (z.fdiv 64).toNat < L) (l l' : List (String × Val))
    (k : KwKnown l h) (k' : KwKnown l' h') (hd : KwSame "rand_k" l h l' h') (size : Nat) (hs : SizeArg l size)
    (hs' : SizeArg l' size) (h64 : size ≤ 64) (random : Bytes) (hr : random.length = size) (nr : NextRandom random h)
    (nr' : NextRandom random h') (cs cs' : List (RandCall Val)) (hx : ∀ c ∈ cs, c.Known h) (hx' : ∀ c ∈ cs', c.Known h')
    (hc : cs.map (·.contents h) = cs'.map (·.contents h')) :
    programRun (ctx L (n + 8)) "Random.new" [.int z, .dict l] (cs.map (·.use)) h =
      programRun (ctx L (n + 8)) "Random.new" [.int z, .dict l'] (cs'.map (·.use)) h' := by
  rw [rand_program L n h z hz l k size hs h64 random hr nr cs hx, rand_program L n h' z hz l' k' size hs' h64 random hr nr' cs' hx',
    hc, hd]

end Gost.Src
