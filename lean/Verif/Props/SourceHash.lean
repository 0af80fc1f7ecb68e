import Verif.SourceProofs.HashNew
import Verif.Props.Hash

/-! C97: the text of `gost_34_11_2012.py` computes the functions of the model, and the hash of the
standard. -/

namespace Gost.Src

open Streebog

/-- C97, constructor: `gosthash.new(name, **kwargs)` as it is written, for any name and any keyword arguments in
any memory: another name than the two, and anything which is not a string, is refused; without `data` the object
is the empty one of the model, with a byte object it is the one of the model updated with it, with any other value
it raises. Nothing that existed before is changed. -/
theorem C97_new (L n : Nat) (h : Heap) (l : List (String × Val)) :
    (∀ v, v ≠ .str "streebog512" → v ≠ .str "streebog256" →
      call package L (n + 7) "Hash.new" [v, .dict l] h =
        fail (.raised "GOSTHashError" "GOSTHashError: unsupported hash type") h) ∧
    ∀ name, name = "streebog512" ∨ name = "streebog256" →
      (findAttr "data" l = none →
        ∃ h' r, call package L (n + 7) "Hash.new" [.str name, .dict l] h = ok (.ref r) h' ∧ Ext h h' ∧
          h.length ≤ r ∧ IsHash (HashObj.hashInit name) r h') ∧
      (∀ v d, findAttr "data" l = some v → bytesOf v h = some d →
        ∃ h' r, call package L (n + 7) "Hash.new" [.str name, .dict l] h = ok (.ref r) h' ∧ Ext h h' ∧
          h.length ≤ r ∧ IsHash ((HashObj.hashInit name).updateBytes d) r h') ∧
      (∀ v, findAttr "data" l = some v → Other v h →
        ∃ h', call package L (n + 7) "Hash.new" [.str name, .dict l] h =
          fail (.raised "GOSTHashError" "GOSTHashError: invalid data value") h' ∧ Ext h h') := by
  refine ⟨fun v h1 h2 => new_other L (n + 6) h1 h2 _ h, fun name hn => ?_⟩
  obtain ⟨p1, p2⟩ := new_ok L n h hn l
  refine ⟨fun e => ?_, fun v d e b => p1 d (Or.inr ⟨v, e, b⟩), p2⟩
  have := p1 [] (Or.inl ⟨e, rfl⟩)
  rwa [updateBytes_nil] at this

/-- C97, methods, on any hash object, whatever was done with it before, and for any argument. The object itself is
the only thing which is changed, and only by `update`, `reset` and `hash_final`; digests are new byte arrays, a copy
is a new object. -/
theorem C97_methods (L n : Nat) (h : Heap) (s : HashObj) (me : Nat) (r : IsHash s me h) :
    (∀ v d, bytesOf v h = some d →
      ∃ h', callMeth (ctx L (n + 7)) (.ref me) "update" [v] h = ok .none h' ∧ Keeps [me] h h' ∧
        IsHash (s.updateBytes d) me h') ∧
    (∀ v, bytesOf v h = none → callMeth (ctx L (n + 7)) (.ref me) "update" [v] h =
        fail (.raised "GOSTHashError" "GOSTHashError: invalid data value") h) ∧
    NewBytes (callMeth (ctx L (n + 7)) (.ref me) "digest" [] h) h s.digest ∧
    (∃ h', callMeth (ctx L (n + 7)) (.ref me) "hexdigest" [] h = ok (.str (String.ofList s.hexdigest)) h' ∧ Ext h h') ∧
    (∃ h', callMeth (ctx L (n + 7)) (.ref me) "reset" [] h = ok .none h' ∧ Keeps [me] h h' ∧ IsHash s.reset me h') ∧
    (∃ h', callMeth (ctx L (n + 7)) (.ref me) "hash_final" [] h = ok .none h' ∧ Keeps [me] h h' ∧
        IsHash s.hashFinal me h') ∧
    NewBytes (callMeth (ctx L (n + 7)) (.ref me) "get_hash" [] h) h s.getHash ∧
    (∃ me' h', callMeth (ctx L (n + 7)) (.ref me) "copy" [] h = ok (.ref me') h' ∧ Ext h h' ∧ h.length ≤ me' ∧
        IsHash s.copy me' h') ∧
    getAttr (ctx L (n + 7)) (.ref me) "digest_size" h = ok (.int s.digestSize) h ∧
    getAttr (ctx L (n + 7)) (.ref me) "block_size" h = ok (.int s.blockSize) h ∧
    getAttr (ctx L (n + 7)) (.ref me) "name" h = ok (.str s.name) h := by
  obtain ⟨o, c, r, ho⟩ := r
  have r' : IsHash s me h := ⟨o, c, r, ho⟩
  refine ⟨?_, ?_, ?_, ?_, ?_, ?_, ?_, ?_, ?_, ?_, ?_⟩
  · intro v d e
    py [r.obj]
    obtain ⟨h', c', f, k, q⟩ := update_ok L (n + 2) r e
    exact ⟨h', f, k, o, c', q, by rw [updateBytes_name]; exact oid_keeps r k ho⟩
  · intro v e
    py [r.obj]
    exact update_other L (n + 6) me e
  · py [r.obj]
    exact digest_ok L (n + 1) r'
  · py [r.obj]
    exact hexdigest_ok L n r'
  · py [r.obj]
    exact reset_ok L (n + 5) r'
  · py [r.obj]
    obtain ⟨h', c', f, k, q⟩ := hash_final_ok L (n + 2) r
    exact ⟨h', f, k, o, c', q, oid_keeps r k ho⟩
  · py [r.obj]
    exact get_hash_ok L (n + 5) r
  · py [r.obj]
    obtain ⟨me', l, o', c', f, hm, -, q, ho'⟩ := copy_ok L (n + 6) r ho
    exact ⟨me', _, f, (Ext.refl h).add l, hm, o', c', q, ho'⟩
  · py [r.obj, Cells.attrs]
    exact digest_size_ok L (n + 6) r
  · py [r.obj, Cells.attrs]
    exact block_size_ok L (n + 6) _ h
  · py [r.obj, Cells.attrs]
    exact name_ok L (n + 6) r

/-- `gosthash.new(name, data=data).digest()`. -/
def hashOnce (C : Ctx) (name : String) (data : Val) (h : Heap) : Out Val :=
  andThen (C.call "Hash.new" [.str name, .dict [("data", data)]] h) fun o h => callMeth C o "digest" [] h

/-- `o.update(d)` for all `d` in turn. -/
def updates (C : Ctx) (o : Val) : List Val → Heap → Out Val
  | [], h => ok .none h
  | d :: ds, h => andThen (callMeth C o "update" [d] h) fun _ h => updates C o ds h

/-- `o = gosthash.new(name)`, the updates, `o.digest()`. -/
def hashMany (C : Ctx) (name : String) (ds : List Val) (h : Heap) : Out Val :=
  andThen (C.call "Hash.new" [.str name, .dict []] h) fun o h =>
    andThen (updates C o ds h) fun _ h => callMeth C o "digest" [] h

/-- C97, standard: for every message the digest as it is written is the hash of GOST R 34.11-2012. -/
theorem C97_standard (L n : Nat) (h : Heap) (name : String) (hn : name = "streebog512" ∨ name = "streebog256")
    (v : Val) (d : Bytes) (e : bytesOf v h = some d) :
    NewBytes (hashOnce (ctx L (n + 7)) name v h) h (Spec.hashOf name d) := by
  obtain ⟨h1, r, f, ⟨l, rfl⟩, hr, q⟩ := ((C97_new L n h [("data", v)]).2 name hn).2.1 v d rfl e
  obtain ⟨w, l', f', hw, b⟩ := (C97_methods L n _ _ r q).2.2.1.elim
  unfold hashOnce
  rw [show (ctx L (n + 7)).call = call package L (n + 7) from rfl, f, andThen_ok, f']
  rw [fresh_update name hn] at b
  exact .intro (((Ext.refl _).add _).add _) (by rw [List.length_append] at hw; omega) b

theorem updates_ok (L n : Nat) (h0 : Heap) (ds : List (Val × Bytes)) (hd : ∀ p ∈ ds, bytesOf p.1 h0 = some p.2)
    (me : Nat) : ∀ (h : Heap) (s : HashObj), Keeps [me] h0 h → IsHash s me h →
    ∃ h', updates (ctx L (n + 7)) (.ref me) (ds.map (·.1)) h = ok .none h' ∧ Keeps [me] h0 h' ∧
      IsHash ((ds.map (·.2)).foldl HashObj.updateBytes s) me h' := by
  induction ds with
  | nil => exact fun h s k r => ⟨h, rfl, k, r⟩
  | cons p ds ih =>
    intro h s k r
    obtain ⟨h1, f, k1, r1⟩ := (C97_methods L n h s me r).1 p.1 p.2 (k.bytes (hd p (by simp)))
    obtain ⟨h2, f2, k2, r2⟩ := ih (fun q hq => hd q (by simp [hq])) h1 _ (k.trans k1) r1
    refine ⟨h2, ?_, k2, r2⟩
    simp only [List.map_cons, updates]
    rw [f, andThen_ok, f2]

/-- C97, sequences: after any sequence of updates the digest as it is written is the hash of the effective message
(see C25: an update which completes a started block exactly is followed by a repetition of what was left before). -/
theorem C97_updates (L n : Nat) (h : Heap) (name : String) (hn : name = "streebog512" ∨ name = "streebog256")
    (ds : List (Val × Bytes)) (hd : ∀ p ∈ ds, bytesOf p.1 h = some p.2) :
    NewBytes (hashMany (ctx L (n + 7)) name (ds.map (·.1)) h) h
      (Spec.hashOf name ((ds.map (·.2)).foldl Spec.effective [])) := by
  obtain ⟨h1, r, f, ⟨l, rfl⟩, hr, q⟩ := ((C97_new L n h []).2 name hn).1 rfl
  obtain ⟨h2, f2, k2, r2⟩ := updates_ok L n h ds hd r _ _ ((Keeps.refl _ _).add l) q
  have x : Ext h h2 := (k2.mono (by simp; omega)).ext
  obtain ⟨l2, rfl⟩ := x
  obtain ⟨w, l', f', hw, b⟩ := (C97_methods L n _ _ r r2).2.2.1.elim
  unfold hashMany
  rw [show (ctx L (n + 7)).call = call package L (n + 7) from rfl, f, andThen_ok, f2, andThen_ok, f']
  obtain ⟨s', e1, e2⟩ := C25_exact name hn (ds.map (·.2))
  rw [new_none name hn] at e1
  cases e1
  rw [e2] at b
  exact .intro (((Ext.refl _).add _).add _) (by rw [List.length_append] at hw; omega) b

/-! The first example of the standard, on the text of the package. -/

example : NewBytes (hashOnce (ctx 0 (0 + 7)) "streebog256" (.ref 0) [.bytearray ex1]) [.bytearray ex1]
    [0x9d, 0x15, 0x1e, 0xef, 0xd8, 0x59, 0x0b, 0x89, 0xda, 0xa6, 0xba, 0x6c, 0xb7, 0x4a, 0xf9,
     0x27, 0x5d, 0xd0, 0x51, 0x02, 0x6b, 0xb1, 0x49, 0xa4, 0x52, 0xfd, 0x84, 0xe5, 0xe5, 0x7b,
     0x55, 0x00] := by
  have := C97_standard 0 0 [.bytearray ex1] "streebog256" (Or.inr rfl) (.ref 0) ex1 rfl
  rwa [hashOf_ex1] at this

/-- Three updates, the second with a byte array, as the hypothesis of `C97_updates` allows. -/
example : ∀ p ∈ [(Val.bytes [1, 2], [1, 2]), (.ref 0, [3]), (.bytes [], [])], bytesOf p.1 [.bytearray [3]] = some p.2 := by
  simp [bytesOf]

/-- A string as data is refused. -/
example : ∃ h', call package 0 (0 + 7) "Hash.new" [.str "streebog512", .dict [("data", .str "abc")]] [] =
    fail (.raised "GOSTHashError" "GOSTHashError: invalid data value") h' := by
  obtain ⟨h', e, -⟩ := ((C97_new 0 0 [] [("data", .str "abc")]).2 "streebog512" (Or.inl rfl)).2.2 (.str "abc") rfl
    ⟨rfl, by simp⟩
  exact ⟨h', e⟩

/-- An object which the hypothesis of `C97_methods` is about. -/
example : ∃ h r, IsHash (HashObj.hashInit "streebog512") r h := by
  obtain ⟨h, r, -, -, -, q⟩ := ((C97_new 0 0 [] []).2 "streebog512" (Or.inl rfl)).1 rfl
  exact ⟨h, r, q⟩

end Gost.Src
