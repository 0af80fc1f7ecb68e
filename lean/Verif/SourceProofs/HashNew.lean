import Verif.SourceProofs.HashObj
import Verif.SourceProofs.NewOid

/-! `gost_34_11_2012.py`, the digests and the constructor. -/

namespace Gost.Src

open Gost.Hash

namespace Streebog

/-- The identifier of an algorithm. -/
def oidOf (name : String) : String :=
  if name = "streebog256" then "1.2.643.7.1.1.2.2" else "1.2.643.7.1.1.2.3"

/-- The cell `me` is the hash object `s`, with its object identifier. -/
def IsHash (s : HashObj) (me : Nat) (h : Heap) : Prop :=
  ∃ o c, HashAt s me [("oid", .ref o)] c h ∧ OidAt (oidOf s.name) o h

theorem IsHash.ext {s : HashObj} {me : Nat} {h h' : Heap} (r : IsHash s me h) (x : Ext h h') : IsHash s me h' := by
  obtain ⟨o, c, r, ho⟩ := r
  exact ⟨o, c, r.ext x, x.get ho⟩

theorem IsHash.keeps {s : HashObj} {me : Nat} {h h' : Heap} {W : List Nat} (r : IsHash s me h) (k : Keeps W h h')
    (hs : me ∉ W) (ho : ∀ w ∈ W, ∀ str, ¬ OidAt str w h) : IsHash s me h' := by
  obtain ⟨o, c, r, e⟩ := r
  exact ⟨o, c, r.keeps k hs, k.get e (fun hw => ho o hw _ e)⟩

/-- The object identifier is another cell than the object. -/
theorem oid_keeps {s : HashObj} {me : Nat} {tl : List (String × Val)} {c : Cells} {h h' : Heap} {str : String}
    {o : Nat} (r : HashAt s me tl c h) (k : Keeps [me] h h') (ho : OidAt str o h) : OidAt str o h' := by
  refine k.get ho ?_
  rintro hm
  rw [List.mem_singleton] at hm
  subst hm
  have := r.obj.symm.trans ho
  simp at this

/-- The cell of a byte array. -/
theorem get_of_bytes {r : Nat} {h : Heap} {b : Bytes} (e : bytesOf (.ref r) h = some b) :
    h[r]? = some (.bytearray b) := by
  cases h1 : h[r]? with
  | none => simp [bytesOf, h1] at e
  | some o =>
    cases o with
    | bytearray x =>
      have : x = b := by simpa [bytesOf, h1] using e
      rw [this]
    | _ => simp [bytesOf, h1] at e

theorem builtin_hex {r : Nat} {h : Heap} {b : Bytes} (e : bytesOf (.ref r) h = some b) :
    builtinMeth (.ref r) "hex" [] h = ok (.str (String.ofList (pyHex b))) h := by
  simp [builtinMeth, e]

theorem digest_ok (L n : Nat) {s : HashObj} {self : Nat} {h : Heap} (r : IsHash s self h) :
    NewBytes (call package L (n + 6) "GOST34112012.digest" [.ref self] h) h s.digest := by
  rw [call_succ Fn.GOST34112012.digest]
  obtain ⟨o, c, r, ho⟩ := r
  obtain ⟨me, l, o', c', f1, hm, -, r1, -⟩ := copy_ok L (n + 4) r ho
  obtain ⟨H2, c2, f2, k2, r2⟩ := hash_final_ok L n r1
  py [GOST34112012.m_digest, r.obj, f1, r1.obj, f2, r2.obj]
  have x : Ext h H2 := Keeps.ext (((Ext.refl h).add l |>.keeps []).then k2 (by simp; exact hm))
  obtain ⟨l2, rfl⟩ := x
  obtain ⟨v, l3, f3, hv, b⟩ := (get_hash_ok L (n + 3) r2).elim
  py [f3]
  exact .intro (((Ext.refl h).add l2).add l3) (by rw [List.length_append] at hv; omega) b

theorem reset_ok (L n : Nat) {s : HashObj} {self : Nat} {h : Heap} (r : IsHash s self h) :
    ∃ h', call package L (n + 2) "GOST34112012.reset" [.ref self] h = ok .none h' ∧
      Keeps [self] h h' ∧ IsHash s.reset self h' := by
  rw [call_succ Fn.GOST34112012.reset]
  obtain ⟨o, c, r, ho⟩ := r
  obtain ⟨H1, c1, f1, k1, r1⟩ := hash_init_ok L n r.obj s.name
  py [GOST34112012.m_reset, r.obj, Cells.attrs, f1]
  exact ⟨H1, rfl, k1, o, c1, r1, oid_keeps r k1 ho⟩

theorem hexdigest_ok (L n : Nat) {s : HashObj} {self : Nat} {h : Heap} (r : IsHash s self h) :
    ∃ h', call package L (n + 7) "GOST34112012.hexdigest" [.ref self] h = ok (.str (String.ofList s.hexdigest)) h' ∧
      Ext h h' := by
  rw [call_succ Fn.GOST34112012.hexdigest]
  obtain ⟨v, l3, f3, hv, b⟩ := (digest_ok L n r).elim
  obtain ⟨o, c, r, ho⟩ := r
  py [GOST34112012.m_hexdigest, r.obj, f3, get_of_bytes b, b]
  rw [builtin_hex b]
  py []
  exact ⟨_, rfl, (Ext.refl h).add _⟩

/-- A value which is not a byte object and remains so. -/
def Other (v : Val) (h : Heap) : Prop := bytesOf v h = none ∧ ∀ w, v = .ref w → w < h.length

theorem Other.keeps {v : Val} {h h' : Heap} {W : List Nat} (e : Other v h) (k : Keeps W h h')
    (hw : ∀ w ∈ W, h.length ≤ w) : Other v h' := by
  refine ⟨?_, fun w hv => Nat.lt_of_lt_of_le (e.2 w hv) k.length⟩
  have h1 := e.1
  cases v with
  | ref w =>
    have h2 := e.2 w rfl
    have h3 : h[w]? = some h[w] := by simp [h2]
    have h4 := k.get h3 (fun hm => by have := hw w hm; omega)
    simp only [bytesOf, h3] at h1
    simp only [bytesOf, h4]
    exact h1
  | bytes b => cases h1
  | _ => rfl

theorem execs_nil (C : Ctx) (env : Env) (h : Heap) : execs C [] env h = ok (.next env) h := (rfl)

theorem updateBytes_name (s : HashObj) (d : Bytes) : (s.updateBytes d).name = s.name := by
  rw [updateBytes_blocks]
  have h1 : ∀ k, (blocks s (s.buff ++ d) k).name = s.name := fun k => by
    induction k with
    | zero => rfl
    | succ k ih => rw [blocks_succ]; exact ih
  split
  · exact h1 _
  · exact h1 _

theorem updateBytes_nil (name : String) : (HashObj.hashInit name).updateBytes [] = HashObj.hashInit name := by
  simp [HashObj.updateBytes, HashObj.hashInit]

/-- The use of the argument `data`. -/
theorem init_tail (L n : Nat) {me : Nat} {h0 h : Heap} {name : String} (r : IsHash (HashObj.hashInit name) me h)
    (hm : h0.length ≤ me) (k0 : Keeps [me] h0 h) (v : Val) {env : Env} (e1 : env "self" = some (.ref me))
    (e2 : env "data" = some v) :
    (∀ d, bytesOf v h0 = some d →
      ∃ h', execs (ctx L (n + 5)) [.if_ (.cmp .ne (.name "data") (.builtin "bytearray" [.bytes []]))
          [.expr (.meth (.name "self") "update" [.name "data"])] []] env h = ok (.next env) h' ∧
        Keeps [me] h0 h' ∧ IsHash ((HashObj.hashInit name).updateBytes d) me h') ∧
    (Other v h0 →
      ∃ h', execs (ctx L (n + 5)) [.if_ (.cmp .ne (.name "data") (.builtin "bytearray" [.bytes []]))
          [.expr (.meth (.name "self") "update" [.name "data"])] []] env h =
        fail (.raised "GOSTHashError" "GOSTHashError: invalid data value") h' ∧ Keeps [me] h0 h') := by
  obtain ⟨o, c, r, ho⟩ := r
  have r0 := r.ext ((Ext.refl h).add [.bytearray []])
  have k1 := k0.add [.bytearray []]
  constructor
  · intro d e
    have e' := k1.bytes e
    by_cases hd : d = []
    · subst hd
      py [e1, e2, e']
      rw [updateBytes_nil]
      exact ⟨_, rfl, k1, o, c, r0, get_mono ho _⟩
    · obtain ⟨H, c', f, k, r'⟩ := update_ok L n r0 e'
      have hd' : (some d == some ([] : Bytes)) = false := by simpa using hd
      py [e1, e2, e', r0.obj, f, hd', Bool.not_false]
      exact ⟨H, rfl, k1.trans k, o, c', r', by
        rw [updateBytes_name]
        exact oid_keeps r0 k (get_mono ho _)⟩
  · intro e
    have e' := (e.keeps k1 (by simpa using hm)).1
    py [e1, e2, e', r0.obj, update_other L (n + 4) me e']
    exact ⟨_, rfl, k1⟩

/-- `__init__`. -/
theorem init_ok (L n : Nat) {me : Nat} {h0 h : Heap} (o : h[me]? = some (.inst "GOST34112012" [])) (name : String)
    (hm : h0.length ≤ me) (k0 : Keeps [me] h0 h) (v : Val) :
    (∀ d, bytesOf v h0 = some d →
      ∃ h', call package L (n + 6) "GOST34112012.__init__" [.ref me, .str name, v] h = ok .none h' ∧
        Keeps [me] h0 h' ∧ IsHash ((HashObj.hashInit name).updateBytes d) me h') ∧
    (Other v h0 →
      ∃ h', call package L (n + 6) "GOST34112012.__init__" [.ref me, .str name, v] h =
        fail (.raised "GOSTHashError" "GOSTHashError: invalid data value") h' ∧ Keeps [me] h0 h') := by
  rw [call_succ Fn.GOST34112012.__init__]
  py [GOST34112012.m___init__]
  upd o with H1 o1 k1 l1
  py []
  upd (get_mono o1 _) with H2 o2 k2 l2
  py []
  upd o2 with H3 o3 k3 l3
  py []
  upd o3 with H4 o4 k4 l4
  py []
  upd (get_mono o4 _) with H5 o5 k5 l5
  py []
  upd (get_mono o5 _) with H6 o6 k6 l6
  py []
  upd (get_mono o6 _) with H7 o7 k7 l7
  have k : Keeps [me] h H7 := (((((((k1.add _).trans k2).trans k3).trans k4).add _).trans k5).add _).trans
    k6 |>.add _ |>.trans k7
  have k := k0.trans k
  clear k0 k1 k2 k3 k4 k5 k6 k7 l1 l2 l3 l4 l5 l6 l7
  obtain ⟨H8, c8, f8, k8, r8⟩ := hash_init_ok L (n + 4) o7 name
  have k := k.trans k8
  py [o7, f8]
  by_cases hn : name = "streebog256"
  · simp only [hn, decide_true]
    rw [hn] at r8
    have ho := get_last H8 (.inst "ObjectIdentifier" [("_oid_str", .str "1.2.643.7.1.1.2.2")])
    upd (get_mono r8.obj _) with H9 o9 k9 l9
    have r0 := r8.ext ((Ext.refl H8).add [.inst "ObjectIdentifier" [("_oid_str", .str "1.2.643.7.1.1.2.2")]])
    have r9 := r0.upd (s' := HashObj.hashInit "streebog256") (tl' := [("oid", .ref H8.length)]) (c' := c8)
      k9 o9 r0.bb r0.bh r0.bn r0.bs r0.lh r0.ln r0.ls
    have ho := oid_keeps r0 k9 ho
    have k := (k.add _).trans k9
    simp only [execs_nil, thenRun_next]
    obtain ⟨p1, p2⟩ := init_tail L n ⟨_, _, r9, ho⟩ hm k v
      (env := ((Env.empty.set "self" (.ref me)).set "name" (.str "streebog256")).set "data" v) (by py []) (by py [])
    constructor
    · intro d e
      obtain ⟨h', f, q⟩ := p1 d e
      exact ⟨h', by rw [f]; rfl, q⟩
    · intro e
      obtain ⟨h', f, q⟩ := p2 e
      exact ⟨h', by rw [f]; rfl, q⟩
  · simp only [hn, decide_false]
    have ho := get_last H8 (.inst "ObjectIdentifier" [("_oid_str", .str "1.2.643.7.1.1.2.3")])
    upd (get_mono r8.obj _) with H9 o9 k9 l9
    have r0 := r8.ext ((Ext.refl H8).add [.inst "ObjectIdentifier" [("_oid_str", .str "1.2.643.7.1.1.2.3")]])
    have r9 := r0.upd (s' := HashObj.hashInit name) (tl' := [("oid", .ref H8.length)]) (c' := c8)
      k9 o9 r0.bb r0.bh r0.bn r0.bs r0.lh r0.ln r0.ls
    have ho := oid_keeps r0 k9 ho
    have k := (k.add _).trans k9
    simp only [execs_nil, thenRun_next]
    obtain ⟨p1, p2⟩ := init_tail L n ⟨_, _, r9, by rw [oidOf, if_neg (show ¬ (HashObj.hashInit name).name = _ from hn)]; exact ho⟩ hm k v
      (env := ((Env.empty.set "self" (.ref me)).set "name" (.str name)).set "data" v) (by py []) (by py [])
    constructor
    · intro d e
      obtain ⟨h', f, q⟩ := p1 d e
      exact ⟨h', by rw [f]; rfl, q⟩
    · intro e
      obtain ⟨h', f, q⟩ := p2 e
      exact ⟨h', by rw [f]; rfl, q⟩

theorem hash_new (L n : Nat) (h : Heap) (name : String) (v : Val) :
    (∀ d, bytesOf v h = some d →
      ∃ h', instantiate (ctx L (n + 6)) "GOST34112012" [.str name, v] h = ok (.ref h.length) h' ∧ Ext h h' ∧
        IsHash ((HashObj.hashInit name).updateBytes d) h.length h') ∧
    (Other v h →
      ∃ h', instantiate (ctx L (n + 6)) "GOST34112012" [.str name, v] h =
        fail (.raised "GOSTHashError" "GOSTHashError: invalid data value") h' ∧ Ext h h') := by
  unfold instantiate
  py []
  obtain ⟨p1, p2⟩ := init_ok L n (get_last h (.inst "GOST34112012" [])) name (Nat.le_refl _)
    ((Keeps.refl [h.length] h).add _) v
  have hx : ∀ {h'}, Keeps [h.length] h h' → Ext h h' := fun k => Keeps.ext (k.mono (by simp))
  constructor
  · intro d e
    obtain ⟨h', f, k, r⟩ := p1 d e
    py [f]
    exact ⟨h', rfl, hx k, r⟩
  · intro e
    obtain ⟨h', f, k⟩ := p2 e
    py [f]
    exact ⟨h', rfl, hx k⟩

/-- `v not in l`. -/
theorem cmp_notIn {v : Val} {l : List Val} {h : Heap} {b : Bool} (e : valIn v h l = some b) :
    cmpop .notIn v (.tuple l) h = ok (.bool (!b)) h := by
  simp only [cmpop, e]

theorem valEq_str {v : Val} {s : String} (e : v ≠ .str s) (h : Heap) : valEq v (.str s) h = some false := by
  cases v with
  | str t => simpa [valEq] using e
  | ref r => simp only [valEq]; cases bytesOf (.ref r) h <;> rfl
  | _ => rfl

@[pysem] theorem dict_get (C : Ctx) (l : List (String × Val)) (k : String) (d : Val) (h : Heap) :
    callMeth C (.dict l) "get" [.str k, d] h = ok ((findAttr k l).getD d) h := (rfl)

/-- `new` with another name, or with something which is not a name. -/
theorem new_other (L n : Nat) {v : Val} (h1 : v ≠ .str "streebog512") (h2 : v ≠ .str "streebog256") (w : Val)
    (h : Heap) :
    call package L (n + 1) "Hash.new" [v, w] h =
      fail (.raised "GOSTHashError" "GOSTHashError: unsupported hash type") h := by
  rw [call_succ Fn.Hash.new]
  have hv : valIn v h [.str "streebog512", .str "streebog256"] = some false := by
    simp only [valIn, valEq_str h1, valEq_str h2]
  py [Hash.f_new]
  rw [cmp_notIn hv]
  py [Bool.not_false]

theorem new_ok (L n : Nat) (h : Heap) {name : String} (hn : name = "streebog512" ∨ name = "streebog256")
    (l : List (String × Val)) :
    (∀ d, (findAttr "data" l = none ∧ d = []) ∨ (∃ v, findAttr "data" l = some v ∧ bytesOf v h = some d) →
      ∃ h' r, call package L (n + 7) "Hash.new" [.str name, .dict l] h = ok (.ref r) h' ∧ Ext h h' ∧
        h.length ≤ r ∧ IsHash ((HashObj.hashInit name).updateBytes d) r h') ∧
    (∀ v, findAttr "data" l = some v → Other v h →
      ∃ h', call package L (n + 7) "Hash.new" [.str name, .dict l] h =
        fail (.raised "GOSTHashError" "GOSTHashError: invalid data value") h' ∧ Ext h h') := by
  rw [call_succ Fn.Hash.new]
  have hv : valIn (.str name) h [.str "streebog512", .str "streebog256"] = some true := by
    rcases hn with rfl | rfl <;> rfl
  py [Hash.f_new]
  rw [cmp_notIn hv]
  py [Bool.not_true]
  obtain ⟨p1, p2⟩ := hash_new L n (h ++ [.bytearray []]) name ((findAttr "data" l).getD (.ref h.length))
  constructor
  · intro d hd
    obtain ⟨h', f, x, r⟩ := p1 d (by
      rcases hd with ⟨e, rfl⟩ | ⟨v, e, b⟩
      · rw [e]; exact bytesOf_last _ _
      · rw [e]; exact bytesOf_mono b _)
    py [f]
    exact ⟨h', _, rfl, ((Ext.refl h).add _).trans x, by simp, r⟩
  · intro v e b
    obtain ⟨h', f, x⟩ := p2 (by
      rw [e]
      exact b.keeps (W := []) ((Keeps.refl [] h).add _) (by simp))
    py [f]
    exact ⟨h', rfl, ((Ext.refl h).add _).trans x⟩

end Streebog

end Gost.Src
