import Verif.Props.SourceDefects
import Verif.Props.SourceRandom
import Verif.Props.SourceOid
import Verif.Props.SourceSignature
import Verif.Props.Memory
import Verif.Props.Alias
import Verif.Props.Ident
import Verif.Props.OidName

/-! C111: more of the cases in which the package does something else than its documentation or the standards say, as runs
of the text itself: the second part of C106. -/

namespace Gost.Src

open Spec ModesSrc HmacSrc PbkdfSrc RandomSrc

/-! ### The MAC -/

theorem macRun_ok (L n : Nat) (h : Heap) (alg : String) {kv : Val} (hk : Known kv h) {l : List (String × Val)} {p : Option Int}
    {iv dat : Option PyVal} (k : KwArgs l h p iv dat) {s : Mac} (e : newCipher alg (pyVal kv h) modeMac p iv dat = .ok (.mac s))
    (cs : List SrcMac) (hx : ∀ x ∈ cs, x.Known h) :
    macRun (ctx L (n + 9)) alg kv l cs h = some ((MacCall.results s (cs.map (·.model h))).map some) := by
  have := C101_new L (n + 1) h alg kv hk modeMac l p iv dat k
  rw [e] at this
  obtain ⟨me, P, h', f, x, h3, h4, q⟩ := this
  unfold macRun
  rw [ctx_call, f]
  exact congrArg some (C102_calls L n me P h h4 cs s h' (x.frame _) q hx)

/-- C111, MAC updates (C18): after an update with at least a block, an update which does not complete the next block
raises `IndexError`, although one update with all the bytes is accepted. -/
theorem C111_mac_updates (L n : Nat) (h : Heap) (a : Alg) (kv v w : Val) (key x y : Bytes) (ek : bytesOf kv h = some key)
    (hl : key.length = 32) (ev : bytesOf v h = some x) (ew : bytesOf w h = some y) (hx : a.blockSize ≤ x.length)
    (hy : x.length % a.blockSize + y.length < a.blockSize) :
    macRun (ctx L (n + 9)) a.name kv [] [.update v, .update w] h = some [some (.ok .none), some (.error .indexError)] ∧
    macRun (ctx L (n + 9)) a.name kv [] [.update (.bytes (x ++ y))] h = some [some (.ok .none)] := by
  obtain ⟨s, s1, s2, e, f1, f2, f3⟩ := C18_negation a (pyVal kv h) (pyVal v h) (pyVal w h) key x y
    ((pyVal_data kv h).trans ek) hl ((pyVal_data v h).trans ev) hx ((pyVal_data w h).trans ew) hy
  constructor
  · rw [macRun_ok L n h a.name (known_bytes ek) (kwNone h) e _ (by
      simp only [List.mem_cons, List.not_mem_nil, or_false]
      rintro z (rfl | rfl)
      · exact known_bytes ev
      · exact known_bytes ew)]
    simp only [List.map_cons, List.map_nil, SrcMac.model, MacCall.results, MacCall.result, MacCall.apply, f1, f2]
    rfl
  · rw [macRun_ok L n h a.name (known_bytes ek) (kwNone h) e _ (by
      simp only [List.mem_singleton]
      rintro z rfl
      exact known_lit _ _)]
    simp only [List.map_cons, List.map_nil, SrcMac.model, MacCall.results, MacCall.result]
    rw [show pyVal (.bytes (x ++ y)) h = .bytes (x ++ y) from rfl, f3]
    rfl

/-- C111, cleared MAC objects (C22): `clear` keeps the second auxiliary key; two objects whose keys have different ones
give different codes after `clear`. -/
theorem C111_mac_clear (L n : Nat) (h : Heap) (a : Alg) (kv kv' : Val) (key key' : Bytes) (ek : bytesOf kv h = some key)
    (hl : key.length = 32) (ek' : bytesOf kv' h = some key') (hl' : key'.length = 32)
    (hne : macKey2 (a.encrypt key) a.blockSize ≠ macKey2 (a.encrypt key') a.blockSize) :
    ∃ c c', c ≠ c' ∧
      macRun (ctx L (n + 9)) a.name kv [] [.clear, .digest a.blockSize] h = some [some (.ok .none), some c] ∧
      macRun (ctx L (n + 9)) a.name kv' [] [.clear, .digest a.blockSize] h = some [some (.ok .none), some c'] := by
  obtain ⟨s, s', e, e', ne⟩ := C22_mac_negation a (pyVal kv h) (pyVal kv' h) key key' ((pyVal_data kv h).trans ek)
    ((pyVal_data kv' h).trans ek') hl hl' hne
  refine ⟨(s.clear.digest a.blockSize).2.map .bytes, (s'.clear.digest a.blockSize).2.map .bytes, fun he => ne ?_, ?_, ?_⟩
  · generalize (s.clear.digest a.blockSize).2 = p at he ⊢
    generalize (s'.clear.digest a.blockSize).2 = q at he ⊢
    cases p <;> cases q <;> cases he <;> rfl
  · rw [macRun_ok L n h a.name (known_bytes ek) (kwNone h) e _ (by simp [SrcMac.Known])]
    rfl
  · rw [macRun_ok L n h a.name (known_bytes ek') (kwNone h) e' _ (by simp [SrcMac.Known])]
    rfl

/-- C111, cleared block ciphers (C22): after `clear` the object goes on encrypting, with round keys which consist of the
characters `/x00`; for the Magma these are the round keys of the key `/x00/x00/x00/x00/x00/x00/x00/x00`. -/
theorem C111_cleared (L n : Nat) (h : Heap) (a : Alg) (kv v : Val) (key x : Bytes) (ek : bytesOf kv h = some key)
    (hl : key.length = 32) (ev : bytesOf v h = some x) (hx : a.blockSize ∣ x.length) (h0 : x ≠ []) :
    cipherRun (ctx L (n + 9)) a.name kv modeEcb [] [.clear, .encrypt v] h =
      some [some (.ok ((blocks a.blockSize x).map a.cleared).flatten)] := by
  obtain ⟨D, P, -, hP, e⟩ := C101_ecb L n h a kv key ek hl [] (fun _ _ hw => by cases hw) padMode1 (Or.inl ⟨rfl, rfl⟩)
    [.clear, .encrypt v] (by
      simp only [List.mem_cons, List.not_mem_nil, or_false]
      rintro z (rfl | rfl)
      · trivial
      · exact known_bytes ev) (Or.inl rfl)
  have hp : P x = x := by
    rcases hP with ⟨-, hP⟩ | ⟨hP, -⟩
    · obtain ⟨k, e1, e2, e3, -⟩ := hP x
      have := e3 h0
      rw [e1, List.length_append, List.length_replicate, Nat.dvd_add_right hx] at e2
      rw [e1, Nat.eq_zero_of_dvd_of_lt e2 this]
      simp
    · exact absurd hP (by decide)
  rw [e]
  simp only [List.map_cons, List.map_nil, SrcCall.model, CipherCall.any, (pyVal_data v h).trans ev, anyRun, ecbCall, hp,
    answers, anyRes, if_pos]

/-! ### HMAC -/

/-- C111, HMAC updates (C29): two updates with 32 bytes do not give the code of the 64 bytes. -/
theorem C111_hmac_updates (L n : Nat) (h : Heap) (name : String) (hn : IsHmacName name) (kv : Val)
    (ek : bytesOf kv h = some Ex.key) :
    ∃ b b', NewBytes (hmacMany (ctx L (n + 8)) name kv [.bytes (List.replicate 32 0), .bytes (List.replicate 32 0)] h) h b ∧
      NewBytes (hmacMany (ctx L (n + 8)) name kv [.bytes (List.replicate 64 0)] h) h b' ∧ b ≠ b' := by
  have h1 := C98_updates L n h name hn kv Ex.key ek (by decide) [(.bytes (List.replicate 32 0), List.replicate 32 0),
    (.bytes (List.replicate 32 0), List.replicate 32 0)] (by simp) (by simp [bytesOf])
  have h2 := C98_updates L n h name hn kv Ex.key ek (by decide) [(.bytes (List.replicate 64 0), List.replicate 64 0)]
    (by simp) (by simp [bytesOf])
  refine ⟨_, _, h1, h2, ?_⟩
  obtain ⟨s, e1, e2⟩ := C29_negation name hn
  obtain ⟨s', e3, e4⟩ := C29_exact name hn (.bytes Ex.key) Ex.key rfl (by decide)
    [List.replicate 32 0, List.replicate 32 0] (by simp)
  obtain ⟨s'', e5, e6⟩ := C29_exact name hn (.bytes Ex.key) Ex.key rfl (by decide) [List.replicate 64 0] (by simp)
  rw [e1] at e3 e5
  cases e3
  cases e5
  rw [e4, show [List.replicate 32 (0 : UInt8), List.replicate 32 0].flatten = List.replicate 64 0 by decide,
    show s.updateBytes (List.replicate 64 0) = [List.replicate 64 0].foldl Hmac.updateBytes s from rfl, e6] at e2
  exact e2

/-- `o = gosthmac.new(name, key)`, the updates, `o.clear()`, `o.update(b'')`, `o.digest()`. -/
def hmacCleared (C : Ctx) (name : String) (key : Val) (ds : List Val) (h : Heap) : Out Val :=
  andThen (C.call "Hmac.new" [.str name, key, .dict []] h) fun o h =>
    andThen (updates C o ds h) fun _ h => andThen (callMeth C o "clear" [] h) fun _ h =>
      andThen (callMeth C o "update" [.bytes []] h) fun _ h => callMeth C o "digest" [] h

theorem hmacCleared_ok (L n : Nat) (h : Heap) (name : String) (hn : IsHmacName name) (kv : Val) (key : Bytes)
    (ek : bytesOf kv h = some key) (hk : key.length ≤ 64) (ds : List (Val × Bytes))
    (hd : ∀ p ∈ ds, bytesOf p.1 h = some p.2) :
    NewBytes (hmacCleared (ctx L (n + 8)) name kv (ds.map (·.1)) h) h
      ((((ds.map (·.2)).foldl Gost.Hmac.updateBytes ⟨hmacKey key, HashObj.hashInit (hmacHash name), 0⟩).clear.updateBytes
        []).digest) := by
  obtain ⟨h1, r, hr, kv', f, ⟨l, rfl⟩, hl, hl', -, q⟩ := (((C98_new L n h []).2 name hn).2 kv key ek hk).2 []
    (Or.inl ⟨rfl, rfl⟩)
  rw [if_pos rfl] at q
  obtain ⟨h2, f2, k2, r2⟩ := hmac_updates_ok L n h ds hd r hr _ _ ((Keeps.refl _ _).add l) ⟨_, q⟩
  obtain ⟨h3, f3, k3, r3⟩ := (C98_methods L n _ _ r hr r2).2.2.2.2.2.1
  obtain ⟨h4, f4, k4, r4⟩ := (C98_methods L n _ _ r hr r3).1 (.bytes []) [] rfl
  obtain ⟨w, l', f', hw, b⟩ := (C98_methods L n _ _ r hr r4).2.2.1.elim
  have x : Ext h h4 := (((k2.trans k3).trans k4).mono (by simp; omega)).ext
  unfold hmacCleared
  rw [show (ctx L (n + 8)).call = call package L (n + 8) from rfl, f, andThen_ok, f2, andThen_ok, f3, andThen_ok, f4,
    andThen_ok, f']
  exact .intro (x.add _) (Nat.le_trans x.length hw) b

/-- C111, cleared HMAC objects (C30): what an object received before `clear` is seen after it. -/
theorem C111_hmac_clear (L n : Nat) (h : Heap) (kv : Val) (key : Bytes) (ek : bytesOf kv h = some key)
    (hk : key.length ≤ 64) :
    ∃ b b', NewBytes (hmacCleared (ctx L (n + 8)) "HMAC_GOSTR3411_2012_512" kv [] h) h b ∧
      NewBytes (hmacCleared (ctx L (n + 8)) "HMAC_GOSTR3411_2012_512" kv [.bytes []] h) h b' ∧ b ≠ b' := by
  have h1 := hmacCleared_ok L n h _ (Or.inr rfl) kv key ek hk [] (by simp)
  have h2 := hmacCleared_ok L n h _ (Or.inr rfl) kv key ek hk [(.bytes [], [])] (by simp [bytesOf])
  refine ⟨_, _, h1, h2, ?_⟩
  obtain ⟨s, e, ne⟩ := C30_negation (.bytes key) key rfl hk
  rw [Hmac.new_ok _ (Or.inr rfl) _ key rfl hk] at e
  cases e
  intro he
  apply ne
  have hdig : ∀ s, hmacStep s .digest = (s, .bytes s.digest) := fun _ => rfl
  simp only [hmacOuts, hmacStep_update_some, hmacAfter, List.foldl_nil, List.foldl_cons, hdig, List.map_nil,
    List.map_cons] at he ⊢
  rw [he]

/-- `o = gosthmac.new(name, key)` with the buffer `r` as the key, `key[:] = new`, `o.update(d)`, `o.digest()`. -/
def hmacShared (C : Ctx) (name : String) (r : Nat) (new : Bytes) (d : Val) (h : Heap) : Out Val :=
  andThen (C.call "Hmac.new" [.str name, .ref r, .dict []] h) fun o h =>
    andThen (callMeth C o "update" [d] (h.set r (.bytearray new))) fun _ h => callMeth C o "digest" [] h

theorem get_set_ne {h : Heap} {a r : Nat} {x y : Obj} (e : h[a]? = some x) (ne : a ≠ r) : (h.set r y)[a]? = some x := by
  rw [List.getElem?_set_ne (Ne.symm ne)]
  exact e

theorem bytesOf_write {h : Heap} {v : Val} {r : Nat} {b new : Bytes} (e : bytesOf v h = some b) (ne : v ≠ .ref r) :
    bytesOf v (h.set r (.bytearray new)) = some b := by
  rw [bytesOf_set_ne _ ne]
  exact e

/-- C111, the key of an HMAC object (C31): a key of 64 bytes in a buffer is not copied. If the caller changes the
buffer after `new`, then the code is the one of the changed key. The two keys which are left out are the initial values
of the hash: the proof tells the buffers of the object from the key by their contents. -/
theorem C111_hmac_key (L n : Nat) (h : Heap) (name : String) (hn : IsHmacName name) (r : Nat) (key new d : Bytes) (v : Val)
    (ek : h[r]? = some (.bytearray key)) (hl : key.length = 64) (hl' : new.length = 64) (h0 : key ≠ List.replicate 64 0)
    (h1 : key ≠ List.replicate 64 1) (ev : bytesOf v h = some d) (hv : v ≠ .ref r) :
    NewBytes (hmacShared (ctx L (n + 8)) name r new v h) (h.set r (.bytearray new))
      (hmac (hashOf (hmacHash name)) new d) := by
  have ek' : bytesOf (.ref r) h = some key := by simp [bytesOf, ek]
  have hr0 : r < h.length := get_lt ek
  obtain ⟨h', me, hr, kv', f, ⟨l, rfl⟩, hm, hm', hkv, q⟩ := (((C98_new L n h []).2 name hn).2 (.ref r) key ek' (by omega)).2 []
    (Or.inl ⟨rfl, rfl⟩)
  rw [if_pos rfl] at q
  have : kv' = .ref r := by
    rcases hkv with ⟨-, e⟩ | ⟨e, -⟩
    · exact e
    · omega
  subst this
  obtain ⟨o, g, -, ⟨o', c, ha, ho'⟩, ho⟩ := q
  have ek1 : (h ++ l)[r]? = some (.bytearray key) := by rw [List.getElem?_append_left hr0]; exact ek
  have ek2 : bytesOf (.ref r) (h ++ l) = some key := by simp only [bytesOf, ek1]
  have ne : ∀ {a : Nat} {b : Bytes}, bytesOf (.ref a) (h ++ l) = some b → key ≠ b → Val.ref a ≠ .ref r := by
    intro a b e h1 h2
    rw [h2, ek2] at e
    exact h1 (Option.some.inj e)
  have hh : (h ++ l).set r (.bytearray new) = h.set r (.bytearray new) ++ l := by rw [List.set_append_left _ _ hr0]
  have q' : IsHmac ⟨hmacKey new, HashObj.hashInit (hmacHash name), 0⟩ me hr ((h ++ l).set r (.bytearray new)) := by
    refine ⟨.ref r, o, get_set_ne g (by omega), ?_, ⟨o', c, ⟨get_set_ne ha.obj (by omega), ?_, ?_, ?_, ?_, ha.lh, ha.ln, ha.ls⟩,
      get_set_ne ho' ?_⟩, get_set_ne ho ?_⟩
    · rw [bytesOf_set_same _ (by rw [List.length_append]; omega)]
      unfold hmacKey
      simp [hl']
    · exact bytesOf_write ha.bb (ne ha.bb (by intro e; rw [e] at hl; cases hl))
    · refine bytesOf_write ha.bh (ne ha.bh ?_)
      unfold HashObj.hashInit
      split <;> assumption
    · exact bytesOf_write ha.bn (ne ha.bn h0)
    · exact bytesOf_write ha.bs (ne ha.bs h0)
    · rintro rfl
      unfold Streebog.OidAt at ho'
      rw [ek1] at ho'
      cases ho'
    · rintro rfl
      unfold Streebog.OidAt at ho
      rw [ek1] at ho
      cases ho
  rw [hh] at q'
  have ev' : bytesOf v (h.set r (.bytearray new) ++ l) = some d :=
    Ext.bytesOf ⟨l, rfl⟩ (bytesOf_write ev hv)
  obtain ⟨h4, f4, k4, r4⟩ := (C98_methods L n _ _ me hr q').1 v d ev'
  obtain ⟨w, l', f', hw, b⟩ := (C98_methods L n _ _ me hr r4).2.2.1.elim
  have x : Ext (h.set r (.bytearray new)) h4 := by
    refine (((Keeps.refl [me, hr] (h.set r (.bytearray new))).add l).trans k4 |>.mono (by simp; omega)).ext
  unfold hmacShared
  rw [show (ctx L (n + 8)).call = call package L (n + 8) from rfl, f, andThen_ok, hh, f4, andThen_ok, f']
  rw [← hmac_one_update name new (by omega) d]
  exact .intro (x.add _) (Nat.le_trans x.length hw) b

/-! ### Attributes which are not copied -/

/-- `v[:] = b`, for a value `v` which is a byte array. -/
def overwrite (v : Val) (b : Bytes) (h : Heap) : Heap :=
  match v with
  | .ref r => h.set r (.bytearray b)
  | _ => h

/-- `o = gostcipher.new(alg, key, MODE_CTR, init_vect=iv)`, `c = o.counter`, `c[:] = b`, `o.encrypt(data)`. -/
def ctrShared (C : Ctx) (alg : String) (kv iv : Val) (b : Bytes) (data : Val) (h : Heap) : Out Val :=
  andThen (C.call "Modes.new" [.str alg, kv, .int modeCtr, .dict [("init_vect", iv)]] h) fun o h =>
    andThen (getAttr C o "counter" h) fun c h => callMeth C o "encrypt" [data] (overwrite c b h)

/-- C111, the counter (C49): what the caller writes to the array which `counter` returned is the next counter block, for
every key, every initialisation vector and every block. -/
theorem C111_ctr_counter (L n : Nat) (h : Heap) (a : Alg) (kv ivv v : Val) (key iv b x : Bytes) (ek : bytesOf kv h = some key)
    (hl : key.length = 32) (ei : bytesOf ivv h = some iv) (hi : iv.length = a.blockSize / 2) (hb : b.length = a.blockSize)
    (ev : bytesOf v h = some x) (hx : x.length = a.blockSize) :
    NewBytes (ctrShared (ctx L (n + 9)) a.name kv ivv b v h) h (xor x (a.encrypt key b)) := by
  obtain ⟨o, D, e, hg, hs, hI⟩ := new_ctr a (pyVal kv h) (pyVal ivv h) key iv ((pyVal_data kv h).trans ek) hl
    ((pyVal_data ivv h).trans ei) hi none none
  have := C101_new L (n + 1) h a.name kv (known_bytes ek) modeCtr [("init_vect", ivv)] _ _ _ (kwIv ei)
  rw [e] at this
  obtain ⟨me, P, h1, f, ⟨l, rfl⟩, hm, hP, r⟩ := this
  obtain ⟨-, -, -, hc⟩ := C101_properties L n _ _ me P r
  obtain ⟨ct', hct, g, -⟩ := hc _ rfl
  obtain ⟨cr, kr, i0, ct, q, rfl⟩ := r
  have : ct' = ct := by
    have h2 := counter_ok L (n + 8) q
    obtain ⟨o, l, g', -⟩ := q.mode.get
    rw [show getAttr (ctx L (n + 9)) (.ref me) "counter" _ = ok (.ref ct) _ by py [g']; exact h2] at g
    injection g with g _
    injection g with g
    injection g with g
    exact g.symm
  subst this
  have hlt : h.length ≤ ct' := hP _ hct
  have hlt' : ct' < (h ++ l).length := get_lt q.count
  have q' := q.step (h' := (h ++ l).set ct' (.bytearray b)) ((Frame.refl _ _).set (by simp) _) (List.getElem?_set_self hlt') (hb.trans hs.symm)
  have ev' : bytesOf v ((h ++ l).set ct' (.bytearray b)) = some x := by
    refine bytesOf_write (Ext.bytesOf ⟨l, rfl⟩ ev) ?_
    rintro rfl
    have : ct' < h.length := known_bytes ev ct' rfl
    omega
  have hk := known_bytes ev
  have hm' := (C101_methods L n _ (.ctr _) trivial me [ct', kr] ⟨cr, kr, i0, ct', q', rfl⟩ v (known_bytes ev') (by
    rintro p hp rfl
    have := hk p rfl
    have := hP p hp
    omega)).1
  have he := Ctr.encrypt_stream ⟨o, iv, b⟩ hI (hb.trans hs.symm) (pyVal v ((h ++ l).set ct' (.bytearray b))) x
    ((pyVal_data v _).trans ev')
  have h0 : 0 < a.blockSize := by cases a <;> decide
  have e1 : (x.length + o.blockSize - 1) / o.blockSize = 1 := by
    rw [hx, hs]
    exact Nat.div_eq_of_lt_le (by omega) (by omega)
  have e2 : ctrStream (a.encrypt key) b 1 = a.encrypt key b := by simp [ctrStream, ctrAt]
  unfold Method encryptOf at hm'
  simp only [Prod.map] at hm'
  rw [he] at hm'
  simp only [e1, e2, id] at hm'
  obtain ⟨w, h2, f2, fr, hw, bw, -⟩ := hm'
  have x2 : Ext h h2 := by
    refine Frame.ext (((((Frame.refl [] h).add l).setNew hlt (.bytearray b)).then fr) fun r hr => Or.inr (hP r hr))
  unfold ctrShared
  rw [show (ctx L (n + 9)).call = call package L (n + 9) from rfl, f, andThen_ok, g, andThen_ok, overwrite, f2]
  exact .intro x2 (Nat.le_trans (by simp) hw) bw

/-- C111, the counter as a result (C49, C131): the array which `counter` returned goes on counting. When it is read it
holds the vector and zeros; after a message of `m` blocks the same array has `m` in its last byte, so it is another value
unless `m` is a multiple of 256. -/
theorem C111_counter_later (L n : Nat) (h : Heap) (a : Alg) (kv ivv v : Val) (key iv x : Bytes) (ek : bytesOf kv h = some key)
    (hl : key.length = 32) (ei : bytesOf ivv h = some iv) (hi : iv.length = a.blockSize / 2) (ev : bytesOf v h = some x) :
    ∃ o c w h1 h2, (ctx L (n + 9)).call "Modes.new" [.str a.name, kv, .int modeCtr, .dict [("init_vect", ivv)]] h = ok o h1 ∧
      getAttr (ctx L (n + 9)) o "counter" h1 = ok c h1 ∧
      bytesOf c h1 = some (iv ++ List.replicate (a.blockSize / 2) 0) ∧
      callMeth (ctx L (n + 9)) o "encrypt" [v] h1 = ok w h2 ∧
      bytesOf c h2 = some (iv ++ List.replicate (a.blockSize / 2 - 1) 0 ++
        [UInt8.ofNat ((x.length + a.blockSize - 1) / a.blockSize)]) ∧
      (bytesOf c h2 = bytesOf c h1 ↔ (x.length + a.blockSize - 1) / a.blockSize % 256 = 0) := by
  obtain ⟨o, D, e, hg, hs, hI⟩ := new_ctr a (pyVal kv h) (pyVal ivv h) key iv ((pyVal_data kv h).trans ek) hl
    ((pyVal_data ivv h).trans ei) hi none none
  have := C101_new L (n + 1) h a.name kv (known_bytes ek) modeCtr [("init_vect", ivv)] _ _ _ (kwIv ei)
  rw [e] at this
  obtain ⟨me, P, h1, f, ⟨l, rfl⟩, hm, hP, cr, kr, i0, ct, q, rfl⟩ := this
  have h2 := counter_ok L (n + 8) q
  obtain ⟨o', l', g', -⟩ := id q.mode.get
  have g : getAttr (ctx L (n + 9)) (.ref me) "counter" (h ++ l) = ok (.ref ct) (h ++ l) := by py [g']; exact h2
  have ev' : bytesOf v (h ++ l) = some x := Ext.bytesOf ⟨l, rfl⟩ ev
  have hk := known_bytes ev
  have hct : h.length ≤ ct := hP ct (by simp)
  have hm' := ctr_encrypt L (n + 2) q (known_bytes ev') (by
    rintro rfl
    have := hk ct rfl
    omega)
  have he := Ctr.encrypt_stream ⟨o, iv, ctr0 a.blockSize iv⟩ hI q.len (pyVal v (h ++ l)) x ((pyVal_data v _).trans ev')
  unfold Method at hm'
  rw [he] at hm'
  obtain ⟨w, h3, f2, -, -, -, q2⟩ := hm'
  have c1 := q.bytes
  have c2 := q2.bytes
  simp only [Ctr.withCtr, hs, ctrAt_ctr0] at c2
  refine ⟨.ref me, .ref ct, .ref w, h ++ l, h3, f, g, c1, ?_, c2, ?_⟩
  · rw [← f2]
    py [g']
  · rw [c1, c2, ← ctrAt_ctr0, show ctr0 a.blockSize iv = ctrAt (ctr0 a.blockSize iv) 0 from rfl, ctrAt_add, Nat.zero_add,
      ctrAt_ctr0, ctrAt_ctr0, Option.some.injEq, codeCtr_eq_iff]

/-- `o = gostpbkdf.new(password, salt=salt, counter=it)`, `s = o.salt`, `s[:] = b`, `o.derive(dk)`. -/
def pbkdfShared (C : Ctx) (pv sv : Val) (it : Nat) (b : Bytes) (dk : Nat) (h : Heap) : Out Val :=
  andThen (C.call "Pbkdf.new" [pv, .dict [("salt", sv), ("counter", .int it)]] h) fun o h =>
    andThen (getAttr C o "salt" h) fun s h => callMeth C o "derive" [.int dk] (overwrite s b h)

/-- C111, the salt (C49): what the caller writes to the array which `salt` returned is the salt of the keys derived
later. The proof tells the array from the other ones of the object by its contents. -/
theorem C111_pbkdf_salt (L n : Nat) (h : Heap) (pv sv : Val) (pw salt b : Bytes) (it dk : Nat) (ep : bytesOf pv h = some pw)
    (hp : pw.length ≤ 64) (es : bytesOf sv h = some salt) (h0 : salt ≠ []) (h1 : salt ≠ pw) (h2 : salt.length ≠ 64)
    (hd : dk ≤ (2 ^ 32 - 1) * 64) :
    ∃ w h', pbkdfShared (ctx L (n + 11)) pv sv it b dk h = ok (.ref w) h' ∧ h.length ≤ w ∧
      bytesOf (.ref w) h' = some (pbkdf2 (hmac512 pw) b it dk) := by
  obtain ⟨h3, r, c, f, ⟨l, rfl⟩, hr, hm, hh, q⟩ := ((((C99_new L (n + 2) h [("salt", sv), ("counter", .int it)]).2 pv pw ep).2
    it (Or.inr rfl)).1 sv salt rfl es h0).2 hp
  obtain ⟨-, -, -, g, -⟩ := C99_methods L n _ _ r c q
  have hs : bytesOf (.ref c.salt) (h ++ l) = some salt := q.salt
  have ne : ∀ {v : Val} {x : Bytes}, bytesOf v (h ++ l) = some x → x ≠ salt → v ≠ .ref c.salt := by
    rintro v x e e1 rfl
    rw [hs] at e
    exact e1 (Option.some.inj e).symm
  have nc : ∀ {a : Nat} {cls : String} {as : List (String × Val)}, (h ++ l)[a]? = some (.inst cls as) → a ≠ c.salt := by
    rintro a cls as e rfl
    simp [bytesOf, e] at hs
  have hlt : c.salt < (h ++ l).length := known_bytes hs _ rfl
  have q' : PbkdfAt { pbkdfInit pw salt it with salt := b } r c ((h ++ l).set c.salt (.bytearray b)) := by
    refine ⟨get_set_ne q.obj (nc q.obj), bytesOf_write q.pw (ne q.pw (Ne.symm h1)), bytesOf_set_same _ hlt, ?_⟩
    obtain ⟨kv, o, go, gk, ⟨o', c', ha, ho'⟩, ho⟩ := q.hmac
    refine ⟨kv, o, get_set_ne go (nc go), bytesOf_write gk (ne gk ?_), ⟨o', c', ⟨get_set_ne ha.obj (nc ha.obj),
      bytesOf_write ha.bb (ne ha.bb ?_), bytesOf_write ha.bh (ne ha.bh ?_), bytesOf_write ha.bn (ne ha.bn ?_),
      bytesOf_write ha.bs (ne ha.bs ?_), ha.lh, ha.ln, ha.ls⟩, get_set_ne ho' (nc ho')⟩, get_set_ne ho (nc ho)⟩
    · intro e
      apply h2
      rw [← e]
      exact hmacKey_length pw hp
    · exact fun e => h0 e.symm
    · intro e
      exact h2 (e ▸ ha.lh)
    · intro e
      exact h2 (e ▸ ha.ln)
    · intro e
      exact h2 (e ▸ ha.ls)
  obtain ⟨h', w, nb, f', k, hw, hb, -, -⟩ := derive_std L n q' (pw := pw) (salt := b) (it := it) ⟨rfl, by
    show ((it : Int) - 1).toNat = _
    omega, rfl, rfl⟩ hp dk hd
  refine ⟨w, h', ?_, ?_, hb⟩
  · unfold pbkdfShared
    rw [show (ctx L (n + 11)).call = call package L (n + 2 + 9) from rfl, f, andThen_ok, g, andThen_ok, overwrite, f']
  · simp at hw
    omega

/-! ### The random number generator -/

/-- `k` calls of `o.random()`, the first exception ends the program. -/
def randomAll (C : Ctx) (o : Val) : Nat → Heap → Out Val
  | 0, h => ok .none h
  | k + 1, h => andThen (callMeth C o "random" [] h) fun _ h => randomAll C o k h

/-- The attribute `x` of the object `o` in the memory `h`. -/
def fieldOf (x : String) (o : Val) (h : Heap) : Option Val :=
  match o with
  | .ref r => match h[r]? with
    | some (.inst _ l) => findAttr x l
    | _ => none
  | _ => none

theorem random_all (L n me hr : Nat) (k : Nat) : ∀ (s : Rand) (u : Nat) (h : Heap), RandAt s me u hr h →
    s.q.toNat < L → (∀ r ∈ randoms k s, ∃ b, r = .ok b) →
    ∃ u' h', randomAll (ctx L (n + 8)) (.ref me) k h = ok .none h' ∧ RandAt (afterRandoms k s) me u' hr h' := by
  induction k with
  | zero => intro s u h r _ _; exact ⟨u, h, rfl, r⟩
  | succ k ih =>
    intro s u h r hL hall
    have hq : s.random.1.q.toNat < L := by rw [random_q]; exact hL
    obtain ⟨b, hb⟩ := hall _ List.mem_cons_self
    obtain ⟨h', w, u', f, -, -, -, r'⟩ := ((C100_methods L n h s me u hr r).1 hL).1 b hb
    obtain ⟨u2, h2, f2, r2⟩ := ih _ u' h' r' hq fun r hr => hall r (List.mem_cons_of_mem _ hr)
    exact ⟨u2, h2, by rw [randomAll, f, andThen_ok, f2], r2⟩

/-- C111, the number of calls (C37): for every seed of at most 63 bytes, 256^(63-length) calls of `random` for 64 bytes
succeed, and the first bytes of the register are then the seed incremented by one: another seed, from which the
generator goes on. -/
theorem C111_random_limit (L n : Nat) (h : Heap) (kv : Val) (seed : Bytes) (e : bytesOf kv h = some seed)
    (hz : beNat seed ≠ 0) (hs : seed.length ≤ 63) (hL : 1 < L) :
    ∃ o h1 h2 uv u, call package L (n + 8) "Random.new" [.int 64, .dict [("rand_k", kv), ("size_s", .int seed.length)]] h =
        ok o h1 ∧ randomAll (ctx L (n + 8)) o (256 ^ (63 - seed.length)) h1 = ok .none h2 ∧
      fieldOf "_rand_u" o h2 = some uv ∧ bytesOf uv h2 = some u ∧
      beNat (u.take seed.length) = (beNat seed + 1) % 256 ^ seed.length ∧ u.take seed.length ≠ seed := by
  have hne : seed ≠ [] := by rintro rfl; exact hz rfl
  obtain ⟨h', r, u, hr, f, x, -, -, q⟩ := (((C100_new L n h [("rand_k", kv), ("size_s", .int seed.length)] seed.length
    (Or.inr rfl)).2 (by omega) 64 seed rfl).1 kv rfl e hne)
  obtain ⟨o1, o2⟩ := C37_overflow seed hz hs
  obtain ⟨u', h2, f2, r2⟩ := random_all L n r hr _ _ u h' q hL o1
  refine ⟨.ref r, h', h2, .ref u', _, f, f2, ?_, r2.reg, o2, ?_⟩
  · unfold fieldOf
    simp only [r2.obj]
    rfl
  · intro he
    rw [he] at o2
    have hlt := beNat_lt seed
    by_cases hc : beNat seed + 1 < 256 ^ seed.length
    · rw [Nat.mod_eq_of_lt hc] at o2; omega
    · rw [show beNat seed + 1 = 256 ^ seed.length by omega, Nat.mod_self] at o2
      exact hz o2

/-! ### Memory -/

/-- `k` calls of `o.clear()`. -/
def clears (C : Ctx) (o : Val) : Nat → Heap → Out Val
  | 0, h => ok .none h
  | k + 1, h => andThen (callMeth C o "clear" [] h) fun _ h => clears C o k h

theorem hmac_clears (L n me hr : Nat) (k : Nat) : ∀ (s : Gost.Hmac) (h : Heap), IsHmac s me hr h →
    ∃ s' h', clears (ctx L (n + 8)) (.ref me) k h = ok .none h' ∧ IsHmac s' me hr h' ∧
      s'.key.length = s.key.length * 4 ^ k := by
  induction k with
  | zero => intro s h r; exact ⟨s, h, rfl, r, by simp⟩
  | succ k ih =>
    intro s h r
    obtain ⟨h', f, -, r'⟩ := (C98_methods L n h s me hr r).2.2.2.2.2.1
    obtain ⟨s2, h2, f2, r2, e⟩ := ih _ h' r'
    refine ⟨s2, h2, by rw [clears, f, andThen_ok, f2], r2, ?_⟩
    rw [e, show s.clear.key = zeroFill s.key from rfl, zeroFill_length, Nat.pow_succ']
    ac_rfl

/-- C111, memory, HMAC (C81): after `k` calls of `clear` the key of the object has 64 · 4^k bytes. -/
theorem C111_growth_hmac (L n : Nat) (h : Heap) (name : String) (hn : IsHmacName name) (kv : Val) (key : Bytes)
    (ek : bytesOf kv h = some key) (hk : key.length ≤ 64) (k : Nat) :
    ∃ o h1 h2 v b, call package L (n + 8) "Hmac.new" [.str name, kv, .dict []] h = ok o h1 ∧
      clears (ctx L (n + 8)) o k h1 = ok .none h2 ∧ fieldOf "_key" o h2 = some v ∧ bytesOf v h2 = some b ∧
      b.length = 64 * 4 ^ k := by
  obtain ⟨h1, r, hr, kv', f, -, -, -, -, q⟩ := (((C98_new L n h []).2 name hn).2 kv key ek hk).2 [] (Or.inl ⟨rfl, rfl⟩)
  rw [if_pos rfl] at q
  obtain ⟨s', h2, f2, ⟨v, o, g, b, -⟩, e⟩ := hmac_clears L n r hr k _ h1 ⟨_, q⟩
  refine ⟨.ref r, h1, h2, v, _, f, f2, ?_, b, ?_⟩
  · unfold fieldOf
    simp only [g]
    rfl
  · rw [e, show (⟨hmacKey key, HashObj.hashInit (hmacHash name), 0⟩ : Gost.Hmac).key = hmacKey key from rfl,
      hmacKey_length key hk]

theorem cipher_clears (L n me : Nat) (P : List Nat) (k : Nat) : ∀ (c : Cipher) (h : Heap), IsCipher c me P h →
    ∃ h', clears (ctx L (n + 9)) (.ref me) k h = ok .none h' ∧ IsCipher ((List.replicate k ()).foldl (fun c _ => c.clear) c) me P h' := by
  induction k with
  | zero => intro c h r; exact ⟨h, rfl, r⟩
  | succ k ih =>
    intro c h r
    obtain ⟨h', f, -, r'⟩ := C101_clear L n h c me P r
    obtain ⟨h2, f2, r2⟩ := ih _ h' r'
    exact ⟨h2, by rw [clears, f, andThen_ok, f2], r2⟩

/-- The round keys of the object `me`: attribute `_cipher_iter_key` of the attribute `_cipher_obj`. -/
theorem cipher_keys {c : Cipher} {me : Nat} {P : List Nat} {h : Heap} (r : IsCipher c me P h) :
    ∃ cv kr vs, fieldOf "_cipher_obj" (.ref me) h = some cv ∧ fieldOf "_cipher_iter_key" cv h = some (.ref kr) ∧
      h[kr]? = some (.list vs) ∧ BytesList vs h (CipherObj.keys c.obj) := by
  have aux : ∀ {cls : String} {o : CipherObj} {cr kr : Nat} {W : List Nat} {tl : List (String × Val)},
      ModeAt cls o me cr kr W tl h →
      ∃ cv kr vs, fieldOf "_cipher_obj" (.ref me) h = some cv ∧ fieldOf "_cipher_iter_key" cv h = some (.ref kr) ∧
        h[kr]? = some (.list vs) ∧ BytesList vs h (CipherObj.keys o) := by
    intro cls o cr kr W tl a
    obtain ⟨m, o1, h1, ho, o', h2⟩ := a
    obtain ⟨vs, h3, h4, -⟩ := h2.keys
    obtain ⟨k, h5, -⟩ := h2.obj
    refine ⟨.ref cr, kr, vs, ?_, ?_, h3, h4⟩
    · unfold fieldOf
      simp only [h1]
      rfl
    · unfold fieldOf
      simp only [h5]
      exact cipherAttrs_key _ _ _ _
  cases c with
  | ecb s => obtain ⟨cr, kr, a, -⟩ := r; exact aux a
  | cbc s => obtain ⟨cr, kr, iv, a, -⟩ := r; exact aux a.mode
  | cfb s => obtain ⟨cr, kr, iv, a, -⟩ := r; exact aux a.mode
  | ofb s => obtain ⟨cr, kr, iv, a, -⟩ := r; exact aux a.mode
  | ctr s => obtain ⟨cr, kr, i0, ct, a, -⟩ := r; exact aux a.mode
  | mac s => obtain ⟨cr, kr, x, a, -⟩ := r; exact aux a.mode

/-- C111, memory, ciphers (C81): after `k` calls of `clear` the round keys of an object of any mode have 4^k times as
many bytes as at first. -/
theorem C111_growth_cipher (L n : Nat) (h : Heap) (a : Alg) (kv : Val) (hk : Known kv h) (mode : Int)
    (l : List (String × Val)) {p : Option Int} {iv dat : Option PyVal} (kw : KwArgs l h p iv dat) {c : Cipher}
    (e : newCipher a.name (pyVal kv h) mode p iv dat = .ok c) (k : Nat) :
    ∃ o h1 h2 cv kr vs, ∃ ks : List Bytes, call package L (n + 9) "Modes.new" [.str a.name, kv, .int mode, .dict l] h = ok o h1 ∧
      clears (ctx L (n + 9)) o k h1 = ok .none h2 ∧ fieldOf "_cipher_obj" o h2 = some cv ∧
      fieldOf "_cipher_iter_key" cv h2 = some (.ref kr) ∧ h2[kr]? = some (.list vs) ∧
      vs.map (bytesOf · h2) = ks.map some ∧ ks.flatten.length = Spec.roundKeyBytes a * 4 ^ k := by
  have := C101_new L (n + 1) h a.name kv hk mode l p iv dat kw
  rw [e] at this
  obtain ⟨me, P, h1, f, -, -, -, r⟩ := this
  obtain ⟨h2, f2, r2⟩ := cipher_clears L n me P k c h1 r
  obtain ⟨cv, kr, vs, g1, g2, g3, g4⟩ := cipher_keys r2
  refine ⟨.ref me, h1, h2, cv, kr, vs, CipherObj.keys _, f, f2, g1, g2, g3, g4, ?_⟩
  obtain ⟨a', ha, hb⟩ := C81_cipher e
  have : a' = a := by cases a <;> cases a' <;> first | rfl | exact absurd ha (by decide)
  subst this
  have hb := hb (List.replicate k .clear)
  have e1 : erasures c (List.replicate k .clear) = k := by
    unfold erasures
    rw [List.filter_eq_self.2 (by
      intro x hx
      rw [(List.mem_replicate.1 hx).2]
      cases c <;> rfl), List.length_replicate]
  have e2 : ∀ (k : Nat) (c : Cipher), (List.replicate k MethodCall.clear).foldl Cipher.after c =
      (List.replicate k ()).foldl (fun c _ => c.clear) c := by
    intro k
    induction k with
    | zero => intro c; rfl
    | succ k ih =>
      intro c
      rw [List.replicate_succ, List.replicate_succ, List.foldl_cons, List.foldl_cons, ih]
      cases c <;> rfl
  have e3 : ∀ o : CipherObj, o.keyBytes = (CipherObj.keys o).flatten.length := by intro o; cases o <;> rfl
  rw [e1, e2, e3] at hb
  exact hb

/-! ### Object identifiers -/

/-- C111, names (C88): two strings for the same identifier, which `digit` reads as the same numbers, have different
names: with a leading zero the name is empty. -/
theorem C111_oid_name (L n : Nat) {me me' : Nat} {h : Heap} (o : Streebog.OidAt "1.2.643.7.1" me h)
    (o' : Streebog.OidAt "01.2.643.7.1" me' h) :
    (∃ h', call package L (n + 1) "ObjectIdentifier.digit" [.ref me] h = ok (.tuple [.int 1, .int 2, .int 643, .int 7, .int 1]) h') ∧
    (∃ h', call package L (n + 1) "ObjectIdentifier.digit" [.ref me'] h = ok (.tuple [.int 1, .int 2, .int 643, .int 7, .int 1]) h') ∧
    call package L (n + 1) "ObjectIdentifier.name" [.ref me] h = ok (.str "id-tc26") h ∧
    call package L (n + 1) "ObjectIdentifier.name" [.ref me'] h = ok (.str "") h := by
  have d := OidSrc.digit_ok L n o
  have d' := OidSrc.digit_ok L n o'
  rw [show Oid.digit "1.2.643.7.1".toList = .ok [1, 2, 643, 7, 1] by decide +kernel] at d
  rw [show Oid.digit "01.2.643.7.1".toList = .ok [1, 2, 643, 7, 1] by decide +kernel] at d'
  obtain ⟨l, d⟩ := d
  obtain ⟨l', d'⟩ := d'
  refine ⟨⟨_, d⟩, ⟨_, d'⟩, ?_, ?_⟩
  · rw [OidSrc.name_ok L n o, show Oid.name "1.2.643.7.1".toList = "id-tc26" by decide +kernel]
  · rw [OidSrc.name_ok L n o', show Oid.name "01.2.643.7.1".toList = "" by decide +kernel]

/-- C111, names of curves (C68): the table of curves has the key `id-tc26-gost-3410-2012-256-paramSetB`, and no string
makes an object identifier whose name this is. -/
theorem C111_curve_names (L n : Nat) (h : Heap) :
    (∃ T l d, evalTable (ctx L (n + 1)) Signature.curves h = ok T (h ++ l) ∧
      findAttr "id-tc26-gost-3410-2012-256-paramSetB" T = some (.dict d)) ∧
    ∀ s : String, ∃ o h1 x, instantiate (ctx L (n + 1)) "ObjectIdentifier" [.str s] h = ok o h1 ∧
      call package L (n + 1) "ObjectIdentifier.name" [o] h1 = ok (.str x) h1 ∧
      x ≠ "id-tc26-gost-3410-2012-256-paramSetB" := by
  constructor
  · obtain ⟨T, l, e, -, ht⟩ := C104_table L n h
    obtain ⟨d, hd, -⟩ := ht ("id-tc26-gost-3410-2012-256-paramSetB", Curves.c256B) List.mem_cons_self
    exact ⟨T, l, d, e, hd⟩
  · intro s
    obtain ⟨h1, f, -, o⟩ := C103_new L n s h
    refine ⟨_, h1, _, f, OidSrc.name_ok L n o, fun he => ?_⟩
    obtain ⟨p, hp, hp1, hp2⟩ := ((C88_exact s.toList).1 _ (by decide)).1 he
    have := (C68_registered_partial "id-tc26-gost-3410-2012-256-paramSetB" Curves.c256B List.mem_cons_self).1
      ⟨p.1, List.mem_map.2 ⟨p, hp, rfl⟩, by rw [hp1]; exact he⟩
    revert this
    decide

/-! Values which meet the hypotheses. -/

/-- A memory with a key of 64 bytes, a block of 16 bytes, eight bytes and two identifiers. -/
def exHeap : Heap :=
  [.bytearray (Ex.count 1 64), .bytearray (Ex.count 1 16), .bytearray (Ex.count 1 8),
    .inst "ObjectIdentifier" [("_oid_str", .str "1.2.643.7.1")],
    .inst "ObjectIdentifier" [("_oid_str", .str "01.2.643.7.1")], .bytearray Ex.key]

example : bytesOf (.ref 5) exHeap = some Ex.key ∧ Ex.key.length = 32 ∧
    bytesOf (.ref 1) exHeap = some (Ex.count 1 16) ∧ Alg.kuznechik.blockSize ≤ (Ex.count 1 16).length ∧
    bytesOf (.bytes [1, 2, 3]) exHeap = some [1, 2, 3] ∧
    (Ex.count 1 16).length % Alg.kuznechik.blockSize + [1, 2, 3].length < Alg.kuznechik.blockSize ∧
    Alg.kuznechik.blockSize ∣ (Ex.count 1 16).length ∧ Ex.count 1 16 ≠ [] := by decide +kernel

example : exHeap[0]? = some (.bytearray (Ex.count 1 64)) ∧ (Ex.count 1 64).length = 64 ∧
    (List.replicate 64 (7 : UInt8)).length = 64 ∧ Ex.count 1 64 ≠ List.replicate 64 0 ∧
    Ex.count 1 64 ≠ List.replicate 64 1 ∧ bytesOf (.ref 1) exHeap = some (Ex.count 1 16) ∧ Val.ref 1 ≠ .ref 0 :=
  ⟨rfl, by decide, by decide, by decide +kernel, by decide +kernel, rfl, by simp⟩

example : bytesOf (.ref 2) exHeap = some (Ex.count 1 8) ∧ (Ex.count 1 8).length = Alg.kuznechik.blockSize / 2 ∧
    (List.replicate 16 (7 : UInt8)).length = Alg.kuznechik.blockSize ∧
    (Ex.count 1 16).length = Alg.kuznechik.blockSize := by decide +kernel

/-- One block of Kuznyechik: the array read before has changed. -/
example (L n : Nat) : ∃ o c w h1 h2,
    (ctx L (n + 9)).call "Modes.new" [.str "kuznechik", .ref 5, .int modeCtr, .dict [("init_vect", .ref 2)]] exHeap = ok o h1 ∧
      getAttr (ctx L (n + 9)) o "counter" h1 = ok c h1 ∧
      callMeth (ctx L (n + 9)) o "encrypt" [.bytes (Ex.count 1 16)] h1 = ok w h2 ∧ bytesOf c h2 ≠ bytesOf c h1 := by
  obtain ⟨o, c, w, h1, h2, f1, f2, -, f3, -, e⟩ := C111_counter_later L n exHeap .kuznechik (.ref 5) (.ref 2) (.bytes (Ex.count 1 16))
    Ex.key (Ex.count 1 8) (Ex.count 1 16) (by decide +kernel) (by decide +kernel) (by decide +kernel) (by decide +kernel) rfl
  exact ⟨o, c, w, h1, h2, f1, f2, f3, fun x => absurd (e.1 x) (by decide +kernel)⟩

example : bytesOf (.ref 2) exHeap = some (Ex.count 1 8) ∧ (Ex.count 1 8).length ≤ 64 ∧
    bytesOf (.ref 1) exHeap = some (Ex.count 1 16) ∧ Ex.count 1 16 ≠ [] ∧ Ex.count 1 16 ≠ Ex.count 1 8 ∧
    (Ex.count 1 16).length ≠ 64 := by decide +kernel

example : beNat (Ex.count 1 16) ≠ 0 ∧ (Ex.count 1 16).length ≤ 63 := by decide +kernel

example : Streebog.OidAt "1.2.643.7.1" 3 exHeap ∧ Streebog.OidAt "01.2.643.7.1" 4 exHeap := ⟨rfl, rfl⟩

/-- Two keys with different auxiliary keys. -/
example : macKey2 (Alg.magma.encrypt (List.replicate 32 0)) 8 ≠ macKey2 (Alg.magma.encrypt (List.replicate 32 1)) 8 := by
  decide +kernel

/-- The objects of `C111_growth_cipher` exist: here one of the mode ECB. -/
example (h : Heap) : ∃ c, newCipher "magma" (pyVal (.bytes (List.replicate 32 7)) h) modeEcb none none none = .ok c :=
  ⟨_, rfl⟩

end Gost.Src
