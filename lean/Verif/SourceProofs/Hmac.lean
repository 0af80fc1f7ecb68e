import Verif.SourceProofs.HashNew
import Verif.SourceProofs.Utils
import Verif.Model.Hmac

/-! `r_50_1_113_2016.py`. -/

namespace Gost.Src

open Gost.Hash

namespace HmacSrc

open Streebog

/-- The identifier of an algorithm. -/
def oidOf (hname : String) : String :=
  if hname = "streebog256" then "1.2.643.7.1.1.4.1" else "1.2.643.7.1.1.4.2"

/-- The cell `me` is the object `s`, whose hash object is the cell `hr`. -/
def HmacAt (s : Gost.Hmac) (me hr : Nat) (kv : Val) (h : Heap) : Prop :=
  ∃ o, h[me]? = some (.inst "R5011132016" [("_key", kv), ("oid", .ref o), ("_hasher_obj", .ref hr),
    ("_counter", .int s.counter)]) ∧ bytesOf kv h = some s.key ∧ IsHash s.hasher hr h ∧ OidAt (oidOf s.hasher.name) o h

/-- The cell `me` is the object `s` with the hash object `hr`. -/
def IsHmac (s : Gost.Hmac) (me hr : Nat) (h : Heap) : Prop := ∃ kv, HmacAt s me hr kv h

theorem HmacAt.ext {s : Gost.Hmac} {me hr : Nat} {kv : Val} {h h' : Heap} (r : HmacAt s me hr kv h) (x : Ext h h') :
    HmacAt s me hr kv h' := by
  obtain ⟨o, o0, bk, q, ho⟩ := r
  exact ⟨o, x.get o0, x.bytesOf bk, q.ext x, x.get ho⟩

theorem hash_update (L n : Nat) {s : HashObj} {r : Nat} {h : Heap} (q : IsHash s r h) {v : Val} {d : Bytes}
    (e : bytesOf v h = some d) :
    ∃ h', call package L (n + 5) "GOST34112012.update" [.ref r, v] h = ok .none h' ∧ Keeps [r] h h' ∧
      IsHash (s.updateBytes d) r h' := by
  obtain ⟨o, c, q, ho⟩ := q
  obtain ⟨h', c', f, k, q'⟩ := update_ok L n q e
  exact ⟨h', f, k, o, c', q', by rw [updateBytes_name]; exact oid_keeps q k ho⟩

theorem hash_obj {s : HashObj} {r : Nat} {h : Heap} (q : IsHash s r h) :
    ∃ l, h[r]? = some (.inst "GOST34112012" l) := by
  obtain ⟨o, c, q, -⟩ := q
  exact ⟨_, q.obj⟩

/-- A change of an object of another class. -/
theorem hash_keeps {s : HashObj} {r me : Nat} {h h' : Heap} {cls : String} {l : List (String × Val)}
    (q : IsHash s r h) (o : h[me]? = some (.inst cls l)) (k : Keeps [me] h h') (h1 : cls ≠ "GOST34112012")
    (h2 : cls ≠ "ObjectIdentifier") : IsHash s r h' := by
  refine q.keeps k ?_ ?_
  · obtain ⟨_, c, q, -⟩ := q
    simp only [List.mem_singleton]
    rintro rfl
    have := q.obj.symm.trans o
    simp only [Option.some.injEq, Obj.inst.injEq] at this
    exact h1 this.1.symm
  · intro w hw str ho
    simp only [List.mem_singleton] at hw
    subst hw
    have := ho.symm.trans o
    simp only [Option.some.injEq, Obj.inst.injEq] at this
    exact h2 this.1.symm

/-- An object of another class is not changed with a hash object. -/
theorem keeps_hash {s : HashObj} {r me : Nat} {h h' : Heap} {cls : String} {l : List (String × Val)}
    (q : IsHash s r h) (o : h[me]? = some (.inst cls l)) (k : Keeps [r] h h') (h1 : cls ≠ "GOST34112012") :
    h'[me]? = some (.inst cls l) := by
  refine k.get o ?_
  obtain ⟨_, c, q, -⟩ := q
  simp only [List.mem_singleton]
  rintro rfl
  have := q.obj.symm.trans o
  simp only [Option.some.injEq, Obj.inst.injEq] at this
  exact h1 this.1.symm

theorem ipad_eq : Hmac.g_I_PAD = .bytes iPad := (rfl)

theorem opad_eq : Hmac.g_O_PAD = .bytes oPad := (rfl)

theorem keeps_left {a b : Nat} {h h' : Heap} (k : Keeps [a] h h') : Keeps [a, b] h h' := k.mono (by simp)

theorem keeps_right {a b : Nat} {h h' : Heap} (k : Keeps [b] h h') : Keeps [a, b] h h' := k.mono (by simp)

theorem update_ok (L n : Nat) {s : Gost.Hmac} {me hr : Nat} {kv : Val} {h : Heap} (r : HmacAt s me hr kv h) {v : Val} {d : Bytes}
    (e : bytesOf v h = some d) :
    ∃ h', call package L (n + 6) "R5011132016.update" [.ref me, v] h = ok .none h' ∧ Keeps [me, hr] h h' ∧
      HmacAt (s.updateBytes d) me hr kv h' := by
  rw [call_succ Fn.R5011132016.update]
  obtain ⟨o, o0, bk, q, ho⟩ := r
  py [R5011132016.m_update, e, o0, arith_add_lit]
  upd o0 with H1 o1 k1 m1
  have q1 := hash_keeps q o0 k1 (by decide) (by decide)
  have ho1 : OidAt (oidOf s.hasher.name) o H1 := k1.get ho (by
    simp only [List.mem_singleton]
    rintro rfl
    simpa using ho.symm.trans o0)
  unfold Gost.Hmac.updateBytes
  by_cases hc : s.counter + 1 = 1
  · have hc' : (((s.counter + 1 : Nat) : Int) = 1) = True := by simp; omega
    rw [if_pos hc]
    simp only [hc', decide_true]
    obtain ⟨w, l, f2, hw, b2⟩ := (add_xor_ok L (n + 4) (k1.bytes bk) (show bytesOf (.bytes iPad) H1 = some iPad from rfl)).elim
    rw [ipad_eq, f2]
    py [b2, bytesOf_mono (k1.bytes e)]
    have b3 := bytesOf_last (addXor s.key iPad ++ d) (H1 ++ l)
    have x := ((Ext.refl H1).add l).add [.bytearray (addXor s.key iPad ++ d)]
    generalize (H1 ++ l ++ [.bytearray (addXor s.key iPad ++ d)]) = H2 at *
    have q2 := q1.ext x
    obtain ⟨lo, ho2⟩ := hash_obj q2
    obtain ⟨H3, f3, k3, q3⟩ := hash_update L n q2 b3
    py [ho2, f3]
    refine ⟨H3, rfl, (keeps_left (k1.trans (x.keeps _))).trans (keeps_right k3), o, keeps_hash q2 (x.get o1) k3 (by decide),
      k3.bytes (x.bytesOf (k1.bytes bk)), q3, ?_⟩
    rw [updateBytes_name]
    exact keeps_hash q2 (x.get ho1) k3 (by decide)
  · have hc' : (((s.counter + 1 : Nat) : Int) = 1) = False := by simp; omega
    rw [if_neg hc]
    simp only [hc', decide_false, Bool.not_false]
    obtain ⟨lo, ho2⟩ := hash_obj q1
    obtain ⟨H2, f2, k2, q2⟩ := hash_update L n q1 (k1.bytes e)
    py [ho2, f2]
    refine ⟨H2, rfl, (keeps_left k1).trans (keeps_right k2), o, keeps_hash q1 o1 k2 (by decide),
      k2.bytes (k1.bytes bk), q2, ?_⟩
    rw [updateBytes_name]
    exact keeps_hash q1 ho1 k2 (by decide)

theorem update_other (L n : Nat) (me : Nat) {v : Val} {h : Heap} (e : bytesOf v h = none) :
    call package L (n + 1) "R5011132016.update" [.ref me, v] h =
      fail (.raised "GOSTHMACError" "GOSTHMACError: invalid data value") h := by
  rw [call_succ Fn.R5011132016.update]
  py [R5011132016.m_update, e]

theorem hash_name (L n : Nat) {s : HashObj} {r : Nat} {h : Heap} (q : IsHash s r h) :
    call package L (n + 1) "GOST34112012.name" [.ref r] h = ok (.str s.name) h := by
  obtain ⟨o, c, q, -⟩ := q
  exact Streebog.name_ok L n q

theorem hash_digest_size (L n : Nat) {s : HashObj} {r : Nat} {h : Heap} (q : IsHash s r h) :
    call package L (n + 1) "GOST34112012.digest_size" [.ref r] h = ok (.int s.digestSize) h := by
  obtain ⟨o, c, q, -⟩ := q
  exact Streebog.digest_size_ok L n q

theorem digest_size_ok (L n : Nat) {s : Gost.Hmac} {me hr : Nat} {h : Heap} (r : IsHmac s me hr h) :
    call package L (n + 2) "R5011132016.digest_size" [.ref me] h = ok (.int s.digestSize) h := by
  rw [call_succ Fn.R5011132016.digest_size]
  obtain ⟨kv, o, o0, bk, q, ho⟩ := r
  obtain ⟨l, o1⟩ := hash_obj q
  py [R5011132016.m_digest_size, o0, o1, hash_digest_size L n q]
  rfl

theorem block_size_ok (L n : Nat) {s : Gost.Hmac} {me hr : Nat} {h : Heap} (r : IsHmac s me hr h) :
    call package L (n + 2) "R5011132016.block_size" [.ref me] h = ok (.int s.blockSize) h := by
  rw [call_succ Fn.R5011132016.block_size]
  obtain ⟨kv, o, o0, bk, q, ho⟩ := r
  obtain ⟨l, o1⟩ := hash_obj q
  py [R5011132016.m_block_size, o0, o1, Streebog.block_size_ok L n (.ref hr) h]
  rfl

theorem name_ok (L n : Nat) {s : Gost.Hmac} {me hr : Nat} {h : Heap} (r : IsHmac s me hr h) :
    call package L (n + 2) "R5011132016.name" [.ref me] h = ok (.str s.nameProp) h := by
  rw [call_succ Fn.R5011132016.name]
  obtain ⟨kv, o, o0, bk, q, ho⟩ := r
  obtain ⟨l, o1⟩ := hash_obj q
  unfold Gost.Hmac.nameProp
  by_cases hn : s.hasher.name = "streebog512"
  · py [R5011132016.m_name, o0, o1, hash_name L n q, hn, decide_true]
  · py [R5011132016.m_name, o0, o1, hash_name L n q, hn, decide_false]

theorem hash_reset (L n : Nat) {s : HashObj} {r : Nat} {h : Heap} (q : IsHash s r h) :
    ∃ h', call package L (n + 2) "GOST34112012.reset" [.ref r] h = ok .none h' ∧
      Keeps [r] h h' ∧ IsHash s.reset r h' := Streebog.reset_ok L n q

theorem digest_ok (L n : Nat) {s : Gost.Hmac} {me hr : Nat} {h : Heap} (r : IsHmac s me hr h) :
    NewBytes (call package L (n + 7) "R5011132016.digest" [.ref me] h) h s.digest := by
  rw [call_succ Fn.R5011132016.digest]
  obtain ⟨kv, o, o0, bk, q, ho⟩ := r
  obtain ⟨l, o1⟩ := hash_obj q
  have x0 := (Ext.refl h).add [.bytearray []]
  obtain ⟨H1, f1, x1, q1⟩ := (hash_new L n (h ++ [.bytearray []]) s.hasher.name (.ref h.length)).1 [] (bytesOf_last _ _)
  rw [updateBytes_nil] at q1
  have x1 := x0.trans x1
  py [R5011132016.m_digest, o0, o1, hash_name L (n + 5) q, f1, x1.get o0]
  have hne : h.length < (h ++ [Obj.bytearray []]).length := by simp
  generalize (h ++ [Obj.bytearray []]).length = me1 at *
  obtain ⟨w2, l2, f2, hw2, b2⟩ := (add_xor_ok L (n + 5) (x1.bytesOf bk) (show bytesOf (.bytes oPad) H1 = some oPad from rfl)).elim
  rw [opad_eq, f2]
  have x2 : Ext h (H1 ++ l2) := x1.add l2
  obtain ⟨w3, l3, f3, hw3, b3⟩ := (Streebog.digest_ok L n (q.ext x2)).elim
  obtain ⟨lo, o3⟩ := hash_obj q1
  py [get_mono (x1.get o0) l2, x2.get o1, f3, bytesOf_mono b2 l3, b3]
  have b4 := bytesOf_last (addXor s.key oPad ++ s.hasher.digest) (H1 ++ l2 ++ l3)
  have x4 := (((Ext.refl H1).add l2).add l3).add [.bytearray (addXor s.key oPad ++ s.hasher.digest)]
  generalize (H1 ++ l2 ++ l3 ++ [Obj.bytearray (addXor s.key oPad ++ s.hasher.digest)]) = H4 at *
  obtain ⟨H5, f5, k5, q5⟩ := hash_update L (n + 1) (q1.ext x4) b4
  obtain ⟨lo5, o5⟩ := hash_obj q5
  obtain ⟨w6, l6, f6, hw6, b6⟩ := (Streebog.digest_ok L n q5).elim
  have q6 := q5.ext ((Ext.refl H5).add l6)
  obtain ⟨H7, f7, k7, q7⟩ := Streebog.reset_ok L (n + 4) q6
  py [x4.get o3, f5, o5, f6, get_mono o5 l6, f7]
  have x5 : Ext h H5 := (((x1.trans x4).keeps []).then k5 (by simp; omega)).ext
  have x7 : Ext h H7 := (((x5.add l6).keeps []).then k7 (by simp; omega)).ext
  exact .intro x7 (Nat.le_trans x5.length hw6) (k7.bytes b6)

theorem hexdigest_ok (L n : Nat) {s : Gost.Hmac} {me hr : Nat} {h : Heap} (r : IsHmac s me hr h) :
    ∃ h', call package L (n + 8) "R5011132016.hexdigest" [.ref me] h = ok (.str (String.ofList s.hexdigest)) h' ∧
      Ext h h' := by
  rw [call_succ Fn.R5011132016.hexdigest]
  obtain ⟨v, l3, f3, hv, b⟩ := (digest_ok L n r).elim
  obtain ⟨kv, o, o0, bk, q, ho⟩ := r
  py [R5011132016.m_hexdigest, o0, f3, get_of_bytes b]
  rw [builtin_hex b]
  py []
  exact ⟨_, rfl, (Ext.refl h).add _⟩

theorem reset_ok (L n : Nat) {s : Gost.Hmac} {me hr : Nat} {h : Heap} (r : IsHmac s me hr h) :
    ∃ h', call package L (n + 3) "R5011132016.reset" [.ref me] h = ok .none h' ∧ Keeps [me, hr] h h' ∧
      IsHmac s.reset me hr h' := by
  rw [call_succ Fn.R5011132016.reset]
  obtain ⟨kv, o, o0, bk, q, ho⟩ := r
  obtain ⟨lo, o1⟩ := hash_obj q
  obtain ⟨H1, f1, k1, q1⟩ := Streebog.reset_ok L n q
  py [R5011132016.m_reset, o0, o1, f1]
  have o2 := keeps_hash q o0 k1 (by decide)
  have ho2 := keeps_hash q ho k1 (by decide)
  upd o2 with H3 o3 k3 m3
  have q3 := hash_keeps q1 o2 k3 (by decide) (by decide)
  refine ⟨H3, rfl, (keeps_right k1).trans (keeps_left k3), kv, o, o3, k3.bytes (k1.bytes bk), q3, ?_⟩
  exact k3.get ho2 (by
    simp only [List.mem_singleton]
    rintro rfl
    simpa using ho2.symm.trans o2)

theorem clear_ok (L n : Nat) {s : Gost.Hmac} {me hr : Nat} {h : Heap} (r : IsHmac s me hr h) :
    ∃ h', call package L (n + 3) "R5011132016.clear" [.ref me] h = ok .none h' ∧ Keeps [me, hr] h h' ∧
      IsHmac s.clear me hr h' := by
  rw [call_succ Fn.R5011132016.clear]
  obtain ⟨kv, o, o0, bk, q, ho⟩ := r
  obtain ⟨lo, o1⟩ := hash_obj q
  obtain ⟨H1, f1, k1, q1⟩ := Streebog.reset_ok L n q
  have o2 := keeps_hash q o0 k1 (by decide)
  have ho2 := keeps_hash q ho k1 (by decide)
  obtain ⟨w2, l2, f2, hw2, b2⟩ := (zero_fill_ok L (n + 1) (k1.bytes bk)).elim
  py [R5011132016.m_clear, o0, o1, f1, o2, f2]
  upd (get_mono o2 _) with H3 o3 k3 m3
  have q3 := hash_keeps (q1.ext ((Ext.refl H1).add l2)) (get_mono o2 _) k3 (by decide) (by decide)
  refine ⟨H3, rfl, (keeps_right (k1.add l2)).trans (keeps_left k3), .ref w2, o, o3, k3.bytes b2, q3, ?_⟩
  exact k3.get (get_mono ho2 _) (by
    simp only [List.mem_singleton]
    rintro rfl
    simpa using ho2.symm.trans o2)

theorem copy_key (m : Nat) {kv : Val} {h : Heap} {b : Bytes} (e : bytesOf kv h = some b) :
    ∃ kv' l, copyVal (m + 1) kv h = ok kv' (h ++ l) ∧ bytesOf kv' (h ++ l) = some b := by
  cases kv with
  | bytes x => exact ⟨.bytes x, [], by simp [copyVal], by simpa [bytesOf] using e⟩
  | ref r => exact ⟨_, _, copy_bytes m e, bytesOf_last _ _⟩
  | _ => cases e

theorem copy_ok (L n : Nat) {s : Gost.Hmac} {me hr : Nat} {h : Heap} (r : IsHmac s me hr h) :
    ∃ h' me' hr', call package L (n + 1) "R5011132016.copy" [.ref me] h = ok (.ref me') h' ∧ Ext h h' ∧
      h.length ≤ me' ∧ h.length ≤ hr' ∧ IsHmac s me' hr' h' := by
  rw [call_succ Fn.R5011132016.copy]
  obtain ⟨kv, o, o0, bk, ⟨ho, c, q, hq⟩, hh⟩ := r
  py [R5011132016.m_copy, show (ctx L n).copy = copyVal 10 from rfl]
  rw [copy_inst 9 o0]
  obtain ⟨kv', l1, a1, b1⟩ := copy_key 8 bk
  have x1 := (Ext.refl h).add l1
  have a2 := copy_oid 7 (x1.get hh)
  have b2 : OidAt (oidOf s.hasher.name) (h ++ l1).length _ := get_last (h ++ l1)
    (.inst "ObjectIdentifier" [("_oid_str", .str (oidOf s.hasher.name))])
  have x2 := x1.add [.inst "ObjectIdentifier" [("_oid_str", .str (oidOf s.hasher.name))]]
  have b1 := bytesOf_mono b1 [.inst "ObjectIdentifier" [("_oid_str", .str (oidOf s.hasher.name))]]
  have hl := x1.length
  generalize (h ++ l1).length = o' at *
  generalize h ++ l1 ++ [Obj.inst "ObjectIdentifier" [("_oid_str", .str (oidOf s.hasher.name))]] = H2 at *
  obtain ⟨hr', l3, oo, c3, a3, hm3, -, q3, hq3⟩ := copy_val 6 (q.ext x2) (x2.get hq)
  simp only [List.map_cons, List.map_nil, evalComp, a1, a2, a3, copy_int 8, andThen_ok]
  py []
  have y := (Ext.refl (H2 ++ l3)).add [.inst "R5011132016" [("_key", kv'), ("oid", .ref o'), ("_hasher_obj", .ref hr'),
    ("_counter", .int s.counter)]]
  refine ⟨_, _, hr', rfl, (x2.add l3).trans y, (x2.add l3).length, Nat.le_trans x2.length hm3, kv', o', get_last _ _,
    y.bytesOf (bytesOf_mono b1 _), IsHash.ext ⟨oo, c3, q3, hq3⟩ y, y.get (get_mono b2 _)⟩

/-- The key as it is kept. -/
def padKey (key : Bytes) : Bytes := if key.length < 64 then key ++ zeros (64 - key.length : Nat) else key

/-- A key of 64 bytes is kept as it is given, a shorter one in a new byte array. -/
def KeyRef (key : Bytes) (kv kv' : Val) (h : Heap) : Prop :=
  (key.length = 64 ∧ kv' = kv) ∨ (key.length < 64 ∧ ∃ r, kv' = .ref r ∧ h.length ≤ r)

theorem KeyRef.mono {key : Bytes} {kv kv' : Val} {h0 h : Heap} (r : KeyRef key kv kv' h) (x : h0.length ≤ h.length) :
    KeyRef key kv kv' h0 := by
  rcases r with r | ⟨hl, r, e, hr⟩
  · exact Or.inl r
  · exact Or.inr ⟨hl, r, e, Nat.le_trans x hr⟩

/-- The statements which set the key. -/
theorem set_key (L n : Nat) {me : Nat} {h : Heap} (o : h[me]? = some (.inst "R5011132016" [])) {kv : Val} {key : Bytes}
    (e : bytesOf kv h = some key) (hk : key.length ≤ 64) {env : Env} (e1 : env "self" = some (.ref me))
    (e2 : env "key" = some kv) (rest : List Stmt) :
    ∃ env' h' kv', execs (ctx L n) (.if_ (.cmp .lt (.builtin "len" [.name "key"]) (.glob "Hmac._KEY_SIZE"))
        [.assign (.name "add") (.builtin "bytearray" [.bin .sub (.glob "Hmac._KEY_SIZE")
            (.builtin "len" [.name "key"])]),
         .assign (.attr (.name "self") "_key") (.bin .add (.name "key") (.name "add")),
         .assign (.attr (.name "self") "_key") (.builtin "bytearray" [.attr (.name "self")
             "_key"])]
        [.if_ (.cmp .eq (.builtin "len" [.name "key"]) (.glob "Hmac._KEY_SIZE"))
            [.assign (.attr (.name "self") "_key") (.name "key")]
            []] ::
     .assign (.name "key") (.builtin "bytearray" [.builtin "len" [.name "key"]]) :: rest) env h =
      execs (ctx L n) rest env' h' ∧ Keeps [me] h h' ∧ h'[me]? = some (.inst "R5011132016" [("_key", kv')]) ∧
      bytesOf kv' h' = some (padKey key) ∧ KeyRef key kv kv' h ∧ env' "self" = env "self" ∧ env' "name" = env "name" ∧
      env' "data" = env "data" := by
  by_cases hl : key.length < 64
  · have hl' : ((key.length : Int) < 64) = True := by simp; omega
    have hz : (64 : Int) - key.length = ((64 - key.length : Nat) : Int) := by omega
    py [e1, e2, e, hl', decide_true, hz]
    have e0 := bytesOf_mono e [.bytearray (List.replicate (64 - key.length) 0)]
    have b0 := bytesOf_last (List.replicate (64 - key.length) 0) h
    have x0 := (Ext.refl h).add [.bytearray (List.replicate (64 - key.length) 0)]
    have hlen := x0.length
    generalize hH : h ++ [.bytearray (List.replicate (64 - key.length) 0)] = H0 at *
    have step : ∃ w l, binop .add kv (.ref h.length) H0 = ok w (H0 ++ l) ∧
        bytesOf w (H0 ++ l) = some (key ++ List.replicate (64 - key.length) 0) := by
      cases kv with
      | bytes x =>
        obtain rfl : x = key := by simpa [bytesOf] using e
        exact ⟨.bytes (x ++ List.replicate (64 - x.length) 0), [], by py [b0]; rw [List.append_nil], by simp [bytesOf]⟩
      | ref r => exact ⟨_, _, by py [b0, e0], bytesOf_last _ _⟩
      | _ => cases e
    obtain ⟨w, l, f, bw⟩ := step
    have k1 := (x0.keeps [me]).add l
    have o0 : (H0 ++ l)[me]? = _ := get_mono (x0.get o) l
    generalize H0 ++ l = H1 at *
    py [f, e1, e2]
    upd o0 with H2 o2 k2 m2
    py [e1, o2, k2.bytes bw]
    upd (get_mono o2 _) with H3 o3 k3 m3
    have k := (k1.trans (k2.add _)).trans k3
    py [e1, e2, k.bytes e]
    refine ⟨_, _, .ref H2.length, rfl, k.add _, get_mono o3 _, ?_, ?_, by py [e1], by py [], by py []⟩
    rw [padKey, if_pos hl]
    · exact bytesOf_mono (k3.bytes (bytesOf_last _ _)) _
    · exact Or.inr ⟨hl, _, rfl, by have := (k1.trans k2).length; omega⟩
  · have hl' : ((key.length : Int) < 64) = False := by simp; omega
    have hl2 : ((key.length : Int) = 64) = True := by simp; omega
    py [e1, e2, e, hl', decide_false, hl2, decide_true]
    upd o with H1 o1 k1 m1
    py [e1, e2, k1.bytes e]
    refine ⟨_, _, kv, rfl, k1.add _, get_mono o1 _, ?_, Or.inl ⟨by omega, rfl⟩, by py [e1], by py [], by py []⟩
    rw [padKey, if_neg hl]
    exact bytesOf_mono (k1.bytes e) _

/-- The statements which set the identifier, the hash object and the counter. -/
theorem set_name (L n : Nat) {me : Nat} {h : Heap} {kv : Val} {key : Bytes}
    (o : h[me]? = some (.inst "R5011132016" [("_key", kv)])) (e : bytesOf kv h = some key) {name : String}
    (hn : name = "HMAC_GOSTR3411_2012_256" ∨ name = "HMAC_GOSTR3411_2012_512")
    {env : Env} (e1 : env "self" = some (.ref me)) (e2 : env "name" = some (.str name)) (rest : List Stmt) :
    ∃ h' hr, execs (ctx L (n + 6)) (.if_ (.cmp .eq (.name "name") (.str "HMAC_GOSTR3411_2012_256"))
        [.assign (.attr (.name "self") "oid") (.new "ObjectIdentifier" [.str
            "1.2.643.7.1.1.4.1"]),
         .assign (.attr (.name "self") "_hasher_obj") (.new "GOST34112012" [.str "streebog256",
             .builtin "bytearray" [.bytes []]])]
        [.if_ (.cmp .eq (.name "name") (.str "HMAC_GOSTR3411_2012_512"))
            [.assign (.attr (.name "self") "oid") (.new "ObjectIdentifier" [.str
                "1.2.643.7.1.1.4.2"]),
             .assign (.attr (.name "self") "_hasher_obj") (.new "GOST34112012" [.str
                 "streebog512", .builtin "bytearray" [.bytes []]])]
            []] ::
     .assign (.attr (.name "self") "_counter") (.int 0) :: rest) env h =
      execs (ctx L (n + 6)) rest env h' ∧ Keeps [me] h h' ∧ h.length ≤ hr ∧
      HmacAt ⟨key, HashObj.hashInit (if name = "HMAC_GOSTR3411_2012_256" then "streebog256" else "streebog512"), 0⟩ me hr kv h' := by
  rcases hn with rfl | rfl
  · py [e1, e2, decide_true]
    upd (get_mono o _) with H1 o1 k1 m1
    have k := ((Keeps.refl [me] h).add _).trans k1
    have b1 : OidAt "1.2.643.7.1.1.4.1" h.length H1 := k1.get (get_last h _) (by
      have := get_lt o
      simp; omega)
    obtain ⟨H2, f2, x2, q2⟩ := (hash_new L n (H1 ++ [.bytearray []]) "streebog256" (.ref H1.length)).1 [] (bytesOf_last _ _)
    rw [updateBytes_nil] at q2
    have x2 := ((Ext.refl H1).add _).trans x2
    py [e1, f2]
    have hle : h.length ≤ (H1 ++ [Obj.bytearray []]).length := by simp at *; omega
    generalize (H1 ++ [Obj.bytearray []]).length = hr at *
    upd (x2.get o1) with H3 o3 k3 m3
    py [e1]
    upd o3 with H4 o4 k4 m4
    have kk := k3.trans k4
    have q4 := hash_keeps q2 (x2.get o1) kk (by decide) (by decide)
    refine ⟨H4, hr, rfl, (k.trans (x2.keeps _)).trans kk, hle, _, o4, kk.bytes (x2.bytesOf (k.bytes e)), q4, ?_⟩
    exact kk.get (x2.get b1) (by
      have := get_lt o
      simp; omega)
  · py [e1, e2, decide_true, decide_false]
    upd (get_mono o _) with H1 o1 k1 m1
    have k := ((Keeps.refl [me] h).add _).trans k1
    have b1 : OidAt "1.2.643.7.1.1.4.2" h.length H1 := k1.get (get_last h _) (by
      have := get_lt o
      simp; omega)
    obtain ⟨H2, f2, x2, q2⟩ := (hash_new L n (H1 ++ [.bytearray []]) "streebog512" (.ref H1.length)).1 [] (bytesOf_last _ _)
    rw [updateBytes_nil] at q2
    have x2 := ((Ext.refl H1).add _).trans x2
    py [e1, f2]
    have hle : h.length ≤ (H1 ++ [Obj.bytearray []]).length := by simp at *; omega
    generalize (H1 ++ [Obj.bytearray []]).length = hr at *
    upd (x2.get o1) with H3 o3 k3 m3
    py [e1]
    upd o3 with H4 o4 k4 m4
    have kk := k3.trans k4
    have q4 := hash_keeps q2 (x2.get o1) kk (by decide) (by decide)
    refine ⟨H4, hr, rfl, (k.trans (x2.keeps _)).trans kk, hle, _, o4, kk.bytes (x2.bytesOf (k.bytes e)), q4, ?_⟩
    exact kk.get (x2.get b1) (by
      have := get_lt o
      simp; omega)

theorem updateBytes_name' (s : Gost.Hmac) (d : Bytes) : (s.updateBytes d).hasher.name = s.hasher.name := by
  unfold Gost.Hmac.updateBytes
  by_cases hc : s.counter + 1 = 1
  · rw [if_pos hc]; exact updateBytes_name _ _
  · rw [if_neg hc]; exact updateBytes_name _ _

/-- The use of the argument `data`. -/
theorem init_tail (L n : Nat) {s : Gost.Hmac} {me hr : Nat} {kv : Val} {h0 h : Heap} (r : HmacAt s me hr kv h)
    (hm : h0.length ≤ me) (hhr : h0.length ≤ hr) (k0 : Keeps [me] h0 h) (v : Val) {env : Env}
    (e1 : env "self" = some (.ref me)) (e2 : env "data" = some v) :
    (∀ d, bytesOf v h0 = some d →
      ∃ h', execs (ctx L (n + 6)) [.if_ (.cmp .ne (.name "data") (.builtin "bytearray" [.bytes []]))
          [.expr (.meth (.name "self") "update" [.name "data"])] []] env h = ok (.next env) h' ∧
        Ext h0 h' ∧ HmacAt (if d = [] then s else s.updateBytes d) me hr kv h') ∧
    (Other v h0 →
      ∃ h', execs (ctx L (n + 6)) [.if_ (.cmp .ne (.name "data") (.builtin "bytearray" [.bytes []]))
          [.expr (.meth (.name "self") "update" [.name "data"])] []] env h =
        fail (.raised "GOSTHMACError" "GOSTHMACError: invalid data value") h' ∧ Ext h0 h' ∧ HmacAt s me hr kv h') := by
  have r0 := r.ext ((Ext.refl h).add [.bytearray []])
  obtain ⟨o, o0, -⟩ := id r0
  have k1 := k0.add [.bytearray []]
  have x1 : Ext h0 (h ++ [.bytearray []]) := (k1.mono (by simp; omega)).ext
  constructor
  · intro d e
    have e' := k1.bytes e
    by_cases hd : d = []
    · subst hd
      py [e1, e2, e']
      exact ⟨_, rfl, x1, r0⟩
    · obtain ⟨H, f, k, r'⟩ := update_ok L n r0 e'
      have hd' : (some d == some ([] : Bytes)) = false := by simpa using hd
      py [e1, e2, e', o0, f, hd', Bool.not_false]
      rw [if_neg hd]
      exact ⟨H, rfl, ((x1.keeps []).then k (by simp; omega)).ext, r'⟩
  · intro e
    have e' := (e.keeps k1 (by simpa using hm)).1
    py [e1, e2, e', o0, update_other L (n + 5) me e']
    exact ⟨_, rfl, x1, r0⟩

/-- What is made from a key and a name. -/
def initOf (name : String) (key : Bytes) : Gost.Hmac :=
  ⟨padKey key, HashObj.hashInit (if name = "HMAC_GOSTR3411_2012_256" then "streebog256" else "streebog512"), 0⟩

/-- `__init__` with a proper name and key. -/
theorem init_ok (L n : Nat) {me : Nat} {h0 h : Heap} (o : h[me]? = some (.inst "R5011132016" [])) {name : String}
    (hn : name = "HMAC_GOSTR3411_2012_256" ∨ name = "HMAC_GOSTR3411_2012_512")
    (hm : h0.length ≤ me) (k0 : Keeps [me] h0 h) {kv : Val} {key : Bytes} (e : bytesOf kv h0 = some key)
    (hk : key.length ≤ 64) (v : Val) :
    (∀ d, bytesOf v h0 = some d →
      ∃ h' hr kv', call package L (n + 7) "R5011132016.__init__" [.ref me, .str name, kv, v] h = ok .none h' ∧
        Ext h0 h' ∧ h0.length ≤ hr ∧
        KeyRef key kv kv' h0 ∧ HmacAt (if d = [] then initOf name key else (initOf name key).updateBytes d) me hr kv' h') ∧
    (Other v h0 →
      ∃ h', call package L (n + 7) "R5011132016.__init__" [.ref me, .str name, kv, v] h =
        fail (.raised "GOSTHMACError" "GOSTHMACError: invalid data value") h' ∧ Ext h0 h' ∧
        ∃ hr kv', HmacAt (initOf name key) me hr kv' h') := by
  rw [call_succ Fn.R5011132016.__init__]
  have hv : valIn (.str name) h [.str "HMAC_GOSTR3411_2012_256", .str "HMAC_GOSTR3411_2012_512"] = some true := by
    rcases hn with rfl | rfl <;> rfl
  have e' := k0.bytes e
  have hk' : ((key.length : Int) > 64) = False := by simp; omega
  rw [run_body h rfl rfl]
  unfold R5011132016.m___init__
  rw [execs_skip (h' := h) (by py []; rw [cmp_notIn hv]; rfl),
    execs_skip (h' := h) (by py [e', hk', decide_false])]
  obtain ⟨env1, H1, kv1, f1, k1, o1, b1, kr, a1, a2, a3⟩ := set_key L (n + 6) o e' hk
    (env := (((Env.empty.set "self" (.ref me)).set "name" (.str name)).set "key" kv).set "data" v) (by py []) (by py []) _
  rw [f1]
  obtain ⟨H2, hr, f2, k2, hhr, r2⟩ := set_name L n o1 b1 hn (env := env1) (by rw [a1]; py []) (by rw [a2]; py []) _
  rw [f2]
  have hhr : h0.length ≤ hr := Nat.le_trans k0.length (Nat.le_trans k1.length hhr)
  obtain ⟨p1, p2⟩ := init_tail L n r2 hm hhr ((k0.trans k1).trans k2) v (env := env1) (by rw [a1]; py []) (by rw [a3]; py [])
  constructor
  · intro d e
    obtain ⟨h', f, x, r⟩ := p1 d e
    exact ⟨h', hr, kv1, by rw [f]; rfl, x, hhr, kr.mono k0.length, r⟩
  · intro e
    obtain ⟨h', f, x, r⟩ := p2 e
    exact ⟨h', by rw [f]; rfl, x, hr, kv1, r⟩

/-- `__init__` with another name. -/
theorem init_name (L n : Nat) {me : Nat} {h : Heap} {nv : Val} (h1 : nv ≠ .str "HMAC_GOSTR3411_2012_256")
    (h2 : nv ≠ .str "HMAC_GOSTR3411_2012_512") (kv v : Val) :
    call package L (n + 1) "R5011132016.__init__" [.ref me, nv, kv, v] h =
      fail (.raised "GOSTHMACError" "GOSTHMACError: unsupported mode") h := by
  rw [call_succ Fn.R5011132016.__init__]
  have hv : valIn nv h [.str "HMAC_GOSTR3411_2012_256", .str "HMAC_GOSTR3411_2012_512"] = some false := by
    simp only [valIn, valEq_str h1, valEq_str h2]
  py [R5011132016.m___init__]
  rw [cmp_notIn hv]
  py [Bool.not_false]

/-- `__init__` with an improper key. -/
theorem init_key (L n : Nat) {me : Nat} {h : Heap} {name : String}
    (hn : name = "HMAC_GOSTR3411_2012_256" ∨ name = "HMAC_GOSTR3411_2012_512") {kv : Val}
    (hk : ∀ key, bytesOf kv h = some key → 64 < key.length) (v : Val) :
    call package L (n + 1) "R5011132016.__init__" [.ref me, .str name, kv, v] h =
      fail (.raised "GOSTHMACError" "GOSTHMACError: invalid key value") h := by
  rw [call_succ Fn.R5011132016.__init__]
  have hv : valIn (.str name) h [.str "HMAC_GOSTR3411_2012_256", .str "HMAC_GOSTR3411_2012_512"] = some true := by
    rcases hn with rfl | rfl <;> rfl
  rw [run_body h rfl rfl]
  unfold R5011132016.m___init__
  rw [execs_skip (h' := h) (by py []; rw [cmp_notIn hv]; rfl)]
  cases e : bytesOf kv h with
  | none =>
    py [e]
    rfl
  | some key =>
    have hk' : ((key.length : Int) > 64) = True := by have := hk key e; simp; omega
    py [e, hk', decide_true]
    rfl

/-- The constructor. -/
theorem hmac_new (L n : Nat) (h : Heap) {name : String}
    (hn : name = "HMAC_GOSTR3411_2012_256" ∨ name = "HMAC_GOSTR3411_2012_512") {kv : Val} {key : Bytes}
    (e : bytesOf kv h = some key) (hk : key.length ≤ 64) (v : Val) :
    (∀ d, bytesOf v h = some d →
      ∃ h' hr kv', instantiate (ctx L (n + 7)) "R5011132016" [.str name, kv, v] h = ok (.ref h.length) h' ∧
        Ext h h' ∧ h.length ≤ hr ∧
        KeyRef key kv kv' h ∧ HmacAt (if d = [] then initOf name key else (initOf name key).updateBytes d) h.length hr kv' h') ∧
    (Other v h →
      ∃ h', instantiate (ctx L (n + 7)) "R5011132016" [.str name, kv, v] h =
        fail (.raised "GOSTHMACError" "GOSTHMACError: invalid data value") h' ∧ Ext h h' ∧
        ∃ hr kv', HmacAt (initOf name key) h.length hr kv' h') := by
  unfold instantiate
  py []
  obtain ⟨p1, p2⟩ := init_ok L n (get_last h (.inst "R5011132016" [])) hn (Nat.le_refl _)
    ((Keeps.refl [h.length] h).add _) e hk v
  constructor
  · intro d e
    obtain ⟨h', hr, kv', f, k, hhr, kr, r⟩ := p1 d e
    py [f]
    exact ⟨h', hr, kv', rfl, k, hhr, kr, r⟩
  · intro e
    obtain ⟨h', f, k⟩ := p2 e
    py [f]
    exact ⟨h', rfl, k⟩

/-- The arguments `data` of `new`. -/
def DataArg (l : List (String × Val)) (h : Heap) (d : Bytes) : Prop :=
  (findAttr "data" l = none ∧ d = []) ∨ (∃ v, findAttr "data" l = some v ∧ bytesOf v h = some d)

theorem new_ok (L n : Nat) (h : Heap) {name : String}
    (hn : name = "HMAC_GOSTR3411_2012_256" ∨ name = "HMAC_GOSTR3411_2012_512") {kv : Val} {key : Bytes}
    (e : bytesOf kv h = some key) (hk : key.length ≤ 64) (l : List (String × Val)) :
    (∀ d, DataArg l h d →
      ∃ h' r hr kv', call package L (n + 8) "Hmac.new" [.str name, kv, .dict l] h = ok (.ref r) h' ∧ Ext h h' ∧
        h.length ≤ r ∧ h.length ≤ hr ∧
        KeyRef key kv kv' h ∧ HmacAt (if d = [] then initOf name key else (initOf name key).updateBytes d) r hr kv' h') ∧
    (∀ v, findAttr "data" l = some v → Other v h →
      ∃ h', call package L (n + 8) "Hmac.new" [.str name, kv, .dict l] h =
        fail (.raised "GOSTHMACError" "GOSTHMACError: invalid data value") h' ∧ Ext h h') := by
  rw [call_succ Fn.Hmac.new]
  py [Hmac.f_new]
  have x := (Ext.refl h).add [.bytearray []]
  obtain ⟨p1, p2⟩ := hmac_new L n (h ++ [.bytearray []]) hn (x.bytesOf e) hk
    ((findAttr "data" l).getD (.ref h.length))
  constructor
  · intro d hd
    obtain ⟨h', hr, kv', f, y, hhr, kr, r⟩ := p1 d (by
      rcases hd with ⟨e, rfl⟩ | ⟨v, e, b⟩
      · rw [e]; exact bytesOf_last _ _
      · rw [e]; exact bytesOf_mono b _)
    py [f]
    exact ⟨h', _, hr, kv', rfl, x.trans y, x.length, Nat.le_trans x.length hhr, kr.mono x.length, r⟩
  · intro v e b
    obtain ⟨h', f, y, -⟩ := p2 (by
      rw [e]
      exact b.keeps (W := []) ((Keeps.refl [] h).add _) (by simp))
    py [f]
    exact ⟨h', rfl, x.trans y⟩

theorem new_name (L n : Nat) (h : Heap) {nv : Val} (h1 : nv ≠ .str "HMAC_GOSTR3411_2012_256")
    (h2 : nv ≠ .str "HMAC_GOSTR3411_2012_512") (kv : Val) (l : List (String × Val)) :
    ∃ h', call package L (n + 2) "Hmac.new" [nv, kv, .dict l] h =
      fail (.raised "GOSTHMACError" "GOSTHMACError: unsupported mode") h' ∧ Ext h h' := by
  rw [call_succ Fn.Hmac.new]
  py [Hmac.f_new]
  unfold instantiate
  py []
  rw [init_name L n h1 h2]
  py []
  exact ⟨_, rfl, ((Ext.refl h).add _).add _⟩

theorem new_key (L n : Nat) (h : Heap) {name : String}
    (hn : name = "HMAC_GOSTR3411_2012_256" ∨ name = "HMAC_GOSTR3411_2012_512") {kv : Val}
    (h1 : Other kv h ∨ ∃ key, bytesOf kv h = some key ∧ 64 < key.length) (l : List (String × Val)) :
    ∃ h', call package L (n + 2) "Hmac.new" [.str name, kv, .dict l] h =
      fail (.raised "GOSTHMACError" "GOSTHMACError: invalid key value") h' ∧ Ext h h' := by
  rw [call_succ Fn.Hmac.new]
  py [Hmac.f_new]
  unfold instantiate
  py []
  have x := ((Ext.refl h).add [.bytearray []]).add [.inst "R5011132016" []]
  rw [init_key L n hn (kv := kv) (by
    intro key e
    rcases h1 with h1 | ⟨key', e', hl⟩
    · rw [(h1.keeps (x.keeps []) (by simp)).1] at e
      cases e
    · rw [x.bytesOf e'] at e
      cases e
      exact hl)]
  py []
  exact ⟨_, rfl, x⟩

end HmacSrc

end Gost.Src
