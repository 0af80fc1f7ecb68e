import Verif.SourceProofs.Hmac
import Verif.Props.SourceHash
import Verif.Props.Hmac

/-! C98: the text of `r_50_1_113_2016.py` computes the functions of the model, and the HMAC of the
recommendations. -/

namespace Gost.Src

open Spec HmacSrc
open Streebog (Other)

theorem padKey_eq (k : Bytes) : padKey k = hmacKey k := by
  unfold padKey hmacKey
  split
  · rfl
  · rw [show 64 - k.length = 0 by omega]; simp

/-- C98, constructor: `gosthmac.new(name, key, **kwargs)` as it is written, for any values in any memory. Another
name than the two is refused first, then a key which is not a byte object or longer than 64 bytes, then data which
is not a byte object. Otherwise the object is the one of the model; empty data is the same as no data. A key of
exactly 64 bytes is not copied: the object holds the value which was given. Nothing that existed before is
changed. -/
theorem C98_new (L n : Nat) (h : Heap) (l : List (String × Val)) :
    (∀ nv kv, nv ≠ .str "HMAC_GOSTR3411_2012_256" → nv ≠ .str "HMAC_GOSTR3411_2012_512" →
      ∃ h', call package L (n + 8) "Hmac.new" [nv, kv, .dict l] h =
        fail (.raised "GOSTHMACError" "GOSTHMACError: unsupported mode") h' ∧ Ext h h') ∧
    ∀ name, IsHmacName name →
      (∀ kv, (Other kv h ∨ ∃ key, bytesOf kv h = some key ∧ 64 < key.length) →
        ∃ h', call package L (n + 8) "Hmac.new" [.str name, kv, .dict l] h =
          fail (.raised "GOSTHMACError" "GOSTHMACError: invalid key value") h' ∧ Ext h h') ∧
      ∀ kv key, bytesOf kv h = some key → key.length ≤ 64 →
        (∀ v, findAttr "data" l = some v → Other v h →
          ∃ h', call package L (n + 8) "Hmac.new" [.str name, kv, .dict l] h =
            fail (.raised "GOSTHMACError" "GOSTHMACError: invalid data value") h' ∧ Ext h h') ∧
        ∀ d, DataArg l h d →
          ∃ h' r hr kv', call package L (n + 8) "Hmac.new" [.str name, kv, .dict l] h = ok (.ref r) h' ∧ Ext h h' ∧
            h.length ≤ r ∧ h.length ≤ hr ∧
            ((key.length = 64 ∧ kv' = kv) ∨ (key.length < 64 ∧ ∃ r, kv' = .ref r ∧ h.length ≤ r)) ∧
            HmacAt (if d = [] then ⟨hmacKey key, HashObj.hashInit (hmacHash name), 0⟩ else
              (⟨hmacKey key, HashObj.hashInit (hmacHash name), 0⟩ : Gost.Hmac).updateBytes d) r hr kv' h' := by
  refine ⟨fun nv kv h1 h2 => new_name L (n + 6) h h1 h2 kv l, fun name hn => ⟨fun kv hk => new_key L (n + 6) h hn hk l, ?_⟩⟩
  intro kv key e hk
  obtain ⟨p1, p2⟩ := HmacSrc.new_ok L n h hn e hk l
  refine ⟨p2, fun d hd => ?_⟩
  rw [← padKey_eq]
  exact p1 d hd

/-- C98, methods, on any HMAC object, whatever was done with it before, and for any argument. Only the object and
its hash object are changed, and only by `update`, `reset` and `clear`; digests are new byte arrays, a copy is a
new object with a new hash object. -/
theorem C98_methods (L n : Nat) (h : Heap) (s : Gost.Hmac) (me hr : Nat) (r : IsHmac s me hr h) :
    (∀ v d, bytesOf v h = some d →
      ∃ h', callMeth (ctx L (n + 8)) (.ref me) "update" [v] h = ok .none h' ∧ Keeps [me, hr] h h' ∧
        IsHmac (s.updateBytes d) me hr h') ∧
    (∀ v, bytesOf v h = none → callMeth (ctx L (n + 8)) (.ref me) "update" [v] h =
        fail (.raised "GOSTHMACError" "GOSTHMACError: invalid data value") h) ∧
    NewBytes (callMeth (ctx L (n + 8)) (.ref me) "digest" [] h) h s.digest ∧
    (∃ h', callMeth (ctx L (n + 8)) (.ref me) "hexdigest" [] h = ok (.str (String.ofList s.hexdigest)) h' ∧ Ext h h') ∧
    (∃ h', callMeth (ctx L (n + 8)) (.ref me) "reset" [] h = ok .none h' ∧ Keeps [me, hr] h h' ∧
        IsHmac s.reset me hr h') ∧
    (∃ h', callMeth (ctx L (n + 8)) (.ref me) "clear" [] h = ok .none h' ∧ Keeps [me, hr] h h' ∧
        IsHmac s.clear me hr h') ∧
    (∃ h' me' hr', callMeth (ctx L (n + 8)) (.ref me) "copy" [] h = ok (.ref me') h' ∧ Ext h h' ∧ h.length ≤ me' ∧
        h.length ≤ hr' ∧ IsHmac s.copy me' hr' h') ∧
    getAttr (ctx L (n + 8)) (.ref me) "digest_size" h = ok (.int s.digestSize) h ∧
    getAttr (ctx L (n + 8)) (.ref me) "block_size" h = ok (.int s.blockSize) h ∧
    getAttr (ctx L (n + 8)) (.ref me) "name" h = ok (.str s.nameProp) h := by
  obtain ⟨kv, q⟩ := id r
  obtain ⟨o, o0, -⟩ := id q
  refine ⟨?_, ?_, ?_, ?_, ?_, ?_, ?_, ?_, ?_, ?_⟩
  · intro v d e
    py [o0]
    obtain ⟨h', f, k, q⟩ := HmacSrc.update_ok L (n + 2) q e
    exact ⟨h', f, k, _, q⟩
  · intro v e
    py [o0]
    exact HmacSrc.update_other L (n + 7) me e
  · py [o0]
    exact HmacSrc.digest_ok L (n + 1) r
  · py [o0]
    exact HmacSrc.hexdigest_ok L n r
  · py [o0]
    exact HmacSrc.reset_ok L (n + 5) r
  · py [o0]
    exact HmacSrc.clear_ok L (n + 5) r
  · py [o0]
    exact HmacSrc.copy_ok L (n + 7) r
  · py [o0]
    exact HmacSrc.digest_size_ok L (n + 6) r
  · py [o0]
    exact HmacSrc.block_size_ok L (n + 6) r
  · py [o0]
    exact HmacSrc.name_ok L (n + 6) r

/-- `gosthmac.new(name, key, data=data).digest()`. -/
def hmacOnce (C : Ctx) (name : String) (key data : Val) (h : Heap) : Out Val :=
  andThen (C.call "Hmac.new" [.str name, key, .dict [("data", data)]] h) fun o h => callMeth C o "digest" [] h

/-- `o = gosthmac.new(name, key)`, the updates, `o.digest()`. -/
def hmacMany (C : Ctx) (name : String) (key : Val) (ds : List Val) (h : Heap) : Out Val :=
  andThen (C.call "Hmac.new" [.str name, key, .dict []] h) fun o h =>
    andThen (updates C o ds h) fun _ h => callMeth C o "digest" [] h

/-- C98, recommendations: for every key of at most 64 bytes and every message with at least one byte the digest as
it is written is HMAC over the hash of GOST R 34.11-2012. (For the empty message given this way it is not, see
C28.) -/
theorem C98_standard (L n : Nat) (h : Heap) (name : String) (hn : IsHmacName name) (kv v : Val) (key d : Bytes)
    (ek : bytesOf kv h = some key) (hk : key.length ≤ 64) (e : bytesOf v h = some d) (hd : d ≠ []) :
    NewBytes (hmacOnce (ctx L (n + 8)) name kv v h) h (hmac (hashOf (hmacHash name)) key d) := by
  obtain ⟨h1, r, hr, kv', f, ⟨l, rfl⟩, h2, -, -, q⟩ := (((C98_new L n h [("data", v)]).2 name hn).2 kv key ek hk).2 d
    (Or.inr ⟨v, rfl, e⟩)
  rw [if_neg hd] at q
  obtain ⟨w, l', f', hw, b⟩ := (C98_methods L n _ _ r hr ⟨_, q⟩).2.2.1.elim
  unfold hmacOnce
  rw [show (ctx L (n + 8)).call = call package L (n + 8) from rfl, f, andThen_ok, f']
  rw [hmac_one_update name key hk] at b
  exact .intro (((Ext.refl _).add _).add _) (by rw [List.length_append] at hw; omega) b

theorem hmac_updates_ok (L n : Nat) (h0 : Heap) (ds : List (Val × Bytes)) (hd : ∀ p ∈ ds, bytesOf p.1 h0 = some p.2)
    (me hr : Nat) : ∀ (h : Heap) (s : Gost.Hmac), Keeps [me, hr] h0 h → IsHmac s me hr h →
    ∃ h', updates (ctx L (n + 8)) (.ref me) (ds.map (·.1)) h = ok .none h' ∧ Keeps [me, hr] h0 h' ∧
      IsHmac ((ds.map (·.2)).foldl Gost.Hmac.updateBytes s) me hr h' := by
  induction ds with
  | nil => exact fun h s k r => ⟨h, rfl, k, r⟩
  | cons p ds ih =>
    intro h s k r
    obtain ⟨h1, f, k1, r1⟩ := (C98_methods L n h s me hr r).1 p.1 p.2 (k.bytes (hd p (by simp)))
    obtain ⟨h2, f2, k2, r2⟩ := ih (fun q hq => hd q (by simp [hq])) h1 _ (k.trans k1) r1
    refine ⟨h2, ?_, k2, r2⟩
    simp only [List.map_cons, updates]
    rw [f, andThen_ok, f2]

/-- C98, sequences: after one or more updates the digest as it is written is the HMAC of the effective message
(see C25 and C29); one update, also with empty data, gives the HMAC of the message itself. -/
theorem C98_updates (L n : Nat) (h : Heap) (name : String) (hn : IsHmacName name) (kv : Val) (key : Bytes)
    (ek : bytesOf kv h = some key) (hk : key.length ≤ 64) (ds : List (Val × Bytes)) (hne : ds ≠ [])
    (hd : ∀ p ∈ ds, bytesOf p.1 h = some p.2) :
    NewBytes (hmacMany (ctx L (n + 8)) name kv (ds.map (·.1)) h) h
      (hmac (hashOf (hmacHash name)) key ((ds.map (·.2)).foldl effective [])) := by
  obtain ⟨h1, r, hr, kv', f, ⟨l, rfl⟩, hl, hl', -, q⟩ := (((C98_new L n h []).2 name hn).2 kv key ek hk).2 []
    (Or.inl ⟨rfl, rfl⟩)
  rw [if_pos rfl] at q
  obtain ⟨h2, f2, k2, r2⟩ := hmac_updates_ok L n h ds hd r hr _ _ ((Keeps.refl _ _).add l) ⟨_, q⟩
  have x : Ext h h2 := (k2.mono (by simp; omega)).ext
  obtain ⟨l2, rfl⟩ := x
  obtain ⟨w, l', f', hw, b⟩ := (C98_methods L n _ _ r hr r2).2.2.1.elim
  unfold hmacMany
  rw [show (ctx L (n + 8)).call = call package L (n + 8) from rfl, f, andThen_ok, f2, andThen_ok, f']
  obtain ⟨p, ds, rfl⟩ : ∃ p t, ds = p :: t := by
    cases ds with
    | nil => exact absurd rfl hne
    | cons p t => exact ⟨p, t, rfl⟩
  rw [List.map_cons, hmac_updates name key hk] at b
  exact .intro (((Ext.refl _).add _).add _) (by rw [List.length_append] at hw; omega) b

/-! Values which meet the hypotheses. -/

example : IsHmacName "HMAC_GOSTR3411_2012_512" ∧ bytesOf (.ref 0) [.bytearray (List.replicate 64 7)] =
    some (List.replicate 64 7) ∧ (List.replicate 64 (7 : UInt8)).length ≤ 64 ∧
    bytesOf (.bytes [1, 2]) [.bytearray (List.replicate 64 7)] = some [1, 2] ∧ ([1, 2] : Bytes) ≠ [] :=
  ⟨Or.inr rfl, rfl, by simp, rfl, by simp⟩

/-- An object which the hypothesis of `C98_methods` is about. -/
example : ∃ h r hr s, IsHmac s r hr h := by
  obtain ⟨h, r, hr, kv', -, -, -, -, -, q⟩ := (((C98_new 0 0 [] []).2 "HMAC_GOSTR3411_2012_256" (Or.inl rfl)).2
    (.bytes [1]) [1] rfl (by simp)).2 [] (Or.inl ⟨rfl, rfl⟩)
  exact ⟨h, r, hr, _, _, q⟩

/-- A key of 65 bytes is refused. -/
example : ∃ h', call package 0 (0 + 8) "Hmac.new" [.str "HMAC_GOSTR3411_2012_512", .bytes (List.replicate 65 0),
    .dict []] [] = fail (.raised "GOSTHMACError" "GOSTHMACError: invalid key value") h' := by
  obtain ⟨h', e, -⟩ := ((C98_new 0 0 [] []).2 "HMAC_GOSTR3411_2012_512" (Or.inr rfl)).1 (.bytes (List.replicate 65 0))
    (Or.inr ⟨_, rfl, by simp⟩)
  exact ⟨h', e⟩

end Gost.Src
