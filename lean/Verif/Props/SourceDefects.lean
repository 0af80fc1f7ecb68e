import Verif.Props.SourceUtils
import Verif.Props.SourceMac
import Verif.Props.SourcePbkdf
import Verif.Props.SourceOid
import Verif.Props.RoundTrip
import Verif.Props.New
import Verif.Props.WeakKeys
import Verif.Props.Clear
import Verif.Props.Modes

/-! C106: the cases in which the package does something else than its documentation or the standards say, as runs of
the text itself. Each theorem begins with a program of calls and says what it returns. -/

namespace Gost.Src

open Spec ModesSrc

theorem NewBytes.unique {o : Out Val} {h : Heap} {b b' : Bytes} (x : NewBytes o h b) (y : NewBytes o h b') : b = b' := by
  obtain ⟨r, l, e, -, hb⟩ := x.elim
  obtain ⟨r', l', e', -, hb'⟩ := y.elim
  rw [e] at e'
  injection e' with e1 e2
  injection e1 with e1
  injection e1 with e1
  rw [e2, e1, hb'] at hb
  injection hb with hb
  exact hb.symm

/-- C106, `zero_fill` (C48): not zeros, but the four characters `/x00` for each byte. -/
theorem C106_zero_fill (L n : Nat) (h : Heap) {v : Val} {b : Bytes} (e : bytesOf v h = some b) :
    NewBytes (call package L (n + 1) "Utils.zero_fill" [v] h) h (b.flatMap fun _ => [0x2f, 0x78, 0x30, 0x30]) := by
  have := (C95_utils L n h).2.2.2.1 v b e
  have hz : zeroFill b = b.flatMap fun _ => [0x2f, 0x78, 0x30, 0x30] := by
    clear e this
    induction b with
    | nil => rfl
    | cons x b ih =>
      rw [List.flatMap_cons, ← ih]
      rfl
  rwa [hz] at this

/-- C106, Streebog (C25): two updates with 32 bytes do not give the hash of the 64 bytes. -/
theorem C106_hash_updates (L n : Nat) (h : Heap) (name : String) (hn : name = "streebog512" ∨ name = "streebog256") :
    ∃ b b', NewBytes (hashMany (ctx L (n + 7)) name [.bytes (List.replicate 32 0), .bytes (List.replicate 32 0)] h) h b ∧
      NewBytes (hashOnce (ctx L (n + 7)) name (.bytes (List.replicate 64 0)) h) h b' ∧ b ≠ b' := by
  have h1 := C97_updates L n h name hn [(.bytes (List.replicate 32 0), List.replicate 32 0),
    (.bytes (List.replicate 32 0), List.replicate 32 0)] (by simp [bytesOf])
  have h2 := C97_standard L n h name hn (.bytes (List.replicate 64 0)) (List.replicate 64 0) rfl
  refine ⟨_, _, h1, h2, ?_⟩
  obtain ⟨s, e1, e2⟩ := C25_negation name hn
  obtain ⟨s', e3, e4⟩ := C25_exact name hn halves
  rw [e1] at e3
  cases e3
  rw [new_none name hn] at e1
  cases e1
  rw [e4, fresh_update name hn, show halves.flatten = List.replicate 64 0 by decide] at e2
  exact e2

/-- C106, HMAC (C28): without an update the digest is not the HMAC of the empty message; the inner key block is
missing. -/
theorem C106_hmac_empty (L n : Nat) (h : Heap) (name : String) (hn : IsHmacName name) (kv : Val) (key : Bytes)
    (ek : bytesOf kv h = some key) (hk : key.length ≤ 64) :
    NewBytes (hmacMany (ctx L (n + 8)) name kv [] h) h
      (hashOf (hmacHash name) (xorByte (hmacKey key) 0x5c ++ hashOf (hmacHash name) [])) ∧
    (key = Ex.key → ¬ NewBytes (hmacMany (ctx L (n + 8)) name kv [] h) h (hmac (hashOf (hmacHash name)) key [])) := by
  obtain ⟨h1, r, hr, kv', f, ⟨l, rfl⟩, hl, hl', -, q⟩ := (((C98_new L n h []).2 name hn).2 kv key ek hk).2 []
    (Or.inl ⟨rfl, rfl⟩)
  rw [if_pos rfl] at q
  obtain ⟨w, l', f', hw, b⟩ := (C98_methods L n _ _ r hr ⟨_, q⟩).2.2.1.elim
  have hrun : hmacMany (ctx L (n + 8)) name kv [] h = ok (.ref w) (h ++ l ++ l') := by
    unfold hmacMany
    rw [show (ctx L (n + 8)).call = call package L (n + 8) from rfl, f, andThen_ok]
    simp only [updates]
    rw [andThen_ok, f']
  have e0 : (⟨hmacKey key, HashObj.hashInit (hmacHash name), 0⟩ : Gost.Hmac).digest =
      hashOf (hmacHash name) (xorByte (hmacKey key) 0x5c ++ hashOf (hmacHash name) []) := by
    obtain ⟨s, e1, e2⟩ := C28_exact name hn (.bytes key) key rfl hk none (Or.inl rfl)
    unfold Hmac.new at e1
    rw [Hmac.initKey_ok name hn (.bytes key) key rfl hk] at e1
    cases e1
    exact e2
  rw [e0] at b
  have hx : NewBytes (hmacMany (ctx L (n + 8)) name kv [] h) h
      (hashOf (hmacHash name) (xorByte (hmacKey key) 0x5c ++ hashOf (hmacHash name) [])) := by
    rw [hrun]
    exact .intro (((Ext.refl _).add _).add _) (by rw [List.length_append] at hw; omega) b
  refine ⟨hx, ?_⟩
  rintro rfl hy
  obtain ⟨s, e1, e2⟩ := C28_negation name hn
  obtain ⟨s', e3, e4⟩ := C28_exact name hn (.bytes Ex.key) Ex.key rfl (by decide) none (Or.inl rfl)
  rw [e1] at e3
  cases e3
  rw [e4] at e2
  exact e2 (hx.unique hy)

/-! ### The modes -/

theorem kwIv {h : Heap} {v : Val} {iv : Bytes} (e : bytesOf v h = some iv) :
    KwArgs [("init_vect", v)] h none (some (pyVal v h)) none := by
  refine ⟨rfl, rfl, rfl, fun k w hw => ?_⟩
  simp only [findAttr] at hw
  split at hw
  · cases hw
    exact known_bytes e
  · cases hw

theorem kwData {h : Heap} {v : Val} {d : Bytes} (e : bytesOf v h = some d) :
    KwArgs [("data", v)] h none none (some (pyVal v h)) := by
  refine ⟨rfl, rfl, rfl, fun k w hw => ?_⟩
  simp only [findAttr] at hw
  split at hw
  · cases hw
    exact known_bytes e
  · cases hw

theorem kwPad (h : Heap) (pad : Int) : KwArgs [("pad_mode", .int pad)] h (some pad) none none := by
  refine ⟨rfl, rfl, rfl, fun k w hw => ?_⟩
  simp only [findAttr] at hw
  split at hw
  · cases hw
    exact fun r hr => by cases hr
  · cases hw

theorem kwNone (h : Heap) : KwArgs [] h none none none := ⟨rfl, rfl, rfl, fun _ _ hw => by cases hw⟩

theorem known_lit (b : Bytes) (h : Heap) : Known (.bytes b) h := fun r hr => by cases hr

section
variable (L n : Nat) (h : Heap) (a : Alg) (kv : Val) (key : Bytes) (ek : bytesOf kv h = some key)
  (hl : key.length = 32)

include ek hl

/-- C106, CTR (C13, C14): for every key and every vector the block 256 of the keystream is the block 0 again. -/
theorem C106_ctr (v : Val) (iv : Bytes) (ei : bytesOf v h = some iv) (hi : iv.length = a.blockSize / 2) :
    ∃ out b, cipherRun (ctx L (n + 9)) a.name kv modeCtr [("init_vect", v)]
        [.encrypt (.bytes (List.replicate (257 * a.blockSize) 0))] h = some [some (.ok out)] ∧
      (blocks a.blockSize out)[0]? = some b ∧ (blocks a.blockSize out)[256]? = some b := by
  obtain ⟨s, out, b, e1, e2, e3, e4⟩ := C14_negation a (pyVal kv h) (pyVal v h) key iv ((pyVal_data kv h).trans ek) hl
    ((pyVal_data v h).trans ei) hi
  refine ⟨out, b, ?_, e3, e4⟩
  rw [cipherRun_ok L n h a.name (known_bytes ek) modeCtr (kwIv ei) e1 trivial _
    (by simp only [List.mem_singleton]; rintro x rfl; exact known_lit _ _)]
  simp only [List.map_cons, List.map_nil, SrcCall.model, runHistory, encryptOf]
  rw [show pyVal (.bytes (List.replicate (257 * a.blockSize) 0)) h = .bytes (List.replicate (257 * a.blockSize) 0) from rfl]
  simp only [Prod.map_snd, e2, id]

/-- C106, CFB and OFB (C15): two calls with less than a block use the same keystream. -/
theorem C106_feedback (v : Val) (iv : Bytes) (ei : bytesOf v h = some iv) (h0 : 0 < iv.length)
    (hi : iv.length % a.blockSize = 0) (x y : Bytes) (hx : x.length < a.blockSize) (hy : y.length = x.length) (mode : Int)
    (hm : mode = modeCfb ∨ mode = modeOfb) :
    ∃ c d, cipherRun (ctx L (n + 9)) a.name kv mode [("init_vect", v)] [.encrypt (.bytes x), .encrypt (.bytes y)] h =
      some [some (.ok c), some (.ok d)] ∧ Spec.xor c d = Spec.xor x y := by
  have hx' : ∀ z ∈ [SrcCall.encrypt (.bytes x), SrcCall.encrypt (.bytes y)], z.Known h := by
    simp only [List.mem_cons, List.not_mem_nil, or_false]
    rintro z (rfl | rfl)
    · exact known_lit _ _
    · exact known_lit _ _
  have hne : iv ≠ [] := by rintro rfl; cases h0
  rcases hm with rfl | rfl
  · obtain ⟨o, D, e, -, hb, -⟩ := new_cfb a (pyVal kv h) (pyVal v h) key iv ((pyVal_data kv h).trans ek) hl
      ((pyVal_data v h).trans ei) hi none none
    obtain ⟨c, d, e1, e2, e3⟩ := (C15_negation _ (Or.inl (.new e)) hne (.bytes x) (.bytes y) x y rfl rfl
      (by rw [hb]; exact hx) hy).1
    refine ⟨c, d, ?_, e3⟩
    rw [cipherRun_ok L n h a.name (known_bytes ek) modeCfb (kwIv ei) e trivial _ hx']
    simp only [List.map_cons, List.map_nil, SrcCall.model, runHistory, encryptOf]
    rw [show ∀ b, pyVal (.bytes b) h = .bytes b from fun _ => rfl, show ∀ b, pyVal (.bytes b) h = .bytes b from fun _ => rfl]
    simp only [Prod.map_snd, Prod.map_fst, e1, e2, id]
  · obtain ⟨o, D, e, -, hb, -⟩ := new_ofb a (pyVal kv h) (pyVal v h) key iv ((pyVal_data kv h).trans ek) hl
      ((pyVal_data v h).trans ei) hi none none
    obtain ⟨c, d, e1, e2, e3⟩ := (C15_negation _ (Or.inr (.new e)) hne (.bytes x) (.bytes y) x y rfl rfl
      (by rw [hb]; exact hx) hy).2
    refine ⟨c, d, ?_, e3⟩
    rw [cipherRun_ok L n h a.name (known_bytes ek) modeOfb (kwIv ei) e trivial _ hx']
    simp only [List.map_cons, List.map_nil, SrcCall.model, runHistory, encryptOf]
    rw [show ∀ b, pyVal (.bytes b) h = .bytes b from fun _ => rfl, show ∀ b, pyVal (.bytes b) h = .bytes b from fun _ => rfl]
    simp only [Prod.map_snd, Prod.map_fst, e1, e2, id]

/-- C106, PAD_MODE_2 (C12): a message which is empty or not a multiple of the block size gets a whole block too much. -/
theorem C106_padding (v : Val) (msg : Bytes) (ev : bytesOf v h = some msg) (hbad : msg = [] ∨ msg.length % a.blockSize ≠ 0) :
    ∃ ct, cipherRun (ctx L (n + 9)) a.name kv modeEcb [("pad_mode", .int padMode2)] [.encrypt v] h =
      some [some (.ok ct)] ∧ ct.length = (Spec.procedure2 a.blockSize msg).length + a.blockSize := by
  obtain ⟨s, ct, out, e1, e2, -, -, e3⟩ := C12_negation a (pyVal kv h) (pyVal v h) key msg ((pyVal_data kv h).trans ek) hl
    ((pyVal_data v h).trans ev) hbad
  refine ⟨ct, ?_, e3⟩
  rw [cipherRun_ok L n h a.name (known_bytes ek) modeEcb (kwPad h _) e1 trivial _
    (by simp only [List.mem_singleton]; rintro x rfl; exact known_bytes ev)]
  simp only [List.map_cons, List.map_nil, SrcCall.model, runHistory, encryptOf, Prod.map_snd, e2, id]

/-- C106, decryption (C50): the bytes after the last whole block are dropped, and nothing is raised. -/
theorem C106_truncated (v : Val) (d : Bytes) (ev : bytesOf v h = some d) (hbad : d.length % a.blockSize ≠ 0) :
    ∃ out, cipherRun (ctx L (n + 9)) a.name kv modeEcb [("pad_mode", .int padMode1)] [.decrypt v] h =
      some [some (.ok out)] ∧ out.length < d.length := by
  obtain ⟨s, out, e1, e2, e3⟩ := C50_negation a (pyVal kv h) (pyVal v h) key d ((pyVal_data kv h).trans ek) hl
    ((pyVal_data v h).trans ev) hbad
  refine ⟨out, ?_, e3⟩
  rw [cipherRun_ok L n h a.name (known_bytes ek) modeEcb (kwPad h _) e1 trivial _
    (by simp only [List.mem_singleton]; rintro x rfl; exact known_bytes ev)]
  simp only [List.map_cons, List.map_nil, SrcCall.model, runHistory, decryptOf, Prod.map_snd, e2, id]

/-- C106, MAC (C17): a message of 1 to block_size - 1 bytes raises `IndexError`, in the constructor and in `update`. -/
theorem C106_short_mac (v : Val) (d : Bytes) (ev : bytesOf v h = some d) (h0 : d ≠ []) (hd : d.length < a.blockSize) :
    (∃ h', call package L (n + 8) "Modes.new" [.str a.name, kv, .int modeMac, .dict [("data", v)]] h = fail .index h') ∧
    macRun (ctx L (n + 9)) a.name kv [] [.update v] h = some [some (.error .indexError)] := by
  obtain ⟨e1, s, e2, e3⟩ := C17_negation a (pyVal kv h) (pyVal v h) key d ((pyVal_data kv h).trans ek) hl
    ((pyVal_data v h).trans ev) h0 hd
  constructor
  · have := C101_new L n h a.name kv (known_bytes ek) modeMac _ _ _ _ (kwData ev)
    rw [e1] at this
    obtain ⟨h', f, -⟩ := this
    exact ⟨h', f⟩
  · have := C101_new L (n + 1) h a.name kv (known_bytes ek) modeMac _ _ _ _ (kwNone h)
    rw [e2] at this
    obtain ⟨me, P, h', f, x, h1, h2, q⟩ := this
    unfold macRun
    rw [ctx_call, f]
    have := C102_calls L n me P h h2 [.update v] s h' (x.frame _) q (by
      simp only [List.mem_singleton]; rintro x rfl; exact known_bytes ev)
    show some (macCalls (ctx L (n + 9)) (.ref me) [SrcMac.update v] h') = _
    rw [this]
    simp only [List.map_cons, List.map_nil, SrcMac.model, MacCall.results, MacCall.result, e3]
    rfl

/-- C106, empty initialization vector (C20): accepted, and every encryption raises `IndexError`. -/
theorem C106_empty_iv (v w : Val) (ei : bytesOf v h = some []) (d : Bytes) (ed : bytesOf w h = some d) (hd : d ≠ [])
    (mode : Int) (hm : mode = modeCbc ∨ mode = modeCfb ∨ mode = modeOfb) :
    cipherRun (ctx L (n + 9)) a.name kv mode [("init_vect", v)] [.encrypt w] h = some [some (.error .indexError)] := by
  obtain ⟨-, s1, s2, s3, e1, e2, e3, f1, f2, f3⟩ := C20_negation a (pyVal kv h) (pyVal v h) key ((pyVal_data kv h).trans ek) hl
    ((pyVal_data v h).trans ei) (pyVal w h) d ((pyVal_data w h).trans ed) hd
  have hx : ∀ x ∈ [SrcCall.encrypt w], x.Known h := by
    simp only [List.mem_singleton]; rintro x rfl; exact known_bytes ed
  rcases hm with rfl | rfl | rfl
  · rw [cipherRun_ok L n h a.name (known_bytes ek) modeCbc (kwIv ei) e1 trivial _ hx]
    simp only [List.map_cons, List.map_nil, SrcCall.model, runHistory, encryptOf, Prod.map_snd, f1, id]
  · rw [cipherRun_ok L n h a.name (known_bytes ek) modeCfb (kwIv ei) e2 trivial _ hx]
    simp only [List.map_cons, List.map_nil, SrcCall.model, runHistory, encryptOf, Prod.map_snd, f2, id]
  · rw [cipherRun_ok L n h a.name (known_bytes ek) modeOfb (kwIv ei) e3 trivial _ hx]
    simp only [List.map_cons, List.map_nil, SrcCall.model, runHistory, encryptOf, Prod.map_snd, f3, id]

end

/-- C106, refused calls (C21): after `encrypt(None)` has raised, the same message is encrypted differently. -/
theorem C106_refused (L n : Nat) (h : Heap) :
    ∃ c d, c ≠ d ∧
      cipherRun (ctx L (n + 9)) "magma" (.bytes Ex.key) modeEcb [] [.encrypt (.bytes (Ex.count 1 8))] h = some [some c] ∧
      cipherRun (ctx L (n + 9)) "magma" (.bytes Ex.key) modeEcb [] [.encrypt .none, .encrypt (.bytes (Ex.count 1 8))] h =
        some [some (.error (.cipherError "GOSTCipherError: invalid plaintext data")), some d] := by
  obtain ⟨s, e, hne, -⟩ := C21_negation.1
  refine ⟨_, _, hne.symm, ?_, ?_⟩
  · rw [cipherRun_ok L n h "magma" (known_lit _ h) modeEcb (kwNone h) e trivial _
      (by simp only [List.mem_singleton]; rintro x rfl; exact known_lit _ _)]
    simp only [List.map_cons, List.map_nil, SrcCall.model, runHistory, encryptOf, Prod.map_snd, id]
    rfl
  · rw [cipherRun_ok L n h "magma" (known_lit _ h) modeEcb (kwNone h) e trivial _ (by
      simp only [List.mem_cons, List.not_mem_nil, or_false]
      rintro x (rfl | rfl)
      · exact fun r hr => by cases hr
      · exact known_lit _ _)]
    simp only [List.map_cons, List.map_nil, SrcCall.model, runHistory, encryptOf, Prod.map_snd, Prod.map_fst, id]
    rfl

/-! ### The key derivation -/

/-- `o = gostpbkdf.new(password, salt=salt, counter=c)`, `o.clear()`, then `o.derive(d)`. -/
def pbkdfCleared (C : Ctx) (password salt : Val) (c : Int) (d : Nat) (h : Heap) : Out Val :=
  andThen (C.call "Pbkdf.new" [password, .dict [("salt", salt), ("counter", .int c)]] h) fun o h =>
    andThen (callMeth C o "clear" [] h) fun _ h => callMeth C o "derive" [.int d] h

/-- C106, key derivation (C34, C85): a cleared object still derives the keys of the password; a number of iterations
below one is accepted and used as one. -/
theorem C106_pbkdf (L n : Nat) (h : Heap) (pv sv : Val) (pw salt : Bytes) (ep : bytesOf pv h = some pw)
    (hpw : pw.length ≤ 64) (es : bytesOf sv h = some salt) (hne : salt ≠ []) (c : Int) (d : Nat)
    (hd : d ≤ (2 ^ 32 - 1) * 64) :
    NewBytes (pbkdfCleared (ctx L (n + 11)) pv sv c d h) h
      (pbkdf2 (hmac512 pw) salt (if c ≤ 0 then 1 else c.toNat) d) := by
  obtain ⟨h1, r, cc, f, x, h2, h3, h4, q⟩ := (((((C99_new L (n + 2) h [("salt", sv), ("counter", .int c)]).2 pv pw ep).2
    c (Or.inr rfl)).1 sv salt rfl es hne).2 hpw)
  obtain ⟨H2, c2, f2, k2, r2, e1, e2⟩ := (C99_methods L n h1 _ r cc q).2.2.1
  have hi : Gost.Pbkdf.Inv pw salt (if c ≤ 0 then 1 else c.toNat) (pbkdfInit pw salt c).clear := by
    refine ⟨rfl, ?_, rfl, rfl⟩
    show (c - 1).toNat = _
    split <;> omega
  obtain ⟨H3, w, nb, f3, k3, hw, b, -⟩ := derive_std L n r2 hi hpw d hd
  rw [e1, e2] at k3
  have k := ((x.keeps [r, cc.hmac, cc.hash]).trans (k2.mono fun p hp _ => List.mem_cons.2 (Or.inl (List.mem_singleton.1 hp)))).trans k3
  unfold pbkdfCleared
  rw [show (ctx L (n + 11)).call = call package L (n + 2 + 9) from rfl, f, andThen_ok, f2, andThen_ok, f3]
  exact .intro (k.mono (by simp; omega)).ext (Nat.le_trans (Nat.le_trans x.length k2.length) hw) b

/-! ### Object identifiers -/

/-- `ObjectIdentifier(s).octet`. -/
def octetOf (C : Ctx) (s : String) (h : Heap) : Out Val :=
  andThen (instantiate C "ObjectIdentifier" [.str s] h) fun o h => C.call "ObjectIdentifier.octet" [o] h

theorem octetOf_new (L n : Nat) (s : String) (h : Heap) {b : Bytes} (e : Oid.octet s.toList = .ok b) :
    NewBytes (octetOf (ctx L (n + 4)) s h) h b := by
  obtain ⟨h1, f, ⟨l, rfl⟩, q⟩ := C103_new L (n + 3) s h
  have g := OidSrc.octet_ok L n q
  rw [e] at g
  rcases g.cases with ⟨b', w, l', e', f', hw, hb⟩ | ⟨e', l', e'', -⟩
  · cases e'
    unfold octetOf
    rw [f, andThen_ok, show (ctx L (n + 4)).call = call package L (n + 4) from rfl, f']
    exact .intro (((Ext.refl _).add _).add _) (by rw [List.length_append] at hw; omega) hb
  · cases e''

/-- C106, object identifiers (C39, C40): a component of three octets is not encoded as in DER, different identifiers
get the same octets, a negative component is accepted, and a single component raises `IndexError`. -/
theorem C106_oid (L n : Nat) (h : Heap) :
    NewBytes (octetOf (ctx L (n + 4)) "1.2.16384" h) h [6, 4, 42, 0x81, 0, 0] ∧
    NewBytes (octetOf (ctx L (n + 4)) "1.2.128.0" h) h [6, 4, 42, 0x81, 0, 0] ∧
    derOid [1, 2, 16384] = [6, 4, 42, 0x81, 0x80, 0] ∧
    NewBytes (octetOf (ctx L (n + 4)) "1.-5" h) h [6, 1, 35] ∧
    NewBytes (octetOf (ctx L (n + 4)) "0.35" h) h [6, 1, 35] ∧
    ∃ h', octetOf (ctx L (n + 4)) "1" h = fail .index h' := by
  obtain ⟨e1, e2, e3⟩ := C39_negation
  obtain ⟨-, e4, e5, e6⟩ := C40_negation
  have d1 : "1.2.16384".toList = dotted [1, 2, 16384] := by decide +kernel
  have d2 : "1.2.128.0".toList = dotted [1, 2, 128, 0] := by decide +kernel
  refine ⟨octetOf_new L n _ h (d1 ▸ e1), octetOf_new L n _ h (d2 ▸ e3.symm.trans e1), e2, octetOf_new L n _ h e4,
    octetOf_new L n _ h e5, ?_⟩
  obtain ⟨h1, f, ⟨l, rfl⟩, q⟩ := C103_new L (n + 3) "1" h
  have g := OidSrc.octet_ok L n q
  rw [e6] at g
  rcases g.cases with ⟨b', w, l', e', -⟩ | ⟨e', l', e'', f'⟩
  · cases e'
  · cases e''
    refine ⟨h ++ l ++ l', ?_⟩
    unfold octetOf
    rw [f, andThen_ok, show (ctx L (n + 4)).call = call package L (n + 4) from rfl, f']
    rfl

/-! Values which meet the hypotheses. -/

/-- A key, a vector and messages in memory. -/
example : let h : Heap := [.bytearray Ex.key, .bytearray (Ex.count 1 8), .bytearray [1, 2, 3]]
    bytesOf (.ref 0) h = some Ex.key ∧ Ex.key.length = 32 ∧ bytesOf (.ref 1) h = some (Ex.count 1 8) ∧
    (Ex.count 1 8).length = Alg.kuznechik.blockSize / 2 ∧ (Ex.count 1 8).length % Alg.magma.blockSize = 0 ∧
    0 < (Ex.count 1 8).length ∧ bytesOf (.ref 2) h = some [1, 2, 3] ∧ ([1, 2, 3] : Bytes).length < Alg.magma.blockSize ∧
    ([1, 2, 3] : Bytes).length % Alg.magma.blockSize ≠ 0 := by
  refine ⟨rfl, by decide, rfl, by decide, by decide, by decide, rfl, by decide, by decide⟩

/-- The padding in a case: three bytes become two blocks of Magma. -/
example (L n : Nat) : ∃ ct, cipherRun (ctx L (n + 9)) Alg.magma.name (.bytes Ex.key) modeEcb [("pad_mode", .int padMode2)]
    [.encrypt (.bytes [1, 2, 3])] [] = some [some (.ok ct)] ∧ ct.length = 16 := by
  obtain ⟨ct, e, el⟩ := C106_padding L n [] .magma (.bytes Ex.key) Ex.key rfl (by decide) (.bytes [1, 2, 3]) [1, 2, 3] rfl
    (Or.inr (by decide))
  exact ⟨ct, e, el.trans (by decide)⟩

end Gost.Src
