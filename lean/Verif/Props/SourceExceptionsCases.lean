import Verif.Props.SourceExceptionsCipher
import Verif.Props.SourceExceptionsOther
import Verif.Props.SourceDefects

/-! C116: the cases in which another exception reaches the caller, and instances of the theorems. -/

namespace Gost.Src

open Spec ModesSrc Streebog PbkdfSrc RandomSrc HmacSrc SigSrc Curves

theorem not_only {cls : String} {o : Out Val} {h : Heap} {e : Exc} (f : o = fail e h) (n : ∀ m, e ≠ .raised cls m) :
    ¬ Answers (Only cls) o := by
  subst f
  rintro ⟨m, h⟩
  exact n m h

/-- C116, a text of one byte in `MODE_MAC`: `IndexError`, in the constructor. -/
theorem C116_mac_negation (L n : Nat) (h : Heap) :
    ¬ Answers (Only "GOSTCipherError") (call package L (n + 8) "Modes.new"
      [.str "magma", .bytes Ex.key, .int modeMac, .dict [("data", .bytes [1])]] h) := by
  obtain ⟨⟨h', f⟩, -⟩ := C106_short_mac L n h .magma (.bytes Ex.key) Ex.key rfl (by decide) (.bytes [1]) [1] rfl (by simp)
    (by decide)
  exact not_only f (by simp)

/-- C116, a password of 65 bytes: the exception is the one of the module `gosthmac`. -/
theorem C116_pbkdf_negation (L n : Nat) (h : Heap) (hr : ∃ b, b.length = 32 ∧ NextRandom b h) :
    ¬ Answers (Only "GOSTPBKDFError") (call package L (n + 9) "Pbkdf.new" [.bytes (List.replicate 65 0), .dict []] h) := by
  rw [(C116_pbkdf_partial L n h (.bytes (List.replicate 65 0)) [] (known_lit _ _) (by intro k v e; cases e) 1000
    (Or.inl ⟨rfl, rfl⟩) hr).1]
  exact fun x => x ⟨_, rfl, by decide, by intro v e; cases e⟩

/-- C116, the strings `1` and `1.2.-5`: `IndexError` and `OverflowError` from `octet`. -/
theorem C116_oid_negation (L n : Nat) (h : Heap) (s : String) (hs : s = "1" ∨ s = "1.2.-5") :
    ∃ o h', instantiate (ctx L (n + 4)) "ObjectIdentifier" [.str s] h = ok o h' ∧
      ¬ AllAnswer (Only "GOSTOIDError") (ctx L (n + 4)) o [.attr "octet"] h' := by
  obtain ⟨h', f, -, a⟩ := C103_new L (n + 3) s h
  refine ⟨_, h', f, fun x => ?_⟩
  have x := x.1
  have g := a
  unfold OidAt at g
  have o := OidSrc.octet_ok L n a
  rw [show Use.run (ctx L (n + 4)) (.ref h.length) (.attr "octet") h' =
    call package L (n + 4) "ObjectIdentifier.octet" [.ref h.length] h' by simp only [Use.run]; py [g]] at x
  rcases hs with rfl | rfl
  · rw [show Oid.octet "1".toList = .error .indexError by decide +kernel] at o
    obtain ⟨l, o⟩ := o
    exact not_only o (by simp [exc]) x
  · rw [show Oid.octet "1.2.-5".toList = .error .overflowError by decide +kernel] at o
    obtain ⟨l, o⟩ := o
    exact not_only o (by simp [exc]) x

/-- C116, an order of 0: `ZeroDivisionError`. -/
theorem C116_signature_negation (F n : Nat) (hn : 739 ≤ n) (h : Heap) :
    ¬ Answers (Only "GOSTSignatureError") (call package F (n + 4) "Signature.new"
      [.int 1, .dict [("p", .int 5), ("a", .int 1), ("b", .int 0), ("m", .int 1), ("q", .int 0), ("x", .int 2), ("y", .int 0)]]
      h) := by
  have f := C104_new F n hn h 1 (l := [("p", .int 5), ("a", .int 1), ("b", .int 0), ("m", .int 1), ("q", .int 0), ("x", .int 2),
    ("y", .int 0)]) (c := { p := some 5, a := some 1, b := some 0, m := some 1, q := some 0, x := some 2, y := some 0 })
    (by constructor <;> rfl) (by decide)
    (le_trans (by norm_num : (5 : Int) ≤ 2 ^ 3) (pow_le_pow_right₀ (by norm_num) (by norm_num)))
  rw [show Sig.new 1 { p := some 5, a := some 1, b := some 0, m := some 1, q := some 0, x := some 2, y := some 0 } =
    .error .zeroDivisionError by decide +kernel] at f
  obtain ⟨h', f, -⟩ := f
  exact not_only f (by simp [exc])

/-- An empty initialization vector: the constructor returns an object, and `encrypt` raises `IndexError`. -/
theorem C116_cipher_negation (L n : Nat) (h : Heap) :
    ∃ o h', call package L (n + 9) "Modes.new" [.str "magma", .bytes Ex.key, .int modeCbc, .dict [("init_vect", .bytes [])]] h =
        ok o h' ∧
      ¬ AllAnswer (Only "GOSTCipherError") (ctx L (n + 9)) o [.meth "encrypt" [.bytes [1]]] h' := by
  have f := C106_empty_iv L n h .magma (.bytes Ex.key) Ex.key rfl (by decide) (.bytes []) (.bytes [1]) rfl [1] rfl (by simp)
    modeCbc (Or.inl rfl)
  unfold cipherRun at f
  rw [show (ctx L (n + 9)).call = call package L (n + 9) from rfl] at f
  generalize ec : call package L (n + 9) "Modes.new" [.str (Alg.magma).name, .bytes Ex.key, .int modeCbc,
    .dict [("init_vect", .bytes [])]] h = out at f
  obtain ⟨r, h'⟩ := out
  cases r with
  | error e => cases f
  | ok o =>
    refine ⟨o, h', ec, fun x => ?_⟩
    have x := x.1
    simp only [cipherCalls, Option.some.injEq, List.cons.injEq, and_true] at f
    simp only [Use.run] at x
    generalize callMeth (ctx L (n + 9)) o "encrypt" [.bytes [1]] h' = out at f x
    obtain ⟨r, h2⟩ := out
    cases r with
    | ok v =>
      unfold seen at f
      cases e : bytesOf v h2 <;> simp [e] at f
    | error e =>
      obtain ⟨m, rfl⟩ := x
      simp [seen, excOf] at f

/-! Instances. -/

theorem kw_one {k : String} {v : Val} {h : Heap} (kn : Known v h) : KwKnown [(k, v)] h := by
  intro k' v' e
  simp only [findAttr] at e
  split at e
  · cases e; exact kn
  · cases e

/-- A hash object with some data, and four uses of it, one of them with an argument of a wrong type. -/
example (o : Val) (h' : Heap)
    (e : call package 0 7 "Hash.new" [.str "streebog256", .dict [("data", .bytes [1])]] [] = ok o h') :
    AllAnswer (Only "GOSTHashError") (ctx 0 7) o [.meth "update" [.int 5], .meth "digest" [], .meth "reset" [],
      .attr "digest_size"] h' :=
  (C116_hash 0 0 [] (.str "streebog256") [("data", .bytes [1])] (kw_one (known_lit _ _))).2 o h' e _
    (by simp; refine ⟨?_, ?_, ?_, ?_⟩ <;> constructor)

/-- An HMAC object. -/
example (o : Val) (h' : Heap)
    (e : call package 0 8 "Hmac.new" [.str "HMAC_GOSTR3411_2012_256", .bytes [1, 2], .dict []] [] = ok o h') :
    AllAnswer (Only "GOSTHMACError") (ctx 0 8) o [.meth "update" [.none], .meth "clear" [], .meth "digest" [],
      .attr "block_size"] h' :=
  (C116_hmac 0 0 [] (.str "HMAC_GOSTR3411_2012_256") (.bytes [1, 2]) [] (known_lit _ _) (by intro k v e; cases e)).2 o h' e _
    (by simp; refine ⟨?_, ?_, ?_, ?_⟩ <;> constructor)

/-- A password of 64 bytes and no salt, with 32 random bytes at hand. -/
example : Answers (Only "GOSTPBKDFError") (call package 0 (0 + 9) "Pbkdf.new" [.bytes (List.replicate 64 0), .dict []]
    [.list [.bytes (List.replicate 32 3)]]) := by
  rw [(C116_pbkdf_partial 0 0 [.list [.bytes (List.replicate 32 3)]] (.bytes (List.replicate 64 0)) [] (known_lit _ _)
    (by intro k v e; cases e) 1000 (Or.inl ⟨rfl, rfl⟩) ⟨List.replicate 32 3, by simp, [], rfl⟩).1]
  rintro ⟨pw, e, h, -⟩
  cases e
  simp at h

/-- A generator of 100 bytes. -/
example (o : Val) (h' : Heap)
    (e : call package 2 8 "Random.new" [.int 100, .dict []] [.list [.bytes (List.replicate 48 3)]] = ok o h') :
    AllAnswer (Only "GOSTRandomError") (ctx 2 8) o [.meth "random" [], .meth "reset" [.bytes [1]], .meth "clear" []] h' :=
  (C116_random 2 0 _ 100 [] (by intro k v e; cases e) 48 (Or.inl ⟨rfl, rfl⟩) (by decide)
    ⟨List.replicate 48 3, by simp, [], rfl⟩).2 o h' e _ (by
      simp
      exact ⟨.random, .reset _ (by intro r h; cases h) (by simp [bytesOf]), .clear⟩) (by decide)

/-- Kuznechik in CBC mode with its default vector, and a use with an argument of a wrong type. -/
example (o : Val) (h' : Heap)
    (e : call package 0 9 "Modes.new" [.str "kuznechik", .bytes (List.replicate 32 1), .int modeCbc, .dict []] [] = ok o h') :
    AllAnswer (Only "GOSTCipherError") (ctx 0 9) o [.meth "encrypt" [.int 1], .meth "clear" [], .meth "decrypt" [.bytes [1]],
      .attr "iv"] h' :=
  C116_cipher_partial 0 0 [] "kuznechik" (.bytes (List.replicate 32 1)) (known_lit _ _) modeCbc [] (by intro k v e; cases e)
    padMode1 (Or.inl ⟨rfl, rfl⟩) (by decide) (by intro v e; cases e) o h' e _ (by
      simp
      exact ⟨.encrypt _ (fun r h => by cases h), .clear, .decrypt _ (known_lit _ _), .iv (Or.inl rfl)⟩)

/-- A MAC object: texts of 16 bytes or of a wrong type, and then a short one. -/
example (o : Val) (h' : Heap)
    (e : call package 0 9 "Modes.new" [.str "kuznechik", .bytes (List.replicate 32 1), .int modeMac, .dict []] [] = ok o h') :
    AllAnswer (Only "GOSTCipherError") (ctx 0 9) o [.meth "update" [.bytes (List.replicate 16 1)], .meth "update" [.none],
      .meth "digest" [.int 99]] h' ∧
    AllAnswer (fun e => Only "GOSTCipherError" e ∨ e = .index) (ctx 0 9) o [.meth "update" [.bytes [1]],
      .meth "digest" [.int 4]] h' := by
  have f := fun us => C116_mac_partial 0 0 [] "kuznechik" (.bytes (List.replicate 32 1)) (known_lit _ _) []
    (by intro k v e; cases e) padMode1 (Or.inl ⟨rfl, rfl⟩) o h' e us
  refine ⟨(f _).1 ?_, (f _).2 ?_⟩
  · simp
    refine ⟨.update _ (known_lit _ _) (Or.inr ?_), .update _ (fun r h => by cases h) (Or.inr ?_), .digest _⟩
    · intro d h; cases h; simp
    · intro d h; cases h
  · simp
    exact ⟨.update _ (known_lit _ _) (Or.inl rfl), .digest _⟩

/-- A signature object with a built-in curve, and uses with arguments of wrong types. -/
example (n : Nat) (hn : 739 ≤ n) (o : Val) (h' : Heap)
    (e : call package 1001 (n + 4) "Signature.new" [.int 1, .dict (intDict (curveInts c256B))] [] = ok o h') :
    AllAnswer (fun e => Only "GOSTSignatureError" e ∨ e = .fuel) (ctx 1001 (n + 4)) o [.meth "public_key_generate" [.none],
      .meth "sign" [.bytes [1], .int 2, .bytes [3]], .meth "verify" [.bytes [], .none, .int 3]] h' :=
  (C116_signature_partial 1000 n hn [] 1 (curveDict c256B) (by decide +kernel) (by decide +kernel)).2 o h' e _ (by
    simp
    exact ⟨.key _, .sign _ _ _ (known_lit _ _) (by simp [bytesOf]), .verify _ _ _⟩)

end Gost.Src
