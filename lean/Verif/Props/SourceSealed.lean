import Verif.Props.SourceProgram
import Verif.Props.SourceParties

/-! C131, a use of it: a message which is encrypted and authenticated with keys from a password. -/

namespace Gost.Src
open Spec ModesSrc

/-- The keys from the password `p` and the salts `s1`, `s2`; the objects which are made before have the numbers below
`i`. -/
def deriveKeys (i : Nat) (p s1 s2 : Val) (it : Int) : List Act :=
  [.make (.pbkdf (.given p) (.given s1) it), .use i (.derive 32),
   .make (.pbkdf (.given p) (.given s2) it), .use (i + 1) (.derive 32)]

/-- The writer derives the keys, encrypts the message and computes the HMAC of the ciphertext. The reader derives the
keys, computes the HMAC of what was sent, and decrypts it. -/
def sealed (a name : String) (p s1 s2 v msg : Val) (it mode pad : Int) : List Act :=
  deriveKeys 0 p s1 s2 it ++
  [.make (.cipher a (.result 1) mode (some pad) (some (.given v)) none), .use 2 (.encrypt (.given msg)),
   .make (.hmac name (.result 3) none), .use 3 (.update (.result 5)), .use 3 (.digest none)] ++
  deriveKeys 4 p s1 s2 it ++
  [.make (.hmac name (.result 12) none), .use 6 (.update (.result 5)), .use 6 (.digest none),
   .make (.cipher a (.result 10) mode (some pad) (some (.given v)) none), .use 7 (.decrypt (.result 5))]

/-- What the text shows, from what the model shows. -/
theorem run_shows (L n : Nat) {h0 : Heap} (cl : Closed h0) {σ : List Act} (hσ : ∀ s ∈ σ, s.Fits L n h0) {out : List Sight}
    (e : actModel L h0 σ [] [] = out) (ho : Sight.beyond ∉ out) : actText (ctx L (n + 11)) σ [] [] h0 = out := by
  rw [C131_program L n h0 cl σ hσ (by rw [e]; exact ho), e]

/-- The model of a derivation. -/
theorem derive_model {pv sv : PyVal} {pw salt : Bytes} (hp : pv.data? = some pw) (hpw : pw.length ≤ 64)
    (hs : sv.data? = some salt) (hne : salt ≠ []) (it : Nat) :
    ∃ s, Gost.Pbkdf.new [] pv (some sv) it = .ok s ∧ (s.derive 32).2 = .ok (pbkdf2 (hmac512 pw) salt it 32) := by
  refine ⟨_, pbkdf_new_ok [] pv pw hp hpw (some sv) salt (by simp [saltUsed, hs, hne]) it, ?_⟩
  have hi : Gost.Pbkdf.Inv pw salt it ⟨pw, salt, it, 0, ⟨hmacKey pw, HashObj.hashInit "streebog512", 0⟩⟩ :=
    ⟨rfl, by show ((it : Int) - 1).toNat = it - 1; omega, rfl, rfl⟩
  exact (Gost.Pbkdf.derive_ok hi hpw 32 (by omega)).1

/-- C131, a message which is encrypted and authenticated with keys from a password: the keys are those of PBKDF2, the
reader has the same keys and the same HMAC of the ciphertext as the writer, and gets the message (with its padding in
ECB and CBC). -/
theorem C131_sealed (L n : Nat) (h0 : Heap) (cl : Closed h0) {a : Alg} {pad mode : Int} {iv : Bytes}
    {R : Bytes → Bytes → Prop} (m : Mode a pad iv mode R) (name : String) (hn : IsHmacName name) {p s1 s2 v msg : Val}
    {pw salt1 salt2 d : Bytes} (ep : bytesOf p h0 = some pw) (hpw : pw.length ≤ 64) (e1 : bytesOf s1 h0 = some salt1)
    (n1 : salt1 ≠ []) (e2 : bytesOf s2 h0 = some salt2) (n2 : salt2 ≠ []) (ev : bytesOf v h0 = some iv)
    (em : bytesOf msg h0 = some d) (it : Nat) :
    ∃ k1 k2 ct t out, k1 = pbkdf2 (hmac512 pw) salt1 it 32 ∧ k2 = pbkdf2 (hmac512 pw) salt2 it 32 ∧
      t = hmac (hashOf (hmacHash name)) k2 ct ∧ R d out ∧
      actText (ctx L (n + 11)) (sealed a.name name p s1 s2 v msg it mode pad) [] [] h0 =
        [.object, .bytes k1, .object, .bytes k2, .object, .bytes ct, .object, .nothing, .bytes t,
         .object, .bytes k1, .object, .bytes k2, .object, .nothing, .bytes t, .object, .bytes out] := by
  have fits : ∀ t ∈ sealed a.name name p s1 s2 v msg it mode pad, t.Fits L n h0 := by
    intro t ht
    have kp := bytesOf_refs ep
    have k1 := bytesOf_refs e1
    have k2 := bytesOf_refs e2
    have kv := bytesOf_refs ev
    have km := bytesOf_refs em
    have key : ∀ i, ∀ t ∈ deriveKeys i p s1 s2 it, t.Fits L n h0 := by
      intro i t ht
      simp only [deriveKeys, List.mem_cons, List.not_mem_nil, or_false] at ht
      rcases ht with rfl | rfl | rfl | rfl
      · exact ⟨by simpa [Make.args] using ⟨kp, k1⟩, trivial⟩
      · simp [Act.Fits, Meth.args]
      · exact ⟨by simpa [Make.args] using ⟨kp, k2⟩, trivial⟩
      · simp [Act.Fits, Meth.args]
    simp only [sealed, List.mem_append, List.mem_cons, List.not_mem_nil, or_false] at ht
    rcases ht with ((ht | rfl | rfl | rfl | rfl | rfl) | ht) | rfl | rfl | rfl | rfl | rfl
    · exact key 0 t ht
    · exact ⟨by simpa [Make.args, Arg.Known] using kv, trivial⟩
    · simpa [Act.Fits, Meth.args, Arg.Known] using km
    · exact ⟨by simp [Make.args, Arg.Known], trivial⟩
    · simp [Act.Fits, Meth.args, Arg.Known]
    · simp [Act.Fits, Meth.args]
    · exact key 4 t ht
    · exact ⟨by simp [Make.args, Arg.Known], trivial⟩
    · simp [Act.Fits, Meth.args, Arg.Known]
    · simp [Act.Fits, Meth.args]
    · exact ⟨by simpa [Make.args, Arg.Known] using kv, trivial⟩
    · simp [Act.Fits, Meth.args, Arg.Known]
  obtain ⟨q1, f1, g1⟩ := derive_model (pv := pyVal p h0) (sv := pyVal s1 h0) (by rw [pyVal_data, ep]) hpw
    (by rw [pyVal_data, e1]) n1 it
  obtain ⟨q2, f2, g2⟩ := derive_model (pv := pyVal p h0) (sv := pyVal s2 h0) (by rw [pyVal_data, ep]) hpw
    (by rw [pyVal_data, e2]) n2 it
  have l1 := C32_length pw salt1 it 32
  have l2 := C32_length pw salt2 it 32
  generalize pbkdf2 (hmac512 pw) salt1 it 32 = k1 at g1 l1
  generalize pbkdf2 (hmac512 pw) salt2 it 32 = k2 at g2 l2
  obtain ⟨c, ct, out, x1, hc, x2, x3, x4⟩ := mode_model m (.bytearray k1) (pyVal v h0) (pyVal msg h0) k1 d rfl l1
    (by rw [pyVal_data, ev]) (by rw [pyVal_data, em])
  have x4 := x4 (.bytearray ct) rfl
  obtain ⟨s, y1, y2, y3⟩ := (C27_hmac name hn (.bytearray k2) (.bytearray ct) k2 ct rfl (by omega) rfl).1
  refine ⟨k1, k2, ct, _, out, rfl, rfl, rfl, x3, ?_⟩
  refine run_shows L n cl fits ?_ (by simp)
  have u1 : ∀ w, (Thing.cipher c).use L (.encrypt w) = some (.cipher (encryptOf c w).1, answerBytes (encryptOf c w).2) := by
    cases c <;> first | exact hc.elim | exact fun _ => rfl
  have u2 : ∀ w, (Thing.cipher c).use L (.decrypt w) = some (.cipher (decryptOf c w).1, answerBytes (decryptOf c w).2) := by
    cases c <;> first | exact hc.elim | exact fun _ => rfl
  have u3 : ∀ (q : Gost.Pbkdf) (i : Int), (Thing.pbkdf q).use L (.derive i) =
      some (.pbkdf (q.derive i).1, answerBytes (q.derive i).2) := fun _ _ => rfl
  have u4 : ∀ (q : Gost.Hmac) (w : PyVal), (Thing.hmac q).use L (.update w) =
      some (.hmac (q.update w).1, answerUnit (q.update w).2) := fun _ _ => rfl
  have u5 : ∀ q : Gost.Hmac, (Thing.hmac q).use L (.digest none) = some (.hmac q, .bytes q.digest) := fun _ => rfl
  have w1 : (pyVal s1 h0).isEmpty = false := by rw [← Bool.not_eq_true, isEmpty_data, e1]; simpa using n1
  have w2 : (pyVal s2 h0).isEmpty = false := by rw [← Bool.not_eq_true, isEmpty_data, e2]; simpa using n2
  have w3 : ∀ (q : Gost.Pbkdf) (m : Meth PyVal), (Thing.pbkdf q).beyond L m = false := fun _ _ => rfl
  have w4 : ∀ (q : Gost.Hmac) (m : Meth PyVal), (Thing.hmac q).beyond L m = false := fun _ _ => rfl
  have w5 : ∀ (q : Cipher) (m : Meth PyVal), (Thing.cipher q).beyond L m = false := fun _ _ => rfl
  simp only [sealed, deriveKeys, actModel, Make.map, Make.model, Meth.map, Arg.py, Option.map_some, Option.map_none, f1, f2,
    Except.map, List.nil_append, List.cons_append, List.getElem?_cons_zero, List.getElem?_cons_succ, List.set_cons_zero,
    List.set_cons_succ, List.getD_cons_succ, List.getD_cons_zero, u3, u4, u5, g1, g2, answerBytes, Answer.sight,
    Answer.result, x1, u1, u2, x2, x4, y1, y2, y3, answerUnit, Make.beyond, w1, w2, w3,
    w4, w5, Bool.false_eq_true, if_false]

/-! A case: the password is the byte array of cell 2, the message that of cell 1; Kuznechik in CTR mode and the HMAC
with the hash function of 256 bits. -/

example (L n : Nat) : ∃ k1 k2 ct t, t = hmac (hashOf (hmacHash "HMAC_GOSTR3411_2012_256")) k2 ct ∧
    actText (ctx L (n + 11)) (sealed "kuznechik" "HMAC_GOSTR3411_2012_256" (.ref 2) (.bytes [1, 2]) (.bytes [3]) (.bytes (Ex.count 1 8))
        (.ref 1) 1000 modeCtr padMode1) [] [] [.list [], .bytearray Ex.key, .bytearray [9, 9, 9]] =
      [.object, .bytes k1, .object, .bytes k2, .object, .bytes ct, .object, .nothing, .bytes t,
       .object, .bytes k1, .object, .bytes k2, .object, .nothing, .bytes t, .object, .bytes Ex.key] := by
  obtain ⟨k1, k2, ct, t, out, _, _, h3, h4, h5⟩ := C131_sealed L n _ exClosed (a := .kuznechik) (pad := padMode1)
    (iv := Ex.count 1 8) (.ctr (by decide)) "HMAC_GOSTR3411_2012_256" (.inl rfl) (p := .ref 2) (s1 := .bytes [1, 2]) (s2 := .bytes [3])
    (v := .bytes (Ex.count 1 8)) (msg := .ref 1) rfl (by decide) rfl (by decide) rfl (by decide) rfl rfl 1000
  cases h4
  exact ⟨k1, k2, ct, t, h3, h5⟩

/-- The writer takes the key from a generator and encrypts the message; the generator is used once more. The reader makes
a generator with the same seed, takes the key from it, and decrypts. -/
def seededKey (a : String) (s v msg : Val) (mode pad : Int) : List Act :=
  [.make (.rand 32 (.given s) none), .use 0 .random,
   .make (.cipher a (.result 1) mode (some pad) (some (.given v)) none), .use 0 .random, .use 1 (.encrypt (.given msg)),
   .make (.rand 32 (.given s) none), .use 2 .random,
   .make (.cipher a (.result 6) mode (some pad) (some (.given v)) none), .use 3 (.decrypt (.result 4)), .use 2 .random]

/-- C131, keys from generators: both generators give the same two values, those of the recommendations, in spite of the
calls between, and the reader gets the message (with its padding in ECB and CBC). -/
theorem C131_generator (L n : Nat) (h0 : Heap) (cl : Closed h0) (hL : 0 < L) {a : Alg} {pad mode : Int} {iv : Bytes}
    {R : Bytes → Bytes → Prop} (m : Mode a pad iv mode R) {s v msg : Val} {seed d : Bytes}
    (es : bytesOf s h0 = some seed) (hs : seed.length = 48) (hz : beNat seed ≠ 0) (ev : bytesOf v h0 = some iv)
    (em : bytesOf msg h0 = some d) :
    ∃ k k' ct out, k = randOut Rand.H (beNat seed * 256 ^ 15) 0 32 ∧ k' = randOut Rand.H (beNat seed * 256 ^ 15) 1 32 ∧ R d out ∧
      actText (ctx L (n + 11)) (seededKey a.name s v msg mode pad) [] [] h0 =
        [.object, .bytes k, .object, .bytes k', .bytes ct, .object, .bytes k, .object, .bytes out, .bytes k'] := by
  have fits : ∀ t ∈ seededKey a.name s v msg mode pad, t.Fits L n h0 := by
    intro t ht
    have ks := bytesOf_refs es
    have kv := bytesOf_refs ev
    have km := bytesOf_refs em
    have sm : (Make.rand 32 (.given s) none : Make Arg).Small L n := ⟨by decide, hL⟩
    simp only [seededKey, List.mem_cons, List.not_mem_nil, or_false] at ht
    rcases ht with rfl | rfl | rfl | rfl | rfl | rfl | rfl | rfl | rfl | rfl
    · exact ⟨by simpa [Make.args, Arg.Known] using ks, sm⟩
    · simp [Act.Fits, Meth.args]
    · exact ⟨by simpa [Make.args, Arg.Known] using kv, trivial⟩
    · simp [Act.Fits, Meth.args]
    · simpa [Act.Fits, Meth.args, Arg.Known] using km
    · exact ⟨by simpa [Make.args, Arg.Known] using ks, sm⟩
    · simp [Act.Fits, Meth.args]
    · exact ⟨by simpa [Make.args, Arg.Known] using kv, trivial⟩
    · simp [Act.Fits, Meth.args, Arg.Known]
    · simp [Act.Fits, Meth.args]
  have hne : seed ≠ [] := by intro e; rw [e] at hs; cases hs
  have w : (pyVal s h0).isEmpty = false := by rw [← Bool.not_eq_true, isEmpty_data, es]; simpa using hne
  obtain ⟨g, f, out⟩ := C35_random (List.replicate 48 0) 32 (pyVal s h0) seed (by rw [pyVal_data, es]) hz (by rw [hs]; rfl)
    (by omega) 2 (by rw [hs]; decide)
  have f : Gost.Rand.new [] 32 (some (pyVal s h0)) 48 = .ok g := by
    rw [← f, hs]
    unfold Gost.Rand.new Gost.Rand.seed
    simp only [Option.getD_some, w, Bool.false_eq_true, if_false]
    rfl
  rw [hs] at out
  have l1 := C35_length (beNat seed * 256 ^ 15) 0 32
  simp only [randoms, List.range_succ, List.range_zero, List.nil_append, List.cons_append, List.map_cons, List.map_nil,
    List.cons.injEq, and_true, Nat.zero_mul, Nat.one_mul, show randUsed 32 = 1 from rfl, show 63 - 48 = 15 from rfl] at out
  obtain ⟨o1, o2⟩ := out
  generalize randOut Rand.H (beNat seed * 256 ^ 15) 0 32 = k at o1 l1
  generalize randOut Rand.H (beNat seed * 256 ^ 15) 1 32 = k' at o2
  obtain ⟨c, ct, out, x1, hc, x2, x3, x4⟩ := mode_model m (.bytearray k) (pyVal v h0) (pyVal msg h0) k d rfl l1
    (by rw [pyVal_data, ev]) (by rw [pyVal_data, em])
  have x4 := x4 (.bytearray ct) rfl
  refine ⟨k, k', ct, out, rfl, rfl, x3, ?_⟩
  refine run_shows L n cl fits ?_ (by simp)
  have u1 : ∀ w, (Thing.cipher c).use L (.encrypt w) = some (.cipher (encryptOf c w).1, answerBytes (encryptOf c w).2) := by
    cases c <;> first | exact hc.elim | exact fun _ => rfl
  have u2 : ∀ w, (Thing.cipher c).use L (.decrypt w) = some (.cipher (decryptOf c w).1, answerBytes (decryptOf c w).2) := by
    cases c <;> first | exact hc.elim | exact fun _ => rfl
  have u3 : ∀ q : Gost.Rand, (Thing.rand q).use L .random = some (.rand q.random.1, answerBytes q.random.2) := fun _ => rfl
  have w3 : ∀ q : Gost.Rand, (Thing.rand q).beyond L .random = false := fun _ => rfl
  have w5 : ∀ (q : Cipher) (m : Meth PyVal), (Thing.cipher q).beyond L m = false := fun _ _ => rfl
  simp only [seededKey, actModel, Make.map, Make.model, Meth.map, Arg.py, Option.map_some, Option.map_none, Option.getD_none, f,
    Except.map, List.nil_append, List.cons_append, List.getElem?_cons_zero, List.getElem?_cons_succ, List.set_cons_zero,
    List.set_cons_succ, List.getD_cons_succ, List.getD_cons_zero, u3, o1, o2, answerBytes, Answer.sight,
    Answer.result, x1, u1, u2, x2, x4, Make.beyond, w, w3, w5, Bool.false_eq_true, if_false]

/-! A case: a seed of 48 bytes 1, 2, …, the message is the byte array of cell 2; Magma in CBC mode with padding of type 2. -/

example (L n : Nat) (hL : 0 < L) : ∃ k k' ct out, MarkPadded 8 [9, 9, 9] out ∧
    actText (ctx L (n + 11)) (seededKey "magma" (.bytes (Ex.count 1 48)) (.bytes (Ex.count 3 16)) (.ref 2) modeCbc padMode2) [] []
      [.list [], .bytearray Ex.key, .bytearray [9, 9, 9]] =
      [.object, .bytes k, .object, .bytes k', .bytes ct, .object, .bytes k, .object, .bytes out, .bytes k'] := by
  obtain ⟨k, k', ct, out, _, _, h3, h4⟩ := C131_generator L n _ exClosed hL (a := .magma) (pad := padMode2)
    (iv := Ex.count 3 16) (.cbc (.inr rfl) (by decide) (by decide)) (s := .bytes (Ex.count 1 48)) (v := .bytes (Ex.count 3 16))
    (msg := .ref 2) rfl (by decide) (by decide) rfl rfl
  exact ⟨k, k', ct, out, h3.2 rfl, h4⟩

end Gost.Src
