import Verif.Proofs.Pbkdf
import Verif.Proofs.Clear
import Verif.Props.Hmac

/-! Properties C32 to C34: the password-based key derivation. -/

namespace Gost
open Spec (pbkdf2 hmac hashOf hmacKey)

/-- HMAC_GOSTR3411_2012_512 of the specification with the password as the key. -/
def hmac512 (pw : Bytes) : Bytes → Bytes := hmac (hashOf "streebog512") pw

theorem prf_hmac512 (pw : Bytes) : prf pw = hmac512 pw := rfl

/-- The salt which is used: the argument, or the random bytes when it is omitted or empty. -/
def saltUsed (rand : Bytes) : Option PyVal → Option Bytes
  | none => some rand
  | some v => if v.data? = some [] then some rand else v.data?

theorem isEmpty_iff (v : PyVal) : v.isEmpty = true ↔ v.data? = some [] := by
  cases v <;> simp [PyVal.isEmpty, PyVal.data?]

theorem salt_resolved (rand : Bytes) (salt : Option PyVal) :
    (if (salt.getD (.bytearray [])).isEmpty then PyVal.bytearray rand
      else salt.getD (.bytearray [])).data? = saltUsed rand salt := by
  cases salt with
  | none => rfl
  | some v =>
    simp only [Option.getD_some, saltUsed]
    by_cases h : v.data? = some []
    · rw [if_pos h, if_pos ((isEmpty_iff v).2 h)]; rfl
    · rw [if_neg h, if_neg (by rw [isEmpty_iff]; exact h)]

/-- The exact result of `new`. -/
theorem pbkdf_new (rand : Bytes) (pv : PyVal) (salt : Option PyVal) (c : Int) :
    Pbkdf.new rand pv salt c =
      match pv.data?, saltUsed rand salt with
      | none, _ => .error (.pbkdfError "GOSTPBKDFError: invalid password value")
      | some _, none => .error (.pbkdfError "GOSTPBKDFError: invalid salt value")
      | some pw, some sl =>
        if 64 < pw.length then .error (.hmacError "GOSTHMACError: invalid key value")
        else .ok ⟨pw, sl, c, 0, ⟨hmacKey pw, HashObj.hashInit "streebog512", 0⟩⟩ := by
  unfold Pbkdf.new
  have hs := salt_resolved rand salt
  cases pv.data? with
  | none => rfl
  | some pw =>
    simp only [hs]
    cases saltUsed rand salt with
    | none => rfl
    | some sl =>
      simp only
      by_cases hl : 64 < pw.length
      · rw [if_pos hl]
        have := C27_rejects "HMAC_GOSTR3411_2012_512" (Or.inr rfl) (.bytearray pw)
          (some (.bytearray [])) (by intro k hk; cases hk; exact hl)
        rw [this]
      · rw [if_neg hl]
        have : Hmac.new "HMAC_GOSTR3411_2012_512" (.bytearray pw) (some (.bytearray [])) =
            .ok ⟨hmacKey pw, HashObj.hashInit "streebog512", 0⟩ := by
          unfold Hmac.new
          rw [Hmac.initKey_ok _ (Or.inr rfl) (.bytearray pw) pw rfl (by omega)]
          rfl
        rw [this]

theorem pbkdf_new_ok (rand : Bytes) (pv : PyVal) (pw : Bytes) (hpv : pv.data? = some pw)
    (hpw : pw.length ≤ 64) (salt : Option PyVal) (sl : Bytes) (hs : saltUsed rand salt = some sl)
    (c : Int) : Pbkdf.new rand pv salt c =
      .ok ⟨pw, sl, c, 0, ⟨hmacKey pw, HashObj.hashInit "streebog512", 0⟩⟩ := by
  rw [pbkdf_new, hpv, hs]
  simp only
  rw [if_neg (by omega)]

/-! ### C32 -/

/-- The results of a sequence of `derive` calls. -/
def derives (s : Pbkdf) : List Nat → List (Res Bytes)
  | [] => []
  | n :: ns => (s.derive n).2 :: derives (s.derive n).1 ns

/-- C32: every sequence of `derive` calls returns the leading bytes of T_1 || T_2 || …. -/
theorem C32_pbkdf2 (rand : Bytes) (pv : PyVal) (pw : Bytes) (hpv : pv.data? = some pw)
    (hpw : pw.length ≤ 64) (sv : PyVal) (sl : Bytes) (hsv : sv.data? = some sl) (hsl : sl ≠ [])
    (c : Nat) (ns : List Nat) (hns : ∀ n ∈ ns, n ≤ (2 ^ 32 - 1) * 64) :
    ∃ s, Pbkdf.new rand pv (some sv) c = .ok s ∧
      derives s ns = ns.map fun n => .ok (pbkdf2 (hmac512 pw) sl c n) := by
  have hs : saltUsed rand (some sv) = some sl := by
    simp only [saltUsed, hsv, Option.some.injEq]
    rw [if_neg hsl]
  refine ⟨_, pbkdf_new_ok rand pv pw hpv hpw (some sv) sl hs c, ?_⟩
  have hi : Pbkdf.Inv pw sl c ⟨pw, sl, c, 0, ⟨hmacKey pw, HashObj.hashInit "streebog512", 0⟩⟩ :=
    ⟨rfl, by show ((c : Int) - 1).toNat = c - 1; omega, rfl, rfl⟩
  generalize (⟨pw, sl, c, 0, ⟨hmacKey pw, HashObj.hashInit "streebog512", 0⟩⟩ : Pbkdf) = s at hi
  induction ns generalizing s with
  | nil => rfl
  | cons n ns ih =>
    obtain ⟨h1, h2⟩ := Pbkdf.derive_ok hi hpw n (hns n (by simp))
    simp only [derives, List.map_cons]
    rw [h1, ih (fun m hm => hns m (by simp [hm])) _ h2]
    rfl

/-- C32, the length. -/
theorem C32_length (pw salt : Bytes) (c n : Nat) : (pbkdf2 (hmac512 pw) salt c n).length = n :=
  Pbkdf.pbkdf2_length pw salt c n

/-- C32, a shorter key is a prefix of a longer one. -/
theorem C32_prefix (pw salt : Bytes) (c m n : Nat) (h : m ≤ n) :
    pbkdf2 (hmac512 pw) salt c m = (pbkdf2 (hmac512 pw) salt c n).take m := by
  rw [← prf_hmac512, ← Pbkdf.take_blocks pw salt c n m (by omega),
    ← Pbkdf.take_blocks pw salt c n n (by omega), List.take_take, Nat.min_eq_left h]

/-- C32, block `i+1` of the output is T_(i+1) = U_1 ⊕ … ⊕ U_c, taken from any output long enough. -/
theorem C32_block (pw salt : Bytes) (c n i : Nat) (h : 64 * (i + 1) ≤ n) :
    ((pbkdf2 (hmac512 pw) salt c n).drop (64 * i)).take 64 = Spec.pbkdfT (hmac512 pw) salt c (i + 1) := by
  rw [← prf_hmac512, List.take_drop, show 64 * i + 64 = 64 * (i + 1) by omega, prf_hmac512,
    ← C32_prefix pw salt c _ _ h, ← prf_hmac512,
    ← Pbkdf.take_blocks pw salt c (i + 1) _ (by omega),
    List.take_of_length_le (by rw [Pbkdf.blocks_len]; omega), Spec.pbkdfBlocks,
    List.drop_left' (Pbkdf.blocks_len pw salt c i)]

/-- `hexderive` is the hexadecimal form of the same bytes. -/
theorem C32_hexderive (s : Pbkdf) (n : Int) :
    (s.hexderive n).2 = (s.derive n).2.map pyHex ∧ (s.hexderive n).1 = (s.derive n).1 := by
  unfold Pbkdf.hexderive
  rcases h : s.derive n with ⟨t, r | r⟩ <;> simp [Except.map]

/-- A case: two iterations, three calls. -/
example : (PyVal.bytes [0x70, 0x77]).data? = some [0x70, 0x77] ∧ [0x73, 0x61] ≠ ([] : Bytes) ∧
    ∀ n ∈ [10, 64, 100], n ≤ (2 ^ 32 - 1) * 64 := by decide

/-! ### C33 -/

/-- C33: `new` fails exactly for passwords which are not byte objects or longer than 64 bytes and
for salts which are not byte objects. (For a long password the exception is a `GOSTHMACError`.) -/
theorem C33_new (rand : Bytes) (pv : PyVal) (salt : Option PyVal) (c : Int) :
    (∃ s, Pbkdf.new rand pv salt c = .ok s) ↔
      (∃ pw, pv.data? = some pw ∧ pw.length ≤ 64) ∧
        (salt = none ∨ ∃ v sl, salt = some v ∧ v.data? = some sl) := by
  rw [pbkdf_new]
  have hsalt : (salt = none ∨ ∃ v sl, salt = some v ∧ v.data? = some sl) ↔
      ∃ sl, saltUsed rand salt = some sl := by
    cases salt with
    | none => simp [saltUsed]
    | some v =>
      simp only [saltUsed, reduceCtorEq, Option.some.injEq, false_or]
      by_cases h : v.data? = some []
      · rw [if_pos h]; exact ⟨fun _ => ⟨rand, rfl⟩, fun _ => ⟨v, [], rfl, h⟩⟩
      · rw [if_neg h]
        exact ⟨fun ⟨_, sl, he, hd⟩ => ⟨sl, he ▸ hd⟩, fun ⟨sl, hd⟩ => ⟨v, sl, rfl, hd⟩⟩
  rw [hsalt]
  cases pv.data? with
  | none => simp
  | some pw =>
    cases saltUsed rand salt with
    | none => simp
    | some sl =>
      simp only [Option.some.injEq, exists_eq_left']
      by_cases hl : 64 < pw.length
      · rw [if_pos hl]
        constructor
        · rintro ⟨s, hs⟩; cases hs
        · rintro ⟨h, -⟩; omega
      · rw [if_neg hl]
        exact ⟨fun _ => ⟨by omega, ⟨sl, rfl⟩⟩, fun _ => ⟨_, rfl⟩⟩

/-- C33, the errors of `new`. -/
theorem C33_errors (rand : Bytes) (pv : PyVal) (salt : Option PyVal) (c : Int) :
    (pv.data? = none → Pbkdf.new rand pv salt c =
      .error (.pbkdfError "GOSTPBKDFError: invalid password value")) ∧
    (∀ pw, pv.data? = some pw → salt = some .other → Pbkdf.new rand pv salt c =
      .error (.pbkdfError "GOSTPBKDFError: invalid salt value")) ∧
    (∀ pw sl, pv.data? = some pw → 64 < pw.length → saltUsed rand salt = some sl →
      Pbkdf.new rand pv salt c = .error (.hmacError "GOSTHMACError: invalid key value")) := by
  refine ⟨?_, ?_, ?_⟩
  · intro h; rw [pbkdf_new, h]
  · intro pw h hs
    rw [pbkdf_new, h, hs]
    rfl
  · intro pw sl h hl hs
    rw [pbkdf_new, h, hs]
    simp only
    rw [if_pos hl]

/-- C33, the salt: omitted or empty means the 32 random bytes, otherwise the argument. -/
theorem C33_salt (rand : Bytes) (pv : PyVal) (salt : Option PyVal) (c : Int) (s : Pbkdf)
    (h : Pbkdf.new rand pv salt c = .ok s) :
    (salt = none ∨ (∃ v, salt = some v ∧ v.data? = some []) → s.salt = rand) ∧
    (∀ v sl, salt = some v → v.data? = some sl → sl ≠ [] → s.salt = sl) := by
  rw [pbkdf_new] at h
  have key : ∀ sl, saltUsed rand salt = some sl → s.salt = sl := by
    intro sl hs
    rw [hs] at h
    cases hp : pv.data? with
    | none => rw [hp] at h; cases h
    | some pw =>
      rw [hp] at h
      simp only at h
      split at h
      · cases h
      · cases h; rfl
  constructor
  · rintro (rfl | ⟨v, rfl, hv⟩)
    · exact key _ rfl
    · exact key _ (by simp only [saltUsed]; rw [if_pos hv])
  · rintro v sl rfl hv hne
    refine key _ ?_
    simp only [saltUsed]
    rw [if_neg (by rw [hv]; simpa using hne), hv]

/-- C33, `derive` (and `hexderive`): the only rejected lengths are those above (2^32-1)*64, and a
rejected call leaves the object unchanged. -/
theorem C33_derive (s : Pbkdf) (n : Int) :
    ((∃ e, (s.derive n).2 = .error e) ↔ n > (2 ^ 32 - 1) * 64) ∧
    (n > (2 ^ 32 - 1) * 64 → s.derive n =
      (s, .error (.pbkdfError "GOSTPBKDFError: invalid size of the derived key"))) := by
  unfold Pbkdf.derive
  by_cases h : n > (2 ^ 32 - 1) * 64
  · rw [if_pos h]
    exact ⟨⟨fun _ => h, fun _ => ⟨_, rfl⟩⟩, fun _ => rfl⟩
  · rw [if_neg h]
    refine ⟨⟨?_, fun h' => absurd h' h⟩, fun h' => absurd h' h⟩
    rintro ⟨e, he⟩
    cases he

/-- A rejected and an accepted case. -/
example : (PyVal.bytes (Ex.count 0 65)).data? = some (Ex.count 0 65) ∧
    64 < (Ex.count 0 65).length ∧ saltUsed [1] (some (.bytes [5])) = some [5] := by decide

/-! ### C34 -/

/-- C34, exact behaviour: `clear` has no effect on `derive`: for every object made by `new` and any
sequence of `derive` calls before and after, the results are those without `clear`, and they still
depend on the password in the same way. -/
theorem C34_exact (rand : Bytes) (pv : PyVal) (pw : Bytes) (hpv : pv.data? = some pw)
    (hpw : pw.length ≤ 64) (sv : PyVal) (sl : Bytes) (hsv : sv.data? = some sl) (hsl : sl ≠ [])
    (c : Nat) (ns : List Nat) (hns : ∀ n ∈ ns, n ≤ (2 ^ 32 - 1) * 64) :
    ∃ s, Pbkdf.new rand pv (some sv) c = .ok s ∧
      derives s.clear ns = derives s ns ∧
      derives s.clear ns = ns.map fun n => .ok (pbkdf2 (hmac512 pw) sl c n) := by
  obtain ⟨s, h1, h2⟩ := C32_pbkdf2 rand pv pw hpv hpw sv sl hsv hsl c ns hns
  refine ⟨s, h1, ?_⟩
  suffices h : derives s.clear ns = ns.map fun n => .ok (pbkdf2 (hmac512 pw) sl c n) from
    ⟨by rw [h, h2], h⟩
  have hs : saltUsed rand (some sv) = some sl := by
    simp only [saltUsed, hsv, Option.some.injEq]
    rw [if_neg hsl]
  rw [pbkdf_new_ok rand pv pw hpv hpw (some sv) sl hs c] at h1
  cases h1
  have hi : Pbkdf.Inv pw sl c
      (⟨pw, sl, c, 0, ⟨hmacKey pw, HashObj.hashInit "streebog512", 0⟩⟩ : Pbkdf).clear :=
    ⟨rfl, by show ((c : Int) - 1).toNat = c - 1; omega, rfl, rfl⟩
  generalize (⟨pw, sl, c, 0, ⟨hmacKey pw, HashObj.hashInit "streebog512", 0⟩⟩ : Pbkdf).clear = s at hi
  clear h2 hs
  induction ns generalizing s with
  | nil => rfl
  | cons n ns ih =>
    obtain ⟨h1, h2⟩ := Pbkdf.derive_ok hi hpw n (hns n (by simp))
    simp only [derives, List.map_cons]
    rw [h1, ih (fun m hm => hns m (by simp [hm])) _ h2]
    rfl

/-- The statement of C34. -/
def C34_statement : Prop :=
  ∀ (rand pw pw' sl : Bytes) (c : Nat) (s s' : Pbkdf), sl ≠ [] →
    Pbkdf.new rand (.bytes pw) (some (.bytes sl)) c = .ok s →
    Pbkdf.new rand (.bytes pw') (some (.bytes sl)) c = .ok s' →
    ∀ n : Nat, (s.clear.derive n).2 = (s'.clear.derive n).2

theorem derive_password (s : Pbkdf) (n : Int) : (s.derive n).1.password = s.password := by
  have hf : ∀ s : Pbkdf, s.f.1.password = s.password := by
    intro s
    unfold Pbkdf.f
    dsimp only
    generalize List.range _ = l
    suffices h : ∀ (l : List Nat) (st : Pbkdf × Bytes × Bytes), (l.foldl
        (fun (st : Pbkdf × Bytes × Bytes) _ =>
          let (s, u) := st.1.uIter st.2.1
          (s, u, addXor st.2.2 u)) st).1.password = st.1.password by
      rw [h]; rfl
    intro l
    induction l with
    | nil => intro st; rfl
    | cons a l ih => intro st; rw [List.foldl_cons, ih]; rfl
  unfold Pbkdf.derive
  split
  · rfl
  · unfold Pbkdf.calculate
    dsimp only
    generalize List.range _ = l
    suffices h : ∀ (l : List Nat) (st : Pbkdf × Bytes), (l.foldl
        (fun (st : Pbkdf × Bytes) i =>
          let (s, t) := Pbkdf.f { st.1 with counter := i + 1 }
          (s, st.2 ++ t)) st).1.password = st.1.password by
      exact h l (s, [])
    intro l
    induction l with
    | nil => intro st; rfl
    | cons a l ih => intro st; rw [List.foldl_cons, ih]; exact hf _

/-- The part of C34 that holds: the attribute password itself is overwritten; after `clear` it is the same for
all passwords of the same length, whatever was derived before. Missing: `derive` reads the key kept by the HMAC
object, not the attribute (`C34_exact`). -/
theorem C34_attribute_partial (rand : Bytes) (pv pv' : PyVal) (pw pw' : Bytes) (hpv : pv.data? = some pw)
    (hpv' : pv'.data? = some pw') (hl : pw.length = pw'.length) (salt salt' : Option PyVal) (c c' : Int) {s s' : Pbkdf}
    (h : Pbkdf.new rand pv salt c = .ok s) (h' : Pbkdf.new rand pv' salt' c' = .ok s') (n n' : Int) :
    (s.derive n).1.clear.password = (s'.derive n').1.clear.password ∧
      (s.derive n).1.clear.password.length = 4 * pw.length := by
  have hp : ∀ (v : PyVal) (w : Bytes) (sa : Option PyVal) (c : Int) (s : Pbkdf) (n : Int), v.data? = some w →
      Pbkdf.new rand v sa c = .ok s → (s.derive n).1.password = w := by
    intro v w sa c s n hv h
    have : s.password = w := by
      rw [pbkdf_new, hv] at h
      cases hs : saltUsed rand sa with
      | none => rw [hs] at h; cases h
      | some sl =>
        rw [hs] at h
        dsimp only at h
        split at h
        · cases h
        · cases h; rfl
    rw [← this]
    exact derive_password s n
  have e1 := hp pv pw salt c s n hpv h
  have e2 := hp pv' pw' salt' c' s' n' hpv' h'
  constructor
  · show zeroFill _ = zeroFill _
    rw [e1, e2, zeroFill, zeroFill, hl]
  · show (zeroFill _).length = _
    rw [e1, zeroFill_length]

/-- C34 is false of the code: the derived keys after `clear` differ for two passwords. -/
theorem C34_negation : ∃ s s', Pbkdf.new [] (.bytes [1]) (some (.bytes [5])) 1 = .ok s ∧
    Pbkdf.new [] (.bytes [2]) (some (.bytes [5])) 1 = .ok s' ∧
    (s.clear.derive 1).2 ≠ (s'.clear.derive 1).2 := by
  obtain ⟨s, h1, -, h2⟩ := C34_exact [] (.bytes [1]) [1] rfl (by decide) (.bytes [5]) [5] rfl (by simp) 1
    [1] (by simp)
  obtain ⟨s', h1', -, h2'⟩ := C34_exact [] (.bytes [2]) [2] rfl (by decide) (.bytes [5]) [5] rfl
    (by simp) 1 [1] (by simp)
  refine ⟨s, s', h1, h1', ?_⟩
  simp only [derives, List.map_cons, List.map_nil, List.cons.injEq, and_true] at h2 h2'
  have e1 : (s.clear.derive 1).2 = .ok (pbkdf2 (hmac512 [1]) [5] 1 1) := h2
  have e2 : (s'.clear.derive 1).2 = .ok (pbkdf2 (hmac512 [2]) [5] 1 1) := h2'
  rw [e1, e2]
  have u : ∀ pw : Bytes, pbkdf2 (hmac512 pw) [5] 1 1 = (hmac512 pw ([5] ++ Spec.beBytes 4 1)).take 1 := by
    intro pw; rfl
  rw [u, u]
  unfold hmac512 hmac
  rw [hash512_fast, hash512_fast, hash512_fast, hash512_fast]
  decide +kernel

theorem C34_statement_false : ¬ C34_statement := by
  intro h
  obtain ⟨s, s', h1, h2, h3⟩ := C34_negation
  exact h3 (h [] [1] [2] [5] 1 s s' (by simp) h1 h2 1)

end Gost
