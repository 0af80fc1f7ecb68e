import Verif.Props.Memory
import Verif.Props.Malleability
import Verif.Props.Pbkdf

/-! Properties C84 and C85: keys of Magma whose words read the same in both directions; iteration counts below one. -/

namespace Gost
open Spec (Alg pbkdf2 hmacKey)

/-! ### C84 -/

/-- The eight words of a key read the same forwards and backwards. -/
def Palindrome (key : Bytes) : Prop :=
  ∀ j, j < 8 → (key.drop (4 * j)).take 4 = (key.drop (4 * (7 - j))).take 4

/-- Such a key: four words of different bytes and the same four words in reverse order. -/
def weakKey : Bytes :=
  Ex.count 0 4 ++ Ex.count 4 4 ++ Ex.count 8 4 ++ Ex.count 12 4 ++
    (Ex.count 12 4 ++ Ex.count 8 4 ++ Ex.count 4 4 ++ Ex.count 0 4)

theorem weakKey_palindrome : weakKey.length = 32 ∧ Palindrome weakKey := by
  refine ⟨by decide, ?_⟩
  unfold Palindrome
  decide

namespace Magma

theorem init_keys (key : Bytes) (h : key.length = 32) {ks : List Bytes} (hi : init key = .ok ks) (n : Nat) (hn : n < 32) :
    ks.getD n [] = (key.drop (4 * (if n < 24 then n % 8 else 7 - n % 8))).take 4 := by
  have he : expand key = .ok ((List.range 8).map fun j => (key.drop (4 * j)).take 4) := by
    unfold expand
    apply mapM_ok
    intro j hj
    have hj8 : j < 8 := by simpa using hj
    rw [keyWord_ok key h (j * 4) (by omega), Nat.mul_comm]
  have hf : expandFinal key = .ok ((List.range 8).map fun j => (key.drop (4 * (7 - j))).take 4) := by
    unfold expandFinal
    apply mapM_ok
    intro j hj
    have hj8 : j < 8 := by simpa using hj
    rw [keyWord_ok key h (28 - j * 4) (by omega), show 28 - j * 4 = 4 * (7 - j) by omega]
  have e : ks = (List.range 32).map fun n => (key.drop (4 * (if n < 24 then n % 8 else 7 - n % 8))).take 4 := by
    unfold init at hi
    rw [he, hf] at hi
    simp only [Res.bind_ok, Res.pure_eq] at hi
    cases hi
    rfl
  rw [e]
  simp [List.getD, hn]

/-- The round keys then read the same in both directions. -/
theorem keys_reverse (key : Bytes) (h : key.length = 32) (hp : Palindrome key) {ks : List Bytes}
    (hi : init key = .ok ks) (n : Nat) (hn : n < 32) : ks.getD (31 - n) [] = ks.getD n [] := by
  rw [init_keys key h hi n hn, init_keys key h hi (31 - n) (by omega)]
  have h1 : ∀ m, m < 32 → (key.drop (4 * (if m < 24 then m % 8 else 7 - m % 8))).take 4 =
      (key.drop (4 * (m % 8))).take 4 := by
    intro m hm
    split
    · rfl
    · exact (hp (m % 8) (Nat.mod_lt _ (by omega))).symm
  rw [h1 _ (by omega), h1 _ hn, hp (n % 8) (Nat.mod_lt _ (by omega)), show (31 - n) % 8 = 7 - n % 8 by omega]

theorem steps_same (ks : List Bytes) (l l' : List Nat) (b : Bytes)
    (h : l.map (fun n => ks.getD n []) = l'.map (fun n => ks.getD n [])) : steps ks l b = steps ks l' b := by
  have e : ∀ l b, steps ks l b = (l.map (fun n => ks.getD n [])).foldl (fun b k => G k b) b := by
    intro l b
    unfold steps
    rw [List.foldl_map]
  rw [e, e, h]

end Magma

/-- C84: with such a key the two directions of the block cipher are the same and encrypting twice gives the block
back. -/
theorem C84_block (key : Bytes) (hk : key.length = 32) (hp : Palindrome key) :
    ∃ ks, Magma.init key = .ok ks ∧ ∀ b : Bytes, b.length = 8 → Magma.encrypt ks b = Magma.decrypt ks b ∧
      ∃ c, Magma.encrypt ks b = .ok c ∧ Magma.encrypt ks c = .ok b := by
  obtain ⟨ks, h1, hg, _, _⟩ := Magma.init_ok key hk
  have hED : ∀ b : Bytes, Magma.D ks b = Magma.E ks b := by
    intro b
    unfold Magma.D Magma.E
    rw [Magma.steps_same ks (List.range 32).reverse (List.range 32) b]
    rw [show (List.range 32).reverse = (List.range 32).map (31 - ·) by decide, List.map_map]
    apply List.map_congr_left
    intro n hn
    exact Magma.keys_reverse key hk hp h1 n (List.mem_range.1 hn)
  refine ⟨ks, h1, fun b hb => ?_⟩
  have he := Magma.encrypt_ok hg b hb
  refine ⟨by rw [he.1, (Magma.decrypt_ok hg b hb).1, hED], _, he.1, ?_⟩
  rw [(Magma.encrypt_ok hg _ he.2).1, ← hED, Magma.D_E ks b hb]

/-- C84: for each of the 2^32 words there is a block which encryption does not change, a different one for
each word. -/
theorem C84_fixed (key : Bytes) (hk : key.length = 32) (hp : Palindrome key) :
    ∃ ks, Magma.init key = .ok ks ∧ ∃ fix : Bytes → Bytes,
      (∀ w, w.length = 4 → (fix w).length = 8 ∧ Magma.encrypt ks (fix w) = .ok (fix w)) ∧
      ∀ w w', w.length = 4 → w'.length = 4 → fix w = fix w' → w = w' := by
  obtain ⟨ks, h1, hg, _, _⟩ := Magma.init_ok key hk
  have hsw : ∀ w : Bytes, w.length = 4 → Magma.sw (w ++ w) = w ++ w := by
    intro w hw
    unfold Magma.sw
    rw [List.drop_left' hw, List.take_left' hw]
  have hmid : ∀ w : Bytes, w.length = 4 →
      Magma.steps ks (List.range 16) (Magma.sw (Magma.steps ks (List.range 16).reverse (w ++ w))) = w ++ w := by
    intro w hw
    have := Magma.steps_inverse ks (List.range 16).reverse (w ++ w) (by simp [hw])
    rw [List.reverse_reverse] at this
    rw [this, hsw w hw]
  refine ⟨ks, h1, fun w => Magma.sw (Magma.steps ks (List.range 16).reverse (w ++ w)), ?_, ?_⟩
  · intro w hw
    have hl : (Magma.sw (Magma.steps ks (List.range 16).reverse (w ++ w))).length = 8 := by
      rw [Magma.sw_length, Magma.steps_length _ _ _ (by simp [hw])]
    refine ⟨hl, ?_⟩
    rw [(Magma.encrypt_ok hg _ hl).1]
    unfold Magma.E
    rw [show List.range 32 = List.range 16 ++ (List.range 16).reverse.map (31 - ·) by decide, Magma.steps_append,
      hmid w hw, Magma.steps_same ks ((List.range 16).reverse.map (31 - ·)) (List.range 16).reverse]
    rw [List.map_map]
    apply List.map_congr_left
    intro n hn
    have : n < 16 := by simpa using hn
    exact Magma.keys_reverse key hk hp h1 n (by omega)
  · intro w w' hw hw' e
    have := hmid w hw
    dsimp only at e
    rw [e, hmid w' hw'] at this
    exact ((List.append_inj this (by rw [hw, hw'])).1).symm

/-- C84, ECB: `new` takes such a key, and encrypting the ciphertext of whole blocks gives the plaintext. -/
theorem C84_ecb (kv mv : PyVal) (key msg : Bytes) (hk : kv.data? = some key) (hkl : key.length = 32)
    (hp : Palindrome key) (hm : mv.data? = some msg) (h0 : msg ≠ []) (h8 : 8 ∣ msg.length) :
    ∃ s ct, newCipher "magma" kv modeEcb (padMode := some padMode1) = .ok (.ecb s) ∧
      s.encrypt mv = (s, .ok ct) ∧ ∀ cv : PyVal, cv.data? = some ct → s.encrypt cv = (s, .ok msg) := by
  obtain ⟨o, D, e1, _, e3, hI⟩ := new_ecb .magma kv key hk hkl padMode1 (Or.inl rfl) none none
  have hb := newCipher_obj e1
  obtain ⟨ks, i1, i2⟩ := C84_block key hkl hp
  have ho : o = .magma ks := by
    have hc : (!checkValue kv 32) = false := by rw [checkValue_data hk, hkl]; rfl
    have hne : ¬ ("magma" = "kuznechik") := by decide
    change baseInit "magma" kv = .ok o at hb
    unfold baseInit at hb
    rw [if_neg (by simp), hc, hk] at hb
    simp only [Bool.false_eq_true, if_false, hne, i1, Res.bind_ok, Res.pure_eq] at hb
    cases hb
    rfl
  have hbs : o.blockSize = 8 := e3
  have hEE : ∀ b : Bytes, b.length = 8 → Alg.magma.encrypt key (Alg.magma.encrypt key b) = b := by
    intro b hb
    obtain ⟨-, c, hc1, hc2⟩ := i2 b hb
    have a1 := hI.enc b (by rw [hbs]; exact hb)
    have a2 := hI.enc (Alg.magma.encrypt key b) (hI.enc_len b (by rw [hbs]; exact hb))
    rw [ho] at a1 a2
    change Magma.encrypt ks b = _ at a1
    change Magma.encrypt ks _ = _ at a2
    rw [hc1] at a1
    cases a1
    rw [hc2] at a2
    exact (Except.ok.inj a2).symm
  have step : ∀ (v : PyVal) (d : Bytes), v.data? = some d → d ≠ [] → 8 ∣ d.length →
      Ecb.encrypt ⟨o, padMode1⟩ v = (⟨o, padMode1⟩, .ok ((Spec.blocks 8 d).map (Alg.magma.encrypt key)).flatten) := by
    intro v d hv hd h8
    have he := Ecb.encrypt_ok ⟨o, padMode1⟩ hI v d hv
    simp only [hbs] at he
    rw [he, setPadding_aligned _ _ h8 hd]
  have hl : ∀ b ∈ (Spec.blocks 8 msg).map (Alg.magma.encrypt key), b.length = 8 := by
    intro b hb
    obtain ⟨x, hx, rfl⟩ := List.mem_map.1 hb
    have := hI.enc_len x (by rw [hbs]; exact mem_blocks_length hx)
    rw [hbs] at this
    exact this
  refine ⟨_, _, e1, step mv msg hm h0 h8, fun cv hcv => ?_⟩
  have hlen : ((Spec.blocks 8 msg).map (Alg.magma.encrypt key)).flatten.length = msg.length := by
    rw [flatten_length_const _ _ hl, List.length_map, blocks_length, Nat.mul_div_cancel' h8]
  rw [step cv _ hcv (by intro h; rw [h] at hlen; exact h0 (List.eq_nil_of_length_eq_zero hlen.symm)) (by rw [hlen]; exact h8),
    blocks_flatten 8 (by decide) _ hl, List.map_map]
  congr 2
  rw [List.map_congr_left (g := id), List.map_id, flatten_blocks 8 (by decide) msg h8]
  intro b hb
  exact hEE b (mem_blocks_length hb)

/-- A case. -/
example : weakKey.length = 32 ∧ Palindrome weakKey ∧ Ex.count 3 24 ≠ [] ∧ 8 ∣ (Ex.count 3 24).length :=
  ⟨weakKey_palindrome.1, weakKey_palindrome.2, by decide, by decide⟩

/-! ### C85 -/

/-- The statement of C85: only positive numbers of iterations are accepted. -/
def C85_statement : Prop :=
  ∀ (rand : Bytes) (pv : PyVal) (salt : Option PyVal) (c : Int), c < 1 → ∀ s, Pbkdf.new rand pv salt c ≠ .ok s

/-- C85, what the code does: the number is not looked at by `new`, and every number below one is used as one. -/
theorem C85_exact (rand : Bytes) (pv : PyVal) (pw : Bytes) (hpv : pv.data? = some pw)
    (hpw : pw.length ≤ 64) (sv : PyVal) (sl : Bytes) (hsv : sv.data? = some sl) (hsl : sl ≠ [])
    (c : Int) (ns : List Nat) (hns : ∀ n ∈ ns, n ≤ (2 ^ 32 - 1) * 64) :
    ∃ s, Pbkdf.new rand pv (some sv) c = .ok s ∧
      derives s ns = ns.map fun n => .ok (pbkdf2 (hmac512 pw) sl (max c 1).toNat n) := by
  have hs : saltUsed rand (some sv) = some sl := by
    simp only [saltUsed, hsv, Option.some.injEq]
    rw [if_neg hsl]
  refine ⟨_, pbkdf_new_ok rand pv pw hpv hpw (some sv) sl hs c, ?_⟩
  have hi : Pbkdf.Inv pw sl (max c 1).toNat ⟨pw, sl, c, 0, ⟨hmacKey pw, HashObj.hashInit "streebog512", 0⟩⟩ :=
    ⟨rfl, by show (c - 1).toNat = (max c 1).toNat - 1; omega, rfl, rfl⟩
  generalize (⟨pw, sl, c, 0, ⟨hmacKey pw, HashObj.hashInit "streebog512", 0⟩⟩ : Pbkdf) = s at hi
  induction ns generalizing s with
  | nil => rfl
  | cons n ns ih =>
    obtain ⟨h1, h2⟩ := Pbkdf.derive_ok hi hpw n (hns n (by simp))
    simp only [derives, List.map_cons]
    rw [h1, ih (fun m hm => hns m (by simp [hm])) _ h2]
    rfl

/-- C85, the part which holds: for positive numbers the key of the standard with that number of iterations. (Missing:
the refusal of other numbers.) -/
theorem C85_partial (rand : Bytes) (pv : PyVal) (pw : Bytes) (hpv : pv.data? = some pw)
    (hpw : pw.length ≤ 64) (sv : PyVal) (sl : Bytes) (hsv : sv.data? = some sl) (hsl : sl ≠ [])
    (c : Int) (hc : 1 ≤ c) (n : Nat) (hn : n ≤ (2 ^ 32 - 1) * 64) :
    ∃ s, Pbkdf.new rand pv (some sv) c = .ok s ∧ (s.derive n).2 = .ok (pbkdf2 (hmac512 pw) sl c.toNat n) := by
  obtain ⟨s, h1, h2⟩ := C85_exact rand pv pw hpv hpw sv sl hsv hsl c [n] (by simpa using hn)
  refine ⟨s, h1, ?_⟩
  rw [show (max c 1).toNat = c.toNat by omega] at h2
  exact (List.cons.inj h2).1

theorem C85_statement_false : ¬ C85_statement := by
  intro h
  obtain ⟨s, h1, _⟩ := C85_exact [] (.bytes [1]) [1] rfl (by decide) (.bytes [2]) [2] rfl (by decide) (-5) [] (by simp)
  exact h _ _ _ _ (by decide) s h1

/-- A case: no iterations and minus five iterations give the key of one iteration. -/
example : (max (0 : Int) 1).toNat = 1 ∧ (max (-5 : Int) 1).toNat = 1 ∧ (max (1000 : Int) 1).toNat = 1000 := by decide

end Gost
