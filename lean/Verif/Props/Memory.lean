import Verif.Model.Alias
import Verif.Props.Ident
import Verif.Props.RandomStore

/-! Property C81: how many bytes of secret material an object keeps. -/

namespace Gost
open Spec (Alg beNat)

/-! ### Ciphers -/

/-- The bytes of all round keys. -/
def CipherObj.keyBytes : CipherObj → Nat
  | .kuz ks => ks.flatten.length
  | .magma ks => ks.flatten.length

/-- A call which erases the keys: `clear`, or data which are not a byte object given to a method which the class has. -/
def erases : Cipher → MethodCall → Bool
  | _, .clear => true
  | .mac _, .update v => v.data?.isNone
  | .mac _, _ => false
  | _, .encrypt v => v.data?.isNone
  | _, .decrypt v => v.data?.isNone
  | _, _ => false

/-- The number of such calls in a sequence. -/
def erasures (c : Cipher) (ms : List MethodCall) : Nat := (ms.filter (erases c)).length

theorem flatten_zeroFill (ks : List Bytes) : (ks.map zeroFill).flatten.length = 4 * ks.flatten.length := by
  induction ks with
  | nil => rfl
  | cons k ks ih =>
    rw [List.map_cons, List.flatten_cons, List.flatten_cons, List.length_append, List.length_append, ih,
      zeroFill_length]
    omega

theorem CipherObj.clear_keyBytes (o : CipherObj) : o.clear.keyBytes = 4 * o.keyBytes := by
  cases o <;> exact flatten_zeroFill _

theorem Ecb.encrypt_obj (s : Ecb) (v : PyVal) :
    (s.encrypt v).1.obj = if v.data?.isNone then s.obj.clear else s.obj := by
  unfold Ecb.encrypt
  split
  · next h => rw [h]; rfl
  · next d h =>
    rw [h]
    refine blockLoop_keeps (fun t : Ecb => t.obj = s.obj) _ _ _ ?_ _ _ _ rfl
    intro t b t' out ht h
    obtain ⟨x, _, h2⟩ := Res.bind_eq_ok h
    cases h2
    exact ht

theorem Ecb.decrypt_obj (s : Ecb) (v : PyVal) :
    (s.decrypt v).1.obj = if v.data?.isNone then s.obj.clear else s.obj := by
  unfold Ecb.decrypt
  split
  · next h => rw [h]; rfl
  · next d h =>
    rw [h]
    refine blockLoop_keeps (fun t : Ecb => t.obj = s.obj) _ _ _ ?_ _ _ _ rfl
    intro t b t' out ht h
    obtain ⟨x, _, h2⟩ := Res.bind_eq_ok h
    cases h2
    exact ht

theorem Cbc.encrypt_obj (s : Cbc) (v : PyVal) :
    (s.encrypt v).1.obj = if v.data?.isNone then s.obj.clear else s.obj := by
  unfold Cbc.encrypt
  split
  · next h => rw [h]; rfl
  · next d h =>
    rw [h]
    refine blockLoop_keeps (fun t : Cbc => t.obj = s.obj) _ _ _ ?_ _ _ _ rfl
    intro t b t' out ht h
    obtain ⟨x, _, h2⟩ := Res.bind_eq_ok h
    cases h2
    exact ht

theorem Cbc.decrypt_obj (s : Cbc) (v : PyVal) :
    (s.decrypt v).1.obj = if v.data?.isNone then s.obj.clear else s.obj := by
  unfold Cbc.decrypt
  split
  · next h => rw [h]; rfl
  · next d h =>
    rw [h]
    refine blockLoop_keeps (fun t : Cbc => t.obj = s.obj) _ _ _ ?_ _ _ _ rfl
    intro t b t' out ht h
    obtain ⟨x, _, h2⟩ := Res.bind_eq_ok h
    cases h2
    exact ht

theorem Cfb.encrypt_obj (s : Fb) (v : PyVal) :
    (Cfb.encrypt s v).1.obj = if v.data?.isNone then s.obj.clear else s.obj := by
  unfold Cfb.encrypt
  split
  · next h => rw [h]; rfl
  · next d h =>
    rw [h]
    dsimp only
    rw [Fb.tail_state]
    refine blockLoop_keeps (fun t : Fb => t.obj = s.obj) _ _ _ ?_ _ _ _ rfl
    intro t b t' out ht h
    obtain ⟨x, _, h2⟩ := Res.bind_eq_ok h
    cases h2
    exact ht

theorem Cfb.decrypt_obj (s : Fb) (v : PyVal) :
    (Cfb.decrypt s v).1.obj = if v.data?.isNone then s.obj.clear else s.obj := by
  unfold Cfb.decrypt
  split
  · next h => rw [h]; rfl
  · next d h =>
    rw [h]
    dsimp only
    rw [Fb.tail_state]
    refine blockLoop_keeps (fun t : Fb => t.obj = s.obj) _ _ _ ?_ _ _ _ rfl
    intro t b t' out ht h
    obtain ⟨x, _, h2⟩ := Res.bind_eq_ok h
    cases h2
    exact ht

theorem Ofb.encrypt_obj (s : Fb) (v : PyVal) :
    (Ofb.encrypt s v).1.obj = if v.data?.isNone then s.obj.clear else s.obj := by
  unfold Ofb.encrypt
  split
  · next h => rw [h]; rfl
  · next d h =>
    rw [h]
    dsimp only
    rw [Fb.tail_state]
    refine blockLoop_keeps (fun t : Fb => t.obj = s.obj) _ _ _ ?_ _ _ _ rfl
    intro t b t' out ht h
    obtain ⟨x, _, h2⟩ := Res.bind_eq_ok h
    cases h2
    exact ht

theorem Ofb.decrypt_obj (s : Fb) (v : PyVal) :
    (Ofb.decrypt s v).1.obj = if v.data?.isNone then s.obj.clear else s.obj := by
  unfold Ofb.decrypt
  split
  · next h => rw [h]; rfl
  · exact Ofb.encrypt_obj s v

theorem Ctr.encrypt_obj (s : Ctr) (v : PyVal) :
    (s.encrypt v).1.obj = if v.data?.isNone then s.obj.clear else s.obj := by
  unfold Ctr.encrypt
  split
  · next h => rw [h]; rfl
  · next d hd =>
    rw [hd]
    have hl : (blockLoop Ctr.step s.obj.blockSize d
        (List.range (getNumBlock s.obj.blockSize d)) s []).1.obj = s.obj := by
      refine blockLoop_keeps (fun t : Ctr => t.obj = s.obj) _ _ _ ?_ _ _ _ rfl
      intro t b t' out ht h
      rw [Ctr.step_obj h]
      exact ht
    dsimp only
    generalize blockLoop Ctr.step s.obj.blockSize d
        (List.range (getNumBlock s.obj.blockSize d)) s [] = r at hl ⊢
    obtain ⟨t, r⟩ := r
    cases r with
    | error e => exact hl
    | ok r =>
      dsimp only
      split
      · split
        · exact hl
        · next t' f e => dsimp only; rw [Ctr.step_obj e]; exact hl
      · exact hl

theorem Ctr.decrypt_obj (s : Ctr) (v : PyVal) :
    (s.decrypt v).1.obj = if v.data?.isNone then s.obj.clear else s.obj := by
  unfold Ctr.decrypt
  split
  · next h => rw [h]; rfl
  · exact Ctr.encrypt_obj s v

theorem Mac.update_clears (s : Mac) (v : PyVal) :
    (s.update v).1.obj = if v.data?.isNone then s.obj.clear else s.obj := by
  unfold Mac.update
  split
  · next h => rw [h]; rfl
  · next d h =>
    rw [h]
    dsimp only
    split
    · rfl
    · split
      · split <;> rfl
      · split <;> rfl

/-- One call. -/
theorem after_obj (c : Cipher) (m : MethodCall) :
    (c.after m).obj = if erases c m then c.obj.clear else c.obj := by
  cases c with
  | ecb s =>
    cases m <;> first
      | exact Ecb.encrypt_obj _ _
      | exact Ecb.decrypt_obj _ _
      | rfl
  | cbc s =>
    cases m <;> first
      | exact Cbc.encrypt_obj _ _
      | exact Cbc.decrypt_obj _ _
      | rfl
  | cfb s =>
    cases m <;> first
      | exact Cfb.encrypt_obj _ _
      | exact Cfb.decrypt_obj _ _
      | rfl
  | ofb s =>
    cases m <;> first
      | exact Ofb.encrypt_obj _ _
      | exact Ofb.decrypt_obj _ _
      | rfl
  | ctr s =>
    cases m <;> first
      | exact Ctr.encrypt_obj _ _
      | exact Ctr.decrypt_obj _ _
      | rfl
  | mac s =>
    cases m with
    | update v => exact Mac.update_clears s v
    | digest n => show (s.digest n).1.obj = _; rw [Mac.digest_state]; rfl
    | hexdigest n => show (s.hexdigest n).1.obj = _; rw [Mac.hexdigest_eq]; simp only [Mac.digest_state]; rfl
    | macFinal => show s.macFinal.1.obj = _; rw [Mac.macFinal_obj]; rfl
    | clear => rfl
    | encrypt v => rfl
    | decrypt v => rfl

/-- A call does not change the class. -/
theorem after_erases (c : Cipher) (m : MethodCall) : erases (c.after m) = erases c := by
  funext m'
  cases c <;> cases m <;> cases m' <;> rfl

theorem after_keyBytes (c : Cipher) (ms : List MethodCall) :
    (ms.foldl Cipher.after c).obj.keyBytes = c.obj.keyBytes * 4 ^ erasures c ms := by
  induction ms generalizing c with
  | nil => simp [erasures]
  | cons m ms ih =>
    rw [List.foldl_cons, ih, after_obj]
    unfold erasures
    rw [after_erases, List.filter_cons]
    split
    · rw [CipherObj.clear_keyBytes, List.length_cons, Nat.pow_succ, Nat.mul_comm 4, Nat.mul_assoc, Nat.mul_comm 4]
    · rfl

theorem flatten_const (ks : List Bytes) (n : Nat) (h : ∀ k ∈ ks, k.length = n) : ks.flatten.length = n * ks.length :=
  flatten_length_const n ks h

/-- The bytes of the round keys of a new object: ten blocks of 16 bytes, or 32 words of 4 bytes. -/
def Spec.roundKeyBytes : Alg → Nat
  | .kuznechik => 160
  | .magma => 128

theorem baseInit_keyBytes (a : Alg) (kv : PyVal) (key : Bytes) (hk : kv.data? = some key) (hl : key.length = 32)
    {o : CipherObj} (h : baseInit a.name kv = .ok o) : o.keyBytes = Spec.roundKeyBytes a := by
  have hc : (!checkValue kv 32) = false := by rw [checkValue_data hk, hl]; rfl
  cases a with
  | kuznechik =>
    unfold baseInit at h
    rw [if_neg (by simp [Alg.name]), hc, hk] at h
    simp only [Alg.name, Bool.false_eq_true, if_false, if_true, Kuz.init_ok key hl, Res.bind_ok,
      Res.pure_eq] at h
    cases h
    show ((List.range 10).map (Spec.Kuz.roundKey key)).flatten.length = 160
    rw [flatten_const _ 16 (fun k hk => ?_)]
    · rfl
    · obtain ⟨n, _, rfl⟩ := List.mem_map.1 hk
      exact Kuz.roundKey_length key hl n
  | magma =>
    obtain ⟨ks, h1, h2, h3, _⟩ := Magma.init_ok key hl
    unfold baseInit at h
    rw [if_neg (by simp [Alg.name]), hc, hk] at h
    have hne : ¬ ("magma" = "kuznechik") := by decide
    simp only [Alg.name, Bool.false_eq_true, if_false, hne, h1, Res.bind_ok, Res.pure_eq] at h
    cases h
    show ks.flatten.length = 128
    rw [flatten_const ks 4 h3, h2.1]

/-- C81, ciphers: the exact number of bytes of key material after any calls, returning or raising:
every call of `clear` and every refused call makes it four times as large. -/
theorem C81_cipher {alg : String} {kv : PyVal} {mode : Int} {pad : Option Int} {iv dat : Option PyVal}
    {c : Cipher} (h : newCipher alg kv mode pad iv dat = .ok c) :
    ∃ a : Alg, alg = a.name ∧ ∀ ms : List MethodCall,
      (ms.foldl Cipher.after c).obj.keyBytes = Spec.roundKeyBytes a * 4 ^ erasures c ms := by
  have hb := newCipher_obj h
  obtain ⟨a, key, rfl, hk, hl⟩ := baseInit_inv hb
  exact ⟨a, rfl, fun ms => by rw [after_keyBytes, baseInit_keyBytes a kv key hk hl hb]⟩

/-- The statement of C81 for ciphers: some number of bytes is enough for an object, whatever is
called on it. -/
def C81_statement : Prop :=
  ∀ (alg : String) (kv : PyVal) (mode : Int) (pad : Option Int) (iv dat : Option PyVal) (c : Cipher),
    newCipher alg kv mode pad iv dat = .ok c →
    ∃ bound, ∀ ms : List MethodCall, (ms.foldl Cipher.after c).obj.keyBytes ≤ bound

/-- C81, the part which holds: calls which erase nothing keep the number of bytes. (Missing: `clear` and refused
calls.) -/
theorem C81_cipher_partial {alg : String} {kv : PyVal} {mode : Int} {pad : Option Int} {iv dat : Option PyVal}
    {c : Cipher} (h : newCipher alg kv mode pad iv dat = .ok c) (ms : List MethodCall)
    (hms : ∀ m ∈ ms, erases c m = false) :
    (ms.foldl Cipher.after c).obj.keyBytes = c.obj.keyBytes ∧ c.obj.keyBytes ≤ 160 := by
  have e : erasures c ms = 0 := by
    unfold erasures
    rw [List.filter_eq_nil_iff.2 (fun m hm => by rw [hms m hm]; decide)]
    rfl
  obtain ⟨a, -, ha⟩ := C81_cipher h
  constructor
  · rw [after_keyBytes, e, Nat.pow_zero, Nat.mul_one]
  · have := ha []
    rw [show ([] : List MethodCall).foldl Cipher.after c = c from rfl,
      show erasures c [] = 0 from rfl, Nat.pow_zero, Nat.mul_one] at this
    rw [this]
    cases a <;> decide

/-- Twenty refused calls of `encrypt` on any CTR object (say): more than 10^14 bytes. -/
theorem C81_refused {alg : String} {kv : PyVal} {pad : Option Int} {iv dat : Option PyVal}
    {s : Ctr} (h : newCipher alg kv modeCtr pad iv dat = .ok (.ctr s)) :
    10 ^ 14 < ((List.replicate 20 (MethodCall.encrypt .other)).foldl Cipher.after (.ctr s)).obj.keyBytes := by
  obtain ⟨a, -, ha⟩ := C81_cipher h
  rw [ha, show erasures (.ctr s) (List.replicate 20 (MethodCall.encrypt .other)) = 20 from rfl]
  cases a <;> decide

/-- C81 is false for every cipher object: no number of bytes is enough. -/
theorem C81_unbounded {alg : String} {kv : PyVal} {mode : Int} {pad : Option Int} {iv dat : Option PyVal}
    {c : Cipher} (h : newCipher alg kv mode pad iv dat = .ok c) (bound : Nat) :
    ∃ ms : List MethodCall, (∀ m ∈ ms, m = .clear) ∧ bound < (ms.foldl Cipher.after c).obj.keyBytes := by
  obtain ⟨a, -, ha⟩ := C81_cipher h
  refine ⟨List.replicate bound .clear, fun m hm => List.eq_of_mem_replicate hm, ?_⟩
  have e : erasures c (List.replicate bound .clear) = bound := by
    unfold erasures
    rw [List.filter_eq_self.2 (fun m hm => by rw [List.eq_of_mem_replicate hm]; cases c <;> rfl), List.length_replicate]
  rw [ha, e]
  have h1 : bound < 4 ^ bound := Nat.lt_pow_self (by decide)
  have h2 : 1 ≤ Spec.roundKeyBytes a := by cases a <;> decide
  exact Nat.lt_of_lt_of_le h1 (Nat.le_mul_of_pos_left _ h2)

theorem C81_statement_false : ¬ C81_statement := by
  intro h
  obtain ⟨o, D, h1, _, _, _⟩ := new_ctr .kuznechik (.bytes Ex.key) (.bytes (Ex.count 1 8)) _ _ rfl
    (by decide) rfl (by decide) none none
  obtain ⟨b, hb⟩ := h _ _ _ _ _ _ _ h1
  obtain ⟨ms, _, hm⟩ := C81_unbounded h1 b
  exact absurd (hb ms) (by omega)

/-! ### HMAC, PBKDF and generator objects -/

/-- C81, HMAC: the bytes of the key after any calls. -/
theorem C81_hmac {name : String} {kv : PyVal} {data : Option PyVal} {s : Hmac}
    (h : Hmac.new name kv data = .ok s) (ops : List Alias.HmacOp) :
    (ops.foldl (fun s o => (Alias.hmacCall s o).1) s).key.length =
      64 * 4 ^ (ops.filter fun | .clear => true | _ => false).length := by
  have hk : s.key.length = 64 := by
    unfold Hmac.new at h
    obtain ⟨t, ht, h2⟩ := Res.bind_eq_ok h
    have h64 : t.key.length = 64 := by
      unfold Hmac.initKey at ht
      split at ht
      · cases ht
      · split at ht
        · cases ht
        · next k hk =>
          split at ht
          · cases ht
          · cases ht
            dsimp only
            split
            · rw [zeros_nat, List.length_append, List.length_replicate]; omega
            · omega
    dsimp only at h2
    split at h2
    · cases h2; exact h64
    · unfold Hmac.update at h2
      cases hd : (data.getD (.bytearray [])).data? with
      | none => rw [hd] at h2; cases h2
      | some d =>
        rw [hd] at h2
        cases h2
        rw [← h64]
        unfold Hmac.updateBytes
        dsimp only
        split <;> rfl
  suffices hs : ∀ s : Hmac, (ops.foldl (fun s o => (Alias.hmacCall s o).1) s).key.length =
      s.key.length * 4 ^ (ops.filter fun | .clear => true | _ => false).length by rw [hs, hk]
  clear h hk s
  intro s
  induction ops generalizing s with
  | nil => simp
  | cons o ops ih =>
    rw [List.foldl_cons, ih, List.filter_cons]
    cases o with
    | clear =>
      show s.clear.key.length * _ = _
      rw [Hmac.clear, zeroFill_length, if_pos rfl, List.length_cons, Nat.pow_succ, Nat.mul_comm 4, Nat.mul_assoc,
        Nat.mul_comm 4]
    | update v =>
      have : (s.update v).1.key = s.key := by
        unfold Hmac.update
        split
        · rfl
        · unfold Hmac.updateBytes
          dsimp only
          split <;> rfl
      show (s.update v).1.key.length * _ = _
      rw [this]
      rfl
    | digest => rfl
    | hexdigest => rfl
    | reset => rfl

/-- C81, generators: after `clear`, on any object which is asked for at least one byte from a seed of at least one
byte, every call of `random` raises and makes the register four times as long. -/
theorem C81_random (rand : Bytes) (size : Int) (hsize : 0 < size) (v : Option PyVal) (sizeS : Nat) (h0 : 0 < sizeS)
    (hr : rand.length = sizeS) (s : Rand) (hs : Rand.new rand size v sizeS = .ok s)
    (cs : List RandCall) (hcs : ∀ c ∈ cs, c.Honest sizeS) (n : Nat) :
    63 * 4 ^ (n + 1) ≤
      ((List.replicate n RandCall.random).foldl RandCall.apply (cs.foldl RandCall.apply s).clear).randU.length := by
  have hc := new_const hs
  have h63 : 63 ≤ s.randU.length := by
    unfold Rand.new at hs
    obtain ⟨u, hu, he⟩ := Res.bind_eq_ok hs
    cases he
    exact seed_length hr hu
  have h1 := reg_history cs s hcs hc h63
  have h2 := const_history cs s hc
  generalize cs.foldl RandCall.apply s = t at h1 h2
  have h3 : Cleared t.clear.randU := cleared_fill _ h1
  have h4 : Rand.Const sizeS size t.clear := ⟨h2.szs, h2.q, h2.r, h2.limit, h2.hash⟩
  have h5 : 63 * 4 ≤ t.clear.randU.length := by
    show 63 * 4 ≤ (zeroFill t.randU).length
    rw [zeroFill_length]; omega
  generalize t.clear = t' at h3 h4 h5
  have key : ∀ (n : Nat) (t' : Rand), Cleared t'.randU → Rand.Const sizeS size t' →
      ((List.replicate n RandCall.random).foldl RandCall.apply t').randU.length = t'.randU.length * 4 ^ n := by
    intro n
    induction n with
    | zero => intro t' _ _; simp
    | succ n ih =>
      intro t' h3 h4
      have hx : t'.random.1.randU = zeroFill t'.randU := by
        unfold Rand.random
        rw [h4.szs, pyUpto_nat, bytesToInt_eq, h4.q, if_neg (cleared_top h3 (by omega))]
        have hi := cleared_iter h4 h3
        cases hq : (size.fdiv 64).toNat with
        | succ n => rw [Rand.loop, hi]
        | zero =>
          simp only [Rand.loop]
          have hq' : size.fdiv 64 = size / 64 := Int.fdiv_eq_ediv_of_nonneg _ (by decide)
          have hr' : size.fmod 64 = size % 64 := Int.fmod_eq_emod_of_nonneg _ (by decide)
          rw [h4.r, if_pos (by rw [hr']; omega), hi]
      rw [List.replicate_succ, List.foldl_cons]
      have hap : RandCall.apply t' .random = t'.random.1 := rfl
      rw [hap, ih _ (by rw [hx]; exact cleared_again h3) (const_random h4), hx, zeroFill_length, Nat.pow_succ,
        Nat.mul_comm 4, Nat.mul_assoc, Nat.mul_comm 4]
  rw [key n t' h3 h4, Nat.pow_succ, Nat.mul_comm (4 ^ n), ← Nat.mul_assoc]
  exact Nat.mul_le_mul_right _ h5

end Gost
