import Verif.Model.Ident
import Verif.Model.Curves
import Verif.Spec.Ident
import Verif.Spec.Accept
import Verif.Proofs.Mac
import Verif.Props.Oid
import Verif.Props.Hash
import Verif.Props.Hmac
import Verif.Proofs.Pbkdf
import Verif.Props.HmacStore
import Verif.Props.CurveCheck
import Verif.Props.Examples

/-! Properties C66 to C69: the arguments of `gosthash.new`, the object identifiers of the objects,
the names of the built-in curves, the constant attributes. -/

namespace Gost
open Spec (hashFault Alg Registered derOid dotted ValidOid IsHashName IsHmacName hashOf HashCall HmacOp)

/-! ### C66 -/

/-- C66, the constructor: it accepts exactly the two names, with no data or with a byte object, and
raises the documented exception otherwise. -/
theorem C66_new (name : String) (data : Option PyVal) :
    (∀ m, hashFault name data = some m → HashObj.new name data = .error (.hashError m)) ∧
    (hashFault name data = none → ∃ s, HashObj.new name data = .ok s ∧ s.name = name ∧
      s.digest = hashOf name ((data.bind PyVal.data?).getD [])) := by
  unfold hashFault
  by_cases hn : IsHashName name
  · rw [if_pos (show _ ∨ _ from hn.symm)]
    cases data with
    | none =>
      refine ⟨fun m hm => (by cases hm), fun _ => ⟨_, new_none name hn, rfl, ?_⟩⟩
      exact (HashObj.hashInit_holds name).digest (s := HashObj.hashInit name) hn
    | some v =>
      have key : ∀ d, v.data? = some d → ∃ s, HashObj.new name (some v) = .ok s ∧ s.name = name ∧
          s.digest = hashOf name (((some v).bind PyVal.data?).getD []) := by
        intro d hv
        obtain ⟨s, h1, h2⟩ := C23_new name hn v d hv
        refine ⟨s, h1, (new_some name hn v d hv s h1).1, ?_⟩
        rw [h2, Option.bind_some, hv, Option.getD_some]
      cases v with
      | bytes b => exact ⟨fun m hm => (by cases hm), fun _ => key b rfl⟩
      | bytearray b => exact ⟨fun m hm => (by cases hm), fun _ => key b rfl⟩
      | other =>
        refine ⟨fun m hm => ?_, fun h => by cases h⟩
        cases hm
        unfold HashObj.new HashObj.init
        rw [if_neg (by rcases hn with h | h <;> simp [h])]
        rfl
  · rw [if_neg (show ¬ (_ ∨ _) from fun h => hn h.symm)]
    refine ⟨fun m hm => ?_, fun h => by cases h⟩
    cases hm
    unfold HashObj.new
    rw [if_pos (by unfold IsHashName at hn; exact ⟨fun h => hn (.inl h), fun h => hn (.inr h)⟩)]

/-- C66, `update`: exactly the byte objects are accepted; a rejected call changes nothing. -/
theorem C66_update (s : HashObj) (v : PyVal) :
    (v.data? = none → s.update v = (s, .error (.hashError "GOSTHashError: invalid data value"))) ∧
    (v.data? ≠ none → (s.update v).2 = .ok ()) := by
  cases v with
  | bytes b => exact ⟨fun h => (nomatch h), fun _ => rfl⟩
  | bytearray b => exact ⟨fun h => (nomatch h), fun _ => rfl⟩
  | other => exact ⟨fun _ => rfl, fun h => absurd rfl h⟩

/-- Cases: accepted, a wrong name, a wrong value. -/
example : ∃ s, HashObj.new "streebog256" (some (.bytes [1, 2])) = .ok s ∧ s.name = "streebog256" ∧
    s.digest = hashOf "streebog256" [1, 2] := (C66_new _ _).2 (by rfl)
example : HashObj.new "Streebog256" (some .other) =
    .error (.hashError "GOSTHashError: unsupported hash type") := (C66_new _ _).1 _ (by rfl)
example : HashObj.new "streebog512" (some .other) =
    .error (.hashError "GOSTHashError: invalid data value") := (C66_new _ _).1 _ (by rfl)

/-! ### C67 -/

/-- The string of an `oid` attribute is the dotted identifier of a registered algorithm, and the
attributes `digit`, `octet` and `name` of the `ObjectIdentifier` are its components, its DER
encoding and its registered name. -/
def Identifies (oid : String) (r : Registered) : Prop :=
  oid.toList = dotted r.arcs ∧
  Oid.digit oid.toList = .ok (r.arcs.map fun n : Nat => (n : Int)) ∧
  Oid.octet oid.toList = .ok (derOid r.arcs) ∧
  Oid.name oid.toList = r.regName

theorem Registered.arcs_cases (P : List Nat → Prop)
    (h : ∀ c n, (c, n) ∈ [(5, 1), (5, 2), (2, 2), (2, 3), (4, 1), (4, 2), (1, 1), (1, 2)] →
      P [1, 2, 643, 7, 1, 1, c, n]) (r : Registered) : P r.arcs := by
  rcases r with (_ | _) | _ | _ | _ | _ | _ | _ <;> exact h _ _ (by decide)

theorem Registered.arcs_valid (r : Registered) : ValidOid r.arcs :=
  Registered.arcs_cases ValidOid (fun _ _ _ => ⟨by decide, by decide⟩) r

theorem Registered.arcs_small (r : Registered) : ∀ v ∈ Spec.subIds r.arcs, v < 2 ^ 14 := by
  refine Registered.arcs_cases (fun l => ∀ v ∈ Spec.subIds l, v < 2 ^ 14) ?_ r
  have h : ∀ p ∈ [(5, 1), (5, 2), (2, 2), (2, 3), (4, 1), (4, 2), (1, 1), (1, 2)],
      ∀ v ∈ Spec.subIds [1, 2, 643, 7, 1, 1, p.1, p.2], v < 2 ^ 14 := by decide +kernel
  exact fun c n hp => h (c, n) hp

theorem Registered.arcs_short (r : Registered) : (Spec.derBody r.arcs).length < 256 ^ 126 := by
  have h := Oid.body_length_le (Spec.subIds r.arcs) (Registered.arcs_small r)
  have h3 : (Spec.subIds r.arcs).length = 7 :=
    Registered.arcs_cases (fun l => (Spec.subIds l).length = 7) (fun _ _ _ => rfl) r
  unfold Spec.derBody
  omega

theorem identifies_of (oid : String) (r : Registered) (h1 : oid.toList = dotted r.arcs)
    (h2 : Oid.name oid.toList = r.regName) : Identifies oid r := by
  have hv := Registered.arcs_valid r
  have hne : r.arcs ≠ [] := by
    intro h
    rw [h] at hv
    exact hv
  refine ⟨h1, ?_, ?_, h2⟩
  · rw [h1]; exact C40_digit _ hne
  · rw [h1]; exact C39_octet_partial _ hv (Registered.arcs_small r) (Registered.arcs_short r)

/-- The identifier of the block cipher. -/
theorem cipher_identifies (o : CipherObj) :
    ∃ a : Alg, Identifies o.oid (.cipher a) ∧ o.blockSize = a.blockSize := by
  cases o with
  | kuz k =>
    refine ⟨.kuznechik, identifies_of "1.2.643.7.1.1.5.2" _ ?_ (by decide +kernel), rfl⟩
    simp [Registered.arcs, dotted, Spec.decimal, Spec.decDigit]
  | magma k =>
    refine ⟨.magma, identifies_of "1.2.643.7.1.1.5.1" _ ?_ (by decide +kernel), rfl⟩
    simp [Registered.arcs, dotted, Spec.decimal, Spec.decDigit]

theorem identifies_hash256 : Identifies "1.2.643.7.1.1.2.2" .hash256 := by
  refine identifies_of _ _ ?_ (by decide +kernel)
  simp [Registered.arcs, dotted, Spec.decimal, Spec.decDigit]

theorem identifies_hash512 : Identifies "1.2.643.7.1.1.2.3" .hash512 := by
  refine identifies_of _ _ ?_ (by decide +kernel)
  simp [Registered.arcs, dotted, Spec.decimal, Spec.decDigit]

theorem identifies_hmac256 : Identifies "1.2.643.7.1.1.4.1" .hmac256 := by
  refine identifies_of _ _ ?_ (by decide +kernel)
  simp [Registered.arcs, dotted, Spec.decimal, Spec.decDigit]

theorem identifies_hmac512 : Identifies "1.2.643.7.1.1.4.2" .hmac512 := by
  refine identifies_of _ _ ?_ (by decide +kernel)
  simp [Registered.arcs, dotted, Spec.decimal, Spec.decDigit]

theorem identifies_sign256 : Identifies "1.2.643.7.1.1.1.1" .sign256 := by
  refine identifies_of _ _ ?_ (by decide +kernel)
  simp [Registered.arcs, dotted, Spec.decimal, Spec.decDigit]

theorem identifies_sign512 : Identifies "1.2.643.7.1.1.1.2" .sign512 := by
  refine identifies_of _ _ ?_ (by decide +kernel)
  simp [Registered.arcs, dotted, Spec.decimal, Spec.decDigit]

theorem Mac.update_obj {s s' : Mac} {v : PyVal} (h : s.update v = (s', .ok ())) : s'.obj = s.obj := by
  unfold Mac.update at h
  split at h
  · cases h
  · dsimp only at h
    split at h
    · cases h
    · split at h
      · split at h
        · cases h
        · cases h; rfl
      · split at h
        · cases h
        · cases h; rfl

/-- The block cipher inside a new cipher object. -/
theorem newCipher_obj {alg : String} {kv : PyVal} {mode : Int} {pad : Option Int}
    {iv dat : Option PyVal} {c : Cipher} (h : newCipher alg kv mode pad iv dat = .ok c) :
    baseInit alg kv = .ok c.obj := by
  rcases newCipher_inv h with ⟨s, _, rfl, hi⟩ | ⟨s, _, rfl, hi⟩ | ⟨s, _, rfl, hi⟩ | ⟨s, _, rfl, hi⟩ |
      ⟨s, _, rfl, hi⟩ | ⟨s, _, rfl, hi⟩
  · exact (Ecb.init_inv hi).1
  · exact (Cbc.init_inv hi).1
  · exact (Fb.init_inv hi).1
  · exact (Fb.init_inv hi).1
  · exact (Ctr.init_inv hi).1
  · unfold Mac.init at hi
    obtain ⟨o, hb, hi⟩ := Res.bind_eq_ok hi
    obtain ⟨r, _, hi⟩ := Res.bind_eq_ok hi
    obtain ⟨k, _, hi⟩ := Res.bind_eq_ok hi
    rw [hb]
    refine congrArg _ ?_
    dsimp only at hi
    split at hi
    · rw [Res.pure_eq] at hi; cases hi; rfl
    · split at hi
      next t e =>
        rw [Res.pure_eq] at hi
        cases hi
        exact (Mac.update_obj e).symm
      next => cases hi

/-- C67, ciphers: the identifier of a new cipher object is that of the algorithm asked for, and it is
this algorithm with which the object encrypts blocks. -/
theorem C67_cipher {alg : String} {kv : PyVal} {mode : Int} {pad : Option Int}
    {iv dat : Option PyVal} {c : Cipher} (h : newCipher alg kv mode pad iv dat = .ok c) :
    ∃ (a : Alg) (key : Bytes), alg = a.name ∧ kv.data? = some key ∧ Identifies c.oid (.cipher a) ∧
      ∀ b, b.length = a.blockSize → c.obj.encrypt b = .ok (a.encrypt key b) := by
  have hb := newCipher_obj h
  obtain ⟨a, key, rfl, hk, hl⟩ := baseInit_inv hb
  obtain ⟨o, h1, h2, h3, h4⟩ := baseInit_ok a kv key hk hl
  rw [h1] at hb
  have hc : o = c.obj := Except.ok.inj hb
  refine ⟨a, key, rfl, hk, ?_, fun b hb => ?_⟩
  · obtain ⟨a', h5, h6⟩ := cipher_identifies c.obj
    have : a' = a := by
      rw [← hc, h3] at h6
      cases a <;> cases a' <;> first | rfl | cases h6
    rw [← this]
    exact h5
  · rw [← hc, h2.implements.enc b (by rw [h3]; exact hb), h4 b hb]

theorem hashOf256_length (M : Bytes) : (hashOf "streebog256" M).length = 32 := by
  have := HashObj.hash_length (List.replicate 64 1) M (by simp)
  rw [(C23_variants M).2, List.length_drop, this]

theorem Hmac.digest_hash (s : Hmac) (hn : IsHashName s.hasher.name) :
    s.digest = hashOf s.hasher.name (addXor s.key oPad ++ s.hasher.digest) := fresh_update _ hn _

theorem Hmac.update_hasher (s : Hmac) (v : PyVal) : (s.update v).1.hasher.name = s.hasher.name := by
  unfold Hmac.update
  split
  · rfl
  · dsimp only
    unfold Hmac.updateBytes
    dsimp only
    split <;> exact HashObj.updateBytes_name _ _

theorem Hmac.new_hasher {name : String} {kv : PyVal} {data : Option PyVal} {s : Hmac}
    (h : Hmac.new name kv data = .ok s) :
    ((name = "HMAC_GOSTR3411_2012_256" ∧ s.hasher.name = "streebog256") ∨
      (name = "HMAC_GOSTR3411_2012_512" ∧ s.hasher.name = "streebog512")) ∧
    IsHashName s.hasher.name := by
  suffices hs : (name = "HMAC_GOSTR3411_2012_256" ∧ s.hasher.name = "streebog256") ∨
      (name = "HMAC_GOSTR3411_2012_512" ∧ s.hasher.name = "streebog512") by
    refine ⟨hs, ?_⟩
    rcases hs with ⟨_, h⟩ | ⟨_, h⟩ <;> rw [h]
    · exact .inr rfl
    · exact .inl rfl
  unfold Hmac.new at h
  obtain ⟨t, h1, h2⟩ := Res.bind_eq_ok h
  have ht : (name = "HMAC_GOSTR3411_2012_256" ∧ t.hasher.name = "streebog256") ∨
      (name = "HMAC_GOSTR3411_2012_512" ∧ t.hasher.name = "streebog512") := by
    unfold Hmac.initKey at h1
    split at h1
    · cases h1
    · rename_i hn
      split at h1
      · cases h1
      · split at h1
        · cases h1
        · cases h1
          by_cases h5 : name = "HMAC_GOSTR3411_2012_256"
          · exact .inl ⟨h5, by simp [h5, HashObj.hashInit]⟩
          · refine .inr ⟨?_, by simp [h5, HashObj.hashInit]⟩
            by_cases h6 : name = "HMAC_GOSTR3411_2012_512"
            · exact h6
            · exact absurd ⟨h5, h6⟩ hn
  dsimp only at h2
  split at h2
  · rw [Res.pure_eq] at h2; cases h2; exact ht
  · split at h2
    next u e =>
      rw [Res.pure_eq] at h2
      cases h2
      have := Hmac.update_hasher t (data.getD (.bytearray []))
      rw [e] at this
      rw [this]
      exact ht
    next => cases h2

/-- C67, hash objects. -/
theorem C67_hash {name : String} {data : Option PyVal} {s : HashObj}
    (h : HashObj.new name data = .ok s) :
    (name = "streebog256" ∧ Identifies (HashObj.oidOf name) .hash256 ∧ s.digest.length = 32) ∨
    (name = "streebog512" ∧ Identifies (HashObj.oidOf name) .hash512 ∧ s.digest.length = 64) := by
  have hs := C66_new name data
  cases hf : hashFault name data with
  | some m => rw [hs.1 m hf] at h; cases h
  | none =>
    obtain ⟨t, h1, _, h3⟩ := hs.2 hf
    rw [h1] at h
    cases h
    rw [h3]
    by_cases h5 : name = "streebog256"
    · subst h5; exact .inl ⟨rfl, identifies_hash256, hashOf256_length _⟩
    · by_cases h6 : name = "streebog512"
      · subst h6; exact .inr ⟨rfl, identifies_hash512, hashOf512_length _⟩
      · unfold hashFault at hf
        rw [if_neg (by simp [h5, h6])] at hf
        cases hf

/-- C67, HMAC objects. -/
theorem C67_hmac {name : String} {kv : PyVal} {data : Option PyVal} {s : Hmac}
    (h : Hmac.new name kv data = .ok s) :
    (name = "HMAC_GOSTR3411_2012_256" ∧ Identifies (Hmac.oidOf name) .hmac256 ∧ s.digest.length = 32) ∨
    (name = "HMAC_GOSTR3411_2012_512" ∧ Identifies (Hmac.oidOf name) .hmac512 ∧ s.digest.length = 64) := by
  have hd : s.digest = hashOf s.hasher.name _ := Hmac.digest_hash s (Hmac.new_hasher h).2
  rcases (Hmac.new_hasher h).1 with ⟨h1, h2⟩ | ⟨h1, h2⟩
  · rw [hd, h2]; subst h1
    exact .inl ⟨rfl, identifies_hmac256, hashOf256_length _⟩
  · rw [hd, h2]; subst h1
    exact .inr ⟨rfl, identifies_hmac512, hashOf512_length _⟩

theorem Sig.edvards_size {s t : Sig} (h : s.edvardsToCanonical = .ok t) : t.size = s.size := by
  unfold Sig.edvardsToCanonical at h
  split at h
  · split at h
    · cases h
    · cases h; rfl
  · cases h; rfl

/-- C67, signature objects. -/
theorem C67_sign {mode : Int} {c : CurveParams} {s : Sig} (h : Sig.new mode c = .ok s) :
    (mode = 1 ∧ Identifies (Sig.oidOf mode) .sign256 ∧ s.size = 32) ∨
    (mode = 2 ∧ Identifies (Sig.oidOf mode) .sign512 ∧ s.size = 64) := by
  by_cases hm : mode = 1 ∨ mode = 2
  · rw [Sig.new_eq mode c hm] at h
    obtain ⟨t, h1, h2⟩ := Res.bind_eq_ok h
    obtain ⟨ok, _, h3⟩ := Res.bind_eq_ok h2
    have hst : s = t := by
      split at h3
      · cases h3
      · cases h3; rfl
    have hsz : s.size = (Sig.given mode c).size := by rw [hst]; exact Sig.edvards_size h1
    rcases hm with rfl | rfl
    · exact .inl ⟨rfl, identifies_sign256, hsz⟩
    · exact .inr ⟨rfl, identifies_sign512, hsz⟩
  · unfold Sig.new at h
    rw [if_pos (by unfold mode256 mode512; exact ⟨fun h => hm (.inl h), fun h => hm (.inr h)⟩)] at h
    cases h

/-- C67: different algorithms have different identifiers, in every form. -/
theorem C67_distinct {s s' : String} {r r' : Registered} (h : Identifies s r) (h' : Identifies s' r')
    (hne : r ≠ r') :
    Oid.digit s.toList ≠ Oid.digit s'.toList ∧ Oid.octet s.toList ≠ Oid.octet s'.toList ∧
      Oid.name s.toList ≠ Oid.name s'.toList := by
  obtain ⟨_, h1, h2, h3⟩ := h
  obtain ⟨_, h1', h2', h3'⟩ := h'
  rw [h1, h2, h3, h1', h2', h3']
  have key : ∀ r r' : Registered, r ≠ r' → r.arcs ≠ r'.arcs ∧ r.regName ≠ r'.regName := by
    intro r r'
    rcases r with (_ | _) | _ | _ | _ | _ | _ | _ <;> rcases r' with (_ | _) | _ | _ | _ | _ | _ | _ <;>
      decide
  refine ⟨fun he => (key r r' hne).1 ?_, fun he => (key r r' hne).1 ?_, (key r r' hne).2⟩
  · have := Except.ok.inj he
    exact (List.map_inj_right (fun a b hab => by exact_mod_cast hab)).1 this
  · exact C39_der_injective _ _ (Registered.arcs_valid r) (Registered.arcs_valid r')
      (Registered.arcs_short r) (Registered.arcs_short r') (Except.ok.inj he)

/-- Cases: a cipher, a hash, an HMAC and a signature object. -/
example : ∃ c, newCipher "magma" (.bytes Ex.key) 6 = .ok c ∧ Identifies c.oid (.cipher .magma) := by
  obtain ⟨o, h1, h2, h3, h4⟩ := baseInit_ok .magma (.bytes Ex.key) Ex.key rfl Ex.key_length
  have hb : o.blockSize = 8 := h3
  have h : newCipher "magma" (.bytes Ex.key) 6 =
      .ok (.ctr ⟨o, [0x12, 0x34, 0x56, 0x78], [0x12, 0x34, 0x56, 0x78, 0, 0, 0, 0]⟩) := by
    have h1' : baseInit "magma" (.bytes Ex.key) = .ok o := h1
    simp only [newCipher, Ctr.init, h1', Res.bind_ok, hb]
    rfl
  refine ⟨_, h, ?_⟩
  obtain ⟨a, key, ha, _, hi, _⟩ := C67_cipher h
  cases a
  · exact absurd ha (by decide)
  · exact hi
example : ∃ s, HashObj.new "streebog256" none = .ok s ∧
    Identifies (HashObj.oidOf "streebog256") .hash256 :=
  ⟨_, new_none _ (.inr rfl), identifies_hash256⟩
example : derOid (Registered.cipher .kuznechik).arcs = [6, 8, 0x2a, 0x85, 3, 7, 1, 1, 5, 2] := by
  simp [Registered.arcs, derOid, Spec.derLen, Spec.derBody, Spec.subIds, Spec.b128, Spec.b128hi]

/-! ### C68 -/

/-- C68: every built-in curve is listed under a name of the register of identifiers. -/
def C68_statement : Prop :=
  ∀ nc ∈ Curves.builtin, ∃ oid ∈ Oid.tc26.map Prod.fst, Oid.name oid.toList = nc.1

/-- C68, what holds: exactly two of the seven names are registered names. -/
theorem C68_registered_partial (name : String) (c : CurveParams) (h : (name, c) ∈ Curves.builtin) :
    (∃ oid ∈ Oid.tc26.map Prod.fst, Oid.name oid.toList = name) ↔
      (name = "id-tc26-gost-3410-12-512-paramSetA" ∨ name = "id-tc26-gost-3410-12-512-paramSetB") := by
  have key : ∀ n ∈ Curves.builtin.map Prod.fst,
      (∃ oid ∈ Oid.tc26.map Prod.fst, Oid.name oid.toList = n) ↔
      (n = "id-tc26-gost-3410-12-512-paramSetA" ∨ n = "id-tc26-gost-3410-12-512-paramSetB") := by
    decide +kernel
  exact key name (List.mem_map.2 ⟨_, h, rfl⟩)

/-- C68 fails: the curve `id-tc26-gost-3410-2012-256-paramSetB` is listed under a name which no
identifier has, while 1.2.643.7.1.2.1.1.2 has the name `id-tc26-gost-3410-12-256-paramSetB`; and the
name of 1.2.643.7.1.2.1.2.3 ends with the Cyrillic letter U+0421, so that it is not
`id-tc26-gost-3410-12-512-paramSetC` written in ASCII. -/
theorem C68_statement_false : ¬ C68_statement ∧
    Oid.name "1.2.643.7.1.2.1.1.2".toList = "id-tc26-gost-3410-12-256-paramSetB" ∧
    Oid.name "1.2.643.7.1.2.1.2.3".toList ≠ "id-tc26-gost-3410-12-512-paramSetC" ∧
    (Oid.name "1.2.643.7.1.2.1.2.3".toList).toList.getLast? = some (Char.ofNat 0x421) := by
  refine ⟨fun h => ?_, by decide +kernel, by decide +kernel, by decide +kernel⟩
  have h1 := h _ (show ("id-tc26-gost-3410-2012-256-paramSetB", Curves.c256B) ∈ Curves.builtin from
    List.mem_cons_self)
  have h2 := (C68_registered_partial _ Curves.c256B List.mem_cons_self).1 h1
  revert h2
  decide

/-! ### C69 -/

/-- A property of the state which every iteration keeps is kept by the loop. -/
theorem blockLoop_keeps {σ : Type} (P : σ → Prop) (step : σ → Bytes → Res (σ × Bytes)) (bs : Nat)
    (data : Bytes) (hstep : ∀ s b s' out, P s → step s b = .ok (s', out) → P s') :
    ∀ (is : List Nat) (s : σ) (acc : Bytes), P s → P (blockLoop step bs data is s acc).1
  | [], s, acc, h => h
  | i :: is, s, acc, h => by
    unfold blockLoop
    split
    · exact h
    · next s' out e => exact blockLoop_keeps P step bs data hstep is s' _ (hstep _ _ _ _ h e)

/-- Objects of the same class. -/
def SameKind : CipherObj → CipherObj → Prop
  | .kuz _, .kuz _ => True
  | .magma _, .magma _ => True
  | _, _ => False

theorem SameKind.refl (o : CipherObj) : SameKind o o := by cases o <;> trivial

theorem SameKind.trans {a b c : CipherObj} (h : SameKind a b) (h' : SameKind b c) : SameKind a c := by
  cases a <;> cases b <;> cases c <;> trivial

theorem SameKind.clear (o : CipherObj) : SameKind o o.clear := by cases o <;> trivial

theorem Fb.tail_state (d : Bytes) (r : Fb × Res Bytes) : (Fb.tail d r).1 = r.1 := by
  unfold Fb.tail
  split
  · rfl
  · split
    · split <;> rfl
    · rfl

theorem Ecb.encrypt_kind (s : Ecb) (v : PyVal) : SameKind s.obj (s.encrypt v).1.obj := by
  unfold Ecb.encrypt
  split
  · exact SameKind.clear _
  · refine blockLoop_keeps (fun t : Ecb => SameKind s.obj t.obj) _ _ _ ?_ _ _ _ (SameKind.refl _)
    intro t b t' out ht h
    obtain ⟨x, _, h2⟩ := Res.bind_eq_ok h
    cases h2
    exact ht

theorem Ecb.decrypt_kind (s : Ecb) (v : PyVal) : SameKind s.obj (s.decrypt v).1.obj := by
  unfold Ecb.decrypt
  split
  · exact SameKind.clear _
  · refine blockLoop_keeps (fun t : Ecb => SameKind s.obj t.obj) _ _ _ ?_ _ _ _ (SameKind.refl _)
    intro t b t' out ht h
    obtain ⟨x, _, h2⟩ := Res.bind_eq_ok h
    cases h2
    exact ht

theorem Cbc.encrypt_kind (s : Cbc) (v : PyVal) : SameKind s.obj (s.encrypt v).1.obj := by
  unfold Cbc.encrypt
  split
  · exact SameKind.clear _
  · refine blockLoop_keeps (fun t : Cbc => SameKind s.obj t.obj) _ _ _ ?_ _ _ _ (SameKind.refl _)
    intro t b t' out ht h
    obtain ⟨x, _, h2⟩ := Res.bind_eq_ok h
    cases h2
    exact ht

theorem Cbc.decrypt_kind (s : Cbc) (v : PyVal) : SameKind s.obj (s.decrypt v).1.obj := by
  unfold Cbc.decrypt
  split
  · exact SameKind.clear _
  · refine blockLoop_keeps (fun t : Cbc => SameKind s.obj t.obj) _ _ _ ?_ _ _ _ (SameKind.refl _)
    intro t b t' out ht h
    obtain ⟨x, _, h2⟩ := Res.bind_eq_ok h
    cases h2
    exact ht

theorem Cfb.encrypt_kind (s : Fb) (v : PyVal) : SameKind s.obj (Cfb.encrypt s v).1.obj := by
  unfold Cfb.encrypt
  split
  · exact SameKind.clear _
  · dsimp only
    rw [Fb.tail_state]
    refine blockLoop_keeps (fun t : Fb => SameKind s.obj t.obj) _ _ _ ?_ _ _ _ (SameKind.refl _)
    intro t b t' out ht h
    obtain ⟨x, _, h2⟩ := Res.bind_eq_ok h
    cases h2
    exact ht

theorem Cfb.decrypt_kind (s : Fb) (v : PyVal) : SameKind s.obj (Cfb.decrypt s v).1.obj := by
  unfold Cfb.decrypt
  split
  · exact SameKind.clear _
  · dsimp only
    rw [Fb.tail_state]
    refine blockLoop_keeps (fun t : Fb => SameKind s.obj t.obj) _ _ _ ?_ _ _ _ (SameKind.refl _)
    intro t b t' out ht h
    obtain ⟨x, _, h2⟩ := Res.bind_eq_ok h
    cases h2
    exact ht

theorem Ofb.encrypt_kind (s : Fb) (v : PyVal) : SameKind s.obj (Ofb.encrypt s v).1.obj := by
  unfold Ofb.encrypt
  split
  · exact SameKind.clear _
  · dsimp only
    rw [Fb.tail_state]
    refine blockLoop_keeps (fun t : Fb => SameKind s.obj t.obj) _ _ _ ?_ _ _ _ (SameKind.refl _)
    intro t b t' out ht h
    obtain ⟨x, _, h2⟩ := Res.bind_eq_ok h
    cases h2
    exact ht

theorem Ofb.decrypt_kind (s : Fb) (v : PyVal) : SameKind s.obj (Ofb.decrypt s v).1.obj := by
  unfold Ofb.decrypt
  split
  · exact SameKind.clear _
  · exact Ofb.encrypt_kind s v

theorem Ctr.step_obj {t t' : Ctr} {b out : Bytes} (h : Ctr.step t b = .ok (t', out)) :
    t'.obj = t.obj := by
  obtain ⟨x, _, h2⟩ := Res.bind_eq_ok h
  obtain ⟨y, _, h3⟩ := Res.bind_eq_ok h2
  cases h3
  rfl

theorem Ctr.encrypt_kind (s : Ctr) (v : PyVal) : SameKind s.obj (s.encrypt v).1.obj := by
  unfold Ctr.encrypt
  split
  · exact SameKind.clear _
  · next d hd =>
    have hl : SameKind s.obj (blockLoop Ctr.step s.obj.blockSize d
        (List.range (getNumBlock s.obj.blockSize d)) s []).1.obj := by
      refine blockLoop_keeps (fun t : Ctr => SameKind s.obj t.obj) _ _ _ ?_ _ _ _ (SameKind.refl _)
      intro t b t' out ht h
      rw [Ctr.step_obj h]
      exact ht
    dsimp only
    generalize blockLoop Ctr.step s.obj.blockSize d
        (List.range (getNumBlock s.obj.blockSize d)) s [] = r at hl ⊢
    obtain ⟨t, r⟩ := r
    cases r with
    | error e => exact hl
    | ok r =>
      dsimp only
      split
      · split
        · exact hl
        · next t' f e => dsimp only; rw [Ctr.step_obj e]; exact hl
      · exact hl

theorem Ctr.decrypt_kind (s : Ctr) (v : PyVal) : SameKind s.obj (s.decrypt v).1.obj := by
  unfold Ctr.decrypt
  split
  · exact SameKind.clear _
  · exact Ctr.encrypt_kind s v

theorem Mac.update_kind (s : Mac) (v : PyVal) : SameKind s.obj (s.update v).1.obj := by
  unfold Mac.update
  split
  · exact SameKind.clear _
  · dsimp only
    split
    · exact SameKind.refl _
    · split
      · split <;> exact SameKind.refl _
      · split <;> exact SameKind.refl _

theorem Mac.macFinal_obj (s : Mac) : s.macFinal.1.obj = s.obj := by
  unfold Mac.macFinal
  dsimp only
  split <;> rfl

/-- One call keeps the class of the block cipher. -/
theorem after_kind (c : Cipher) (m : MethodCall) : SameKind c.obj (c.after m).obj := by
  cases c with
  | ecb s =>
    cases m <;> first
      | exact SameKind.refl _
      | exact SameKind.clear _
      | exact Ecb.encrypt_kind _ _
      | exact Ecb.decrypt_kind _ _
  | cbc s =>
    cases m <;> first
      | exact SameKind.refl _
      | exact SameKind.clear _
      | exact Cbc.encrypt_kind _ _
      | exact Cbc.decrypt_kind _ _
  | cfb s =>
    cases m <;> first
      | exact SameKind.refl _
      | exact SameKind.clear _
      | exact Cfb.encrypt_kind _ _
      | exact Cfb.decrypt_kind _ _
  | ofb s =>
    cases m <;> first
      | exact SameKind.refl _
      | exact SameKind.clear _
      | exact Ofb.encrypt_kind _ _
      | exact Ofb.decrypt_kind _ _
  | ctr s =>
    cases m <;> first
      | exact SameKind.refl _
      | exact SameKind.clear _
      | exact Ctr.encrypt_kind _ _
      | exact Ctr.decrypt_kind _ _
  | mac s =>
    cases m with
    | update v => exact Mac.update_kind s v
    | digest n =>
      show SameKind s.obj (s.digest n).1.obj
      rw [Mac.digest_state]
      exact SameKind.refl _
    | hexdigest n =>
      show SameKind s.obj (s.hexdigest n).1.obj
      rw [Mac.hexdigest_eq]
      simp only [Mac.digest_state]
      exact SameKind.refl _
    | macFinal =>
      show SameKind s.obj s.macFinal.1.obj
      rw [Mac.macFinal_obj]
      exact SameKind.refl _
    | clear => exact SameKind.clear _
    | encrypt v => exact SameKind.refl _
    | decrypt v => exact SameKind.refl _

theorem SameKind.attributes {a b : CipherObj} (h : SameKind a b) :
    b.oid = a.oid ∧ b.blockSize = a.blockSize ∧ b.keySize = a.keySize := by
  cases a <;> cases b <;> first | exact ⟨rfl, rfl, rfl⟩ | exact h.elim

/-- C69, ciphers: whatever is called on a cipher object, and whether the calls return or raise, its
identifier, its block size and its key size stay those of the algorithm it was made for. -/
theorem C69_cipher {alg : String} {kv : PyVal} {mode : Int} {pad : Option Int}
    {iv dat : Option PyVal} {c : Cipher} (h : newCipher alg kv mode pad iv dat = .ok c)
    (ms : List MethodCall) :
    ∃ a : Alg, alg = a.name ∧ Identifies (ms.foldl Cipher.after c).oid (.cipher a) ∧
      (ms.foldl Cipher.after c).blockSize = a.blockSize ∧
      (ms.foldl Cipher.after c).obj.keySize = 32 := by
  have hk : ∀ (ms : List MethodCall) (c : Cipher), SameKind c.obj (ms.foldl Cipher.after c).obj := by
    intro ms
    induction ms with
    | nil => exact fun c => SameKind.refl _
    | cons m ms ih => exact fun c => (after_kind c m).trans (ih (c.after m))
  obtain ⟨h1, h2, h3⟩ := (hk ms c).attributes
  obtain ⟨a, key, rfl, hkey, hi, _⟩ := C67_cipher h
  refine ⟨a, rfl, ?_, ?_, ?_⟩
  · unfold Cipher.oid
    rw [h1]
    exact hi
  · unfold Cipher.blockSize
    rw [h2]
    obtain ⟨a', key', e, hk', hl⟩ := baseInit_inv (newCipher_obj h)
    obtain ⟨o, h4, _, h5, _⟩ := baseInit_ok a kv key' hk' hl
    have h6 := newCipher_obj h
    rw [h4] at h6
    rw [← Except.ok.inj h6, h5]
  · rw [h3]
    cases c.obj <;> rfl

/-- A call of a method of a hash object; the first group changes the object. -/
inductive HashMethod where
  | update (v : PyVal)
  | reset
  | digest
  | hexdigest
  | copy

/-- The hash object after a call (`digest` works on a copy of the attributes, see C26). -/
def HashObj.after (s : HashObj) : HashMethod → HashObj
  | .update v => (s.update v).1
  | .reset => s.reset
  | .digest => s
  | .hexdigest => s
  | .copy => s

/-- C69, hash objects: name, digest size and block size never change, and `digest` always returns
as many bytes as `digest_size` says. -/
theorem C69_hash {name : String} {data : Option PyVal} {s : HashObj}
    (h : HashObj.new name data = .ok s) (ms : List HashMethod) :
    (ms.foldl HashObj.after s).name = name ∧
    (ms.foldl HashObj.after s).digestSize = (if name = "streebog256" then 32 else 64) ∧
    (ms.foldl HashObj.after s).blockSize = 64 ∧
    (ms.foldl HashObj.after s).digest.length = (ms.foldl HashObj.after s).digestSize := by
  have hn : s.name = name ∧ IsHashName name := by
    have hs := C66_new name data
    cases hf : hashFault name data with
    | some m => rw [hs.1 m hf] at h; cases h
    | none =>
      obtain ⟨t, h1, h2, _⟩ := hs.2 hf
      rw [h1] at h
      cases h
      refine ⟨h2, ?_⟩
      by_cases h5 : IsHashName name
      · exact h5
      · unfold hashFault at hf
        rw [if_neg (show ¬ (_ ∨ _) from fun h => h5 h.symm)] at hf
        cases hf
  have hname : ∀ (ms : List HashMethod) (s : HashObj), (ms.foldl HashObj.after s).name = s.name := by
    intro ms
    induction ms with
    | nil => exact fun s => rfl
    | cons m ms ih =>
      intro s
      rw [List.foldl_cons, ih]
      cases m with
      | update v =>
        show (s.update v).1.name = s.name
        unfold HashObj.update
        split
        · rfl
        · exact HashObj.updateBytes_name _ _
      | reset => rfl
      | digest => rfl
      | hexdigest => rfl
      | copy => rfl
  have h1 := hname ms s
  rw [hn.1] at h1
  have hst : ∀ (ms : List HashMethod) (s : HashObj), (∃ M, Stands s (name, M)) →
      ∃ M, Stands (ms.foldl HashObj.after s) (name, M) := by
    intro ms
    induction ms with
    | nil => exact fun s h => h
    | cons m ms ih =>
      rintro s ⟨M, hM⟩
      rw [List.foldl_cons]
      apply ih
      cases m with
      | update v =>
        show ∃ M, Stands (s.update v).1 (name, M)
        unfold HashObj.update
        split
        · exact ⟨M, hM⟩
        · rename_i d _
          exact ⟨Spec.effective M d, (HashObj.updateBytes_name _ _).trans hM.name, hM.valid,
            hM.holds.update (HashObj.ivOf_length _) d⟩
      | reset => exact ⟨[], hM.name, hM.valid, by rw [HashObj.after, HashObj.reset, hM.name]; exact HashObj.hashInit_holds _⟩
      | digest => exact ⟨M, hM⟩
      | hexdigest => exact ⟨M, hM⟩
      | copy => exact ⟨M, hM⟩
  have h0 : ∃ M, Stands s (name, M) := by
    cases data with
    | none =>
      rw [new_none name hn.2] at h
      cases h
      exact ⟨[], rfl, hn.2, HashObj.hashInit_holds _⟩
    | some v =>
      cases hv : v.data? with
      | none =>
        rw [(C66_new name (some v)).1 "GOSTHashError: invalid data value" (by
          unfold hashFault
          rw [if_pos (show _ ∨ _ from hn.2.symm)]
          cases v <;> first | rfl | cases hv)] at h
        cases h
      | some d => exact ⟨_, hn.1, hn.2, (new_some name hn.2 v d hv s h).2⟩
  obtain ⟨M, hM⟩ := hst ms s h0
  have hsz : (ms.foldl HashObj.after s).digestSize = (if name = "streebog256" then 32 else 64) := by
    unfold HashObj.digestSize
    rw [h1]
    rcases hn.2 with h | h <;> subst h <;> rfl
  refine ⟨h1, hsz, rfl, ?_⟩
  rw [hsz, hM.digest]
  rcases hn.2 with h | h
  · subst h
    exact HashObj.hash_length _ _ (List.length_replicate ..)
  · subst h
    exact hashOf256_length M

/-- Cases: a Kuznechik object in MAC mode after a rejected update, `clear` and a missing method;
a hash object after a reset. -/
example (c : Cipher) (h : newCipher "kuznechik" (.bytes Ex.key) 255 = .ok c) :
    (([.update .other, .clear, .encrypt (.bytes [])] : List MethodCall).foldl Cipher.after c).blockSize
      = 16 := by
  obtain ⟨a, ha, _, hb, _⟩ := C69_cipher h [.update .other, .clear, .encrypt (.bytes [])]
  cases a
  · exact hb
  · exact absurd ha (by decide)
example : ∃ c, newCipher "kuznechik" (.bytes Ex.key) 255 = .ok c := by
  obtain ⟨o, D, _, _, _, h, _⟩ := new_mac .kuznechik (.bytes Ex.key) Ex.key rfl Ex.key_length none none
  exact ⟨_, h none rfl⟩
example : ∃ s, HashObj.new "streebog256" none = .ok s ∧
    (([.update (.bytes [1]), .reset] : List HashMethod).foldl HashObj.after s).digestSize = 32 :=
  ⟨_, new_none _ (.inr rfl), (C69_hash (new_none _ (.inr rfl)) _).2.1⟩

end Gost
