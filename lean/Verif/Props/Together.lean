import Verif.Props.Hash
import Verif.Props.Pbkdf
import Verif.Props.RoundTrip
import Verif.Props.Ident
import Verif.Props.SignatureBuiltin

/-! Property C80: the parts of the package used one after the other. -/

namespace Gost
open Spec (Alg hashOf IsHashName beNat AllHarmless pbkdf2)

/-- The hash function whose digests have the size of the numbers of a signature mode. -/
def hashFor (mode : Int) : String := if mode = 1 then "streebog256" else "streebog512"

theorem hashFor_name (mode : Int) : IsHashName (hashFor mode) := by
  unfold hashFor
  split
  · exact .inr rfl
  · exact .inl rfl

/-- C80, documents: for every built-in curve, in the mode of its size, with every private key
0 < d < q (but q - 1 for 256-paramSetD): the digest of every document, by the hash function of the
same size, is accepted by `sign` with the default random value; whatever `sign` returns is accepted
by `verify` with the public key and the digest which another hash object computes from the same
document in pieces (which do not complete a started block, see C25). -/
theorem C80_sign_document (name : String) (c : CurveParams) (hc : (name, c) ∈ Curves.builtin) :
    ∃ mode s q, (mode = 1 ∨ mode = 2) ∧ Sig.new mode c = .ok s ∧ s.q = (q : Nat) ∧
      ∀ (sk : PyVal) (d : Bytes), sk.data? = some d → d.length = s.size → 0 < beNat d → beNat d < q →
        ¬ (name = "id-tc26-gost-3410-2012-256-paramSetD" ∧ beNat d = q - 1) →
        ∃ pk : Bytes, (∀ F, q ≤ 2 ^ F → s.publicKeyGenerate F sk = some (.ok pk)) ∧
          ∀ (doc : PyVal) (m : Bytes), doc.data? = some m →
            ∃ h, HashObj.new (hashFor mode) (some doc) = .ok h ∧
              (∀ F rand r, s.sign F rand sk (.bytearray h.digest) = some r → ∃ sig, r = .ok sig) ∧
              ∀ F rand rkv sig, s.sign F rand sk (.bytearray h.digest) rkv = some (.ok sig) →
                ∀ (ds : List Bytes), ds.flatten = m → AllHarmless [] ds →
                  ∃ g, HashObj.new (hashFor mode) = .ok g ∧
                    ∀ F', q ≤ 2 ^ F' → s.verify F' (.bytearray pk)
                      (.bytearray (ds.foldl HashObj.updateBytes g).digest) (.bytearray sig) =
                        some (.ok true) := by
  obtain ⟨mode, q, hm, s, h1, h2, h3⟩ := Sig.C59_all _ hc
  refine ⟨mode, s, q, hm, h1, h2, fun sk d hd hl h0 hq hne => ?_⟩
  obtain ⟨pk, _, hp, hv⟩ := h3 sk d hd hl h0 hq hne
  refine ⟨pk, hp, fun doc m hdoc => ?_⟩
  obtain ⟨h, e1, e2⟩ := C23_new (hashFor mode) (hashFor_name mode) doc m hdoc
  have hsize : h.digest.length = s.size := by
    rw [e2, C26_digest_size _ (hashFor_name mode)]
    rcases C67_sign h1 with ⟨rfl, _, e⟩ | ⟨rfl, _, e⟩ <;> rw [e] <;> rfl
  refine ⟨h, e1, fun F rand r hr => ?_, fun F rand rkv sig hs ds hds hh => ?_⟩
  · rw [Sig.sign_random hd hl rfl hsize rfl] at hr
    split at hr
    · cases hr
    · unfold Sig.signWith at hr
      obtain ⟨_, _, e⟩ := Option.map_eq_some_iff.1 hr
      exact ⟨_, e.symm⟩
  · refine ⟨_, new_none (hashFor mode) (hashFor_name mode), fun F' hF => ?_⟩
    rw [C25_concat_partial (hashFor mode) (hashFor_name mode) ds hh _ (new_none _ (hashFor_name mode)), hds,
      fresh_update _ (hashFor_name mode), ← e2]
    exact hv _ rkv F rand sig hs _ _ rfl rfl F' hF

/-- A document as in the theorem, in pieces of 64, 5 and 100 bytes. -/
example : AllHarmless [] [Ex.count 0 64, Ex.count 1 5, Ex.count 2 100] ∧
    ("id-tc26-gost-3410-2012-256-paramSetB", Curves.c256B) ∈ Curves.builtin := by
  refine ⟨⟨.inl rfl, .inl (by decide), .inr (by decide), trivial⟩, List.mem_cons_self⟩

/-- C80, keys from passwords: two objects made from the same password, salt and number of iterations
derive the same 32 bytes, `gostcipher.new` takes them as the key of either cipher, and what one
object encrypts the other decrypts (CBC with both paddings, CFB, OFB, CTR). -/
theorem C80_password (rand rand' : Bytes) (pv sv : PyVal) (pw sl : Bytes) (hpv : pv.data? = some pw)
    (hpw : pw.length ≤ 64) (hsv : sv.data? = some sl) (hsl : sl ≠ []) (c : Nat) :
    ∃ s s' key, Pbkdf.new rand pv (some sv) c = .ok s ∧ Pbkdf.new rand' pv (some sv) c = .ok s' ∧
      (s.derive 32).2 = .ok key ∧ (s'.derive 32).2 = .ok key ∧
      ∀ (a : Alg) (ivv mv : PyVal) (iv msg : Bytes), ivv.data? = some iv → mv.data? = some msg →
        (0 < iv.length → iv.length % a.blockSize = 0 →
          (∀ pad, pad = padMode1 ∨ pad = padMode2 → ∃ e ct out,
            newCipher a.name (.bytearray key) modeCbc (padMode := some pad) (initVect := some ivv) = .ok (.cbc e) ∧
            (e.encrypt mv).2 = .ok ct ∧ (e.decrypt (.bytearray ct)).2 = .ok out ∧
            (pad = padMode1 → Spec.ZeroPadded a.blockSize msg out) ∧
            (pad = padMode2 → Spec.MarkPadded a.blockSize msg out)) ∧
          (∃ e ct, newCipher a.name (.bytearray key) modeCfb (initVect := some ivv) = .ok (.cfb e) ∧
            (Cfb.encrypt e mv).2 = .ok ct ∧ (Cfb.decrypt e (.bytearray ct)).2 = .ok msg) ∧
          (∃ e ct, newCipher a.name (.bytearray key) modeOfb (initVect := some ivv) = .ok (.ofb e) ∧
            (Ofb.encrypt e mv).2 = .ok ct ∧ (Ofb.decrypt e (.bytearray ct)).2 = .ok msg)) ∧
        (iv.length = a.blockSize / 2 →
          ∃ e ct, newCipher a.name (.bytearray key) modeCtr (initVect := some ivv) = .ok (.ctr e) ∧
            (e.encrypt mv).2 = .ok ct ∧ (e.decrypt (.bytearray ct)).2 = .ok msg) := by
  obtain ⟨s, h1, h2⟩ := C32_pbkdf2 rand pv pw hpv hpw sv sl hsv hsl c [32] (by simp)
  obtain ⟨s', h1', h2'⟩ := C32_pbkdf2 rand' pv pw hpv hpw sv sl hsv hsl c [32] (by simp)
  have hl := C32_length pw sl c 32
  refine ⟨s, s', _, h1, h1', (List.cons.inj h2).1, (List.cons.inj h2').1, fun a ivv mv iv msg hiv hm => ⟨fun h0 hb =>
    ⟨fun pad hp => ?_, ?_, ?_⟩, fun hb => ?_⟩⟩
  · obtain ⟨e, ct, out, a1, a2, a3, _, a5, a6⟩ :=
      C06_cbc_round_trip a (.bytearray _) ivv mv _ iv msg rfl hl hiv h0 hb hm pad hp
    exact ⟨e, ct, out, a1, a2, a3 _ rfl, a5, a6⟩
  · obtain ⟨e, ct, a1, a2, _, a3⟩ := C07_cfb_round_trip a (.bytearray _) ivv mv _ iv msg rfl hl hiv h0 hb hm
    exact ⟨e, ct, a1, a2, a3 _ rfl⟩
  · obtain ⟨e, ct, a1, a2, _, a3⟩ := C08_ofb_round_trip a (.bytearray _) ivv mv _ iv msg rfl hl hiv h0 hb hm
    exact ⟨e, ct, a1, a2, a3 _ rfl⟩
  · obtain ⟨e, ct, a1, a2, _, a3⟩ := C09_ctr_round_trip a (.bytearray _) ivv mv _ iv msg rfl hl hiv hb hm
    exact ⟨e, ct, a1, a2, a3 _ rfl⟩

end Gost
