import Verif.Proofs.Stream
import Verif.Props.RoundTrip

/-! Property C127: two objects which exchange messages stay in step. -/

namespace Gost
open Spec (Alg blocks rest)

/-- Two parties, with the objects a and b, exchange messages: the first one sends if the mark of a message is true,
else the second one. The sender encrypts the message, the receiver decrypts the result. The objects at the end, and what
the receivers got. -/
def dialog {σ : Type} (enc dec : σ → PyVal → σ × Res Bytes) : σ → σ → List (Bool × PyVal) → (σ × σ) × List (Res Bytes)
  | a, b, [] => ((a, b), [])
  | a, b, (true, m) :: ms =>
    match enc a m with
    | (a', .error e) => ((a', b), [.error e])
    | (a', .ok ct) =>
      let r := dec b (.bytearray ct)
      let t := dialog enc dec a' r.1 ms
      (t.1, r.2 :: t.2)
  | a, b, (false, m) :: ms =>
    match enc b m with
    | (b', .error e) => ((a, b'), [.error e])
    | (b', .ok ct) =>
      let r := dec a (.bytearray ct)
      let t := dialog enc dec r.1 b' ms
      (t.1, r.2 :: t.2)

/-- What was received is in the relation P to what was sent, and the objects are the same at the end. -/
def InStep {σ : Type} (P : Bytes → Bytes → Prop) (ms : List (Bool × PyVal)) (t : (σ × σ) × List (Res Bytes)) : Prop :=
  t.1.1 = t.1.2 ∧ t.2.length = ms.length ∧
    ∀ x ∈ ms.zip t.2, ∃ d o, x.1.2.data? = some d ∧ x.2 = .ok o ∧ P d o

theorem dialog_ok {σ : Type} {enc dec : σ → PyVal → σ × Res Bytes} (Inv : σ → Prop) (P : Bytes → Bytes → Prop)
    (h : ∀ s, Inv s → ∀ (v : PyVal) (d : Bytes), v.data? = some d → ∃ s' ct out, enc s v = (s', .ok ct) ∧
      dec s (.bytearray ct) = (s', .ok out) ∧ P d out ∧ Inv s')
    (ms : List (Bool × PyVal)) (hms : ∀ m ∈ ms, m.2.data? ≠ none) (s : σ) (hs : Inv s) :
    InStep P ms (dialog enc dec s s ms) := by
  induction ms generalizing s with
  | nil => exact ⟨rfl, rfl, fun x hx => by cases hx⟩
  | cons m ms ih =>
    obtain ⟨w, v⟩ := m
    obtain ⟨d, hd⟩ := Option.ne_none_iff_exists'.1 (hms (w, v) List.mem_cons_self)
    obtain ⟨s', ct, out, e1, e2, hP, hs'⟩ := h s hs v d hd
    obtain ⟨i1, i2, i3⟩ := ih (fun m hm => hms m (List.mem_cons_of_mem _ hm)) s' hs'
    have e : dialog enc dec s s ((w, v) :: ms) =
        ((dialog enc dec s' s' ms).1, .ok out :: (dialog enc dec s' s' ms).2) := by
      cases w <;> simp only [dialog, e1, e2]
    rw [e]
    refine ⟨i1, by simp [i2], fun x hx => ?_⟩
    rw [List.zip_cons_cons] at hx
    rcases List.mem_cons.1 hx with rfl | hx
    · exact ⟨d, out, hd, rfl, hP⟩
    · exact i3 x hx

/-- The padding of a mode: zeros, or 0x80 and zeros. -/
def Padded (n : Nat) (pad : Int) (d out : Bytes) : Prop :=
  (pad = padMode1 → Spec.ZeroPadded n d out) ∧ (pad = padMode2 → Spec.MarkPadded n d out)

theorem padded_setPadding {n : Nat} (hn : 0 < n) (pad : Int) (d : Bytes) : Padded n pad d (setPadding n d pad) :=
  ⟨fun h => h ▸ zeroPadded_setPadding n hn d, fun h => h ▸ markPadded_setPadding n hn d⟩

/-- C127, ECB: every message is received with its padding. -/
theorem C127_ecb (s : Ecb) (hs : Ecb.Reachable s) (ms : List (Bool × PyVal)) (hms : ∀ m ∈ ms, m.2.data? ≠ none) :
    InStep (Padded s.obj.blockSize s.padMode) ms (dialog Ecb.encrypt Ecb.decrypt s s ms) := by
  obtain ⟨hg, hp⟩ := hs.inv
  refine dialog_ok (fun t => t = s) _ ?_ ms hms s rfl
  intro t ht v d hd
  rw [ht]
  obtain ⟨ct, e1, _, e3⟩ := Ecb.round_trip s hg.implements hp v d hd
  exact ⟨s, ct, _, e1, e3 _ rfl, padded_setPadding Implements.pos _ _, rfl⟩

/-- C127, CBC: every message is received with its padding. -/
theorem C127_cbc (s : Cbc) (hs : Cbc.Reachable s) (hiv : s.iv ≠ []) (ms : List (Bool × PyVal))
    (hms : ∀ m ∈ ms, m.2.data? ≠ none) :
    InStep (Padded s.obj.blockSize s.padMode) ms (dialog Cbc.encrypt Cbc.decrypt s s ms) := by
  obtain ⟨hg, hp, hR⟩ := hs.inv
  refine dialog_ok (fun t => t.obj = s.obj ∧ t.padMode = s.padMode ∧ ∃ R, GoodReg s.obj.blockSize R ∧ t.iv = R.flatten) _
    ?_ ms hms s ⟨rfl, rfl, hR.reg hiv⟩
  rintro t ⟨h1, h2, R, hR, h3⟩ v d hd
  have hg' : t.obj.Good := h1 ▸ hg
  have hR' : GoodReg t.obj.blockSize R := h1 ▸ hR
  obtain ⟨t', ct, e1, _, e3⟩ := Cbc.round_trip t hg'.implements R hR' h3 (h2 ▸ hp) v d hd
  refine ⟨t', ct, _, e1, e3 _ rfl, h2 ▸ h1 ▸ padded_setPadding Implements.pos _ _, ?_⟩
  have e := Cbc.encrypt_ok t hg'.implements R hR' h3 v d hd
  rw [e1] at e
  have e := congrArg Prod.fst e
  dsimp only at e
  rw [e]
  refine ⟨h1, h2, _, ?_, rfl⟩
  rw [← h1]
  exact (regRun_good t.obj.blockSize t.obj.blockSize (cbcG t.obj.E) (cbcG t.obj.E)
    (fun r b hr hb => cbcG_length hg'.implements r b hr hb)
    (fun r b hr hb => cbcG_length hg'.implements r b hr hb) R _ hR'
    (fun b hb => mem_blocks_length hb)).1

/-- C127, CFB: every message is received as it was sent, whatever its length. -/
theorem C127_cfb (s : Fb) (hs : Cfb.Reachable s) (hiv : s.iv ≠ []) (ms : List (Bool × PyVal))
    (hms : ∀ m ∈ ms, m.2.data? ≠ none) : InStep Eq ms (dialog Cfb.encrypt Cfb.decrypt s s ms) := by
  obtain ⟨hg, hR⟩ := hs.inv
  refine dialog_ok (fun t => t.obj = s.obj ∧ ∃ R, GoodReg s.obj.blockSize R ∧ t.iv = R.flatten) _
    ?_ ms hms s ⟨rfl, hR.reg hiv⟩
  rintro t ⟨h1, R, hR, h3⟩ v d hd
  have hg' : t.obj.Good := h1 ▸ hg
  have hR' : GoodReg t.obj.blockSize R := h1 ▸ hR
  obtain ⟨t', ct, e1, _, e3⟩ := Cfb.round_trip t hg'.implements R hR' h3 v d hd
  refine ⟨t', ct, _, e1, e3 _ rfl, rfl, ?_⟩
  have e := Cfb.encrypt_ok t hg'.implements R hR' h3 v d hd
  rw [e1] at e
  have e := congrArg Prod.fst e
  dsimp only at e
  rw [e]
  refine ⟨h1, _, ?_, rfl⟩
  rw [← h1]
  have hl : ∀ r b : Bytes, r.length = t.obj.blockSize → b.length = t.obj.blockSize →
      (maskG t.obj.E r b).length = t.obj.blockSize :=
    fun r b hr hb => by rw [maskG_length hg'.implements r b hr (by omega), hb]
  exact (regRun_good t.obj.blockSize t.obj.blockSize (maskG t.obj.E) (maskG t.obj.E) hl hl R _ hR'
    (fun b hb => mem_blocks_length hb)).1

/-- C127, OFB. -/
theorem C127_ofb (s : Fb) (hs : Ofb.Reachable s) (hiv : s.iv ≠ []) (ms : List (Bool × PyVal))
    (hms : ∀ m ∈ ms, m.2.data? ≠ none) : InStep Eq ms (dialog Ofb.encrypt Ofb.decrypt s s ms) := by
  obtain ⟨hg, hR⟩ := hs.inv
  refine dialog_ok (fun t => t.obj = s.obj ∧ ∃ R, GoodReg s.obj.blockSize R ∧ t.iv = R.flatten) _
    ?_ ms hms s ⟨rfl, hR.reg hiv⟩
  rintro t ⟨h1, R, hR, h3⟩ v d hd
  have hg' : t.obj.Good := h1 ▸ hg
  have hR' : GoodReg t.obj.blockSize R := h1 ▸ hR
  obtain ⟨t', ct, e1, _, e3⟩ := Ofb.round_trip t hg'.implements R hR' h3 v d hd
  refine ⟨t', ct, _, e1, e3 _ rfl, rfl, ?_⟩
  have e := Ofb.encrypt_ok t hg'.implements R hR' h3 v d hd
  rw [e1] at e
  have e := congrArg Prod.fst e
  dsimp only at e
  rw [e]
  refine ⟨h1, _, ?_, rfl⟩
  rw [← h1]
  exact (regRun_good t.obj.blockSize t.obj.blockSize (maskG t.obj.E) (ofbH t.obj.E)
    (fun r _ hr _ => hg'.implements.enc_len r hr)
    (fun r b hr hb => by rw [maskG_length hg'.implements r b hr (by omega), hb]) R _ hR'
    (fun b hb => mem_blocks_length hb)).1

/-- C127, CTR. -/
theorem C127_ctr (s : Ctr) (hs : Ctr.Reachable s) (ms : List (Bool × PyVal))
    (hms : ∀ m ∈ ms, m.2.data? ≠ none) : InStep Eq ms (dialog Ctr.encrypt Ctr.decrypt s s ms) := by
  refine dialog_ok (fun t => Ctr.Reachable t) _ ?_ ms hms s hs
  intro t ht v d hd
  obtain ⟨hg, hc⟩ := ht.inv
  obtain ⟨t', ct, e1, _, e3⟩ := Ctr.round_trip t hg.implements hc v d hd
  refine ⟨t', ct, _, e1, e3 _ rfl, rfl, ?_⟩
  have := ht.encrypt v
  rw [e1] at this
  exact this

/-- A case: messages of 20, 0 and 35 bytes in both directions. -/
example : ∃ s, newCipher Alg.kuznechik.name (.bytes Ex.key) modeCfb (initVect := some (.bytes (Ex.count 9 32))) =
      .ok (.cfb s) ∧ InStep Eq [(true, .bytes (Ex.count 1 20)), (false, .bytearray []), (false, .bytes (Ex.count 3 35))]
        (dialog Cfb.encrypt Cfb.decrypt s s
          [(true, .bytes (Ex.count 1 20)), (false, .bytearray []), (false, .bytes (Ex.count 3 35))]) := by
  obtain ⟨o, D, h1, _, h3, hI⟩ := new_cfb .kuznechik (.bytes Ex.key) (.bytes (Ex.count 9 32)) Ex.key (Ex.count 9 32) rfl
    (by decide) rfl (by decide) none none
  refine ⟨_, h1, C127_cfb _ (.new h1) (show Ex.count 9 32 ≠ [] by decide) _ ?_⟩
  intro m hm
  simp only [List.mem_cons, List.not_mem_nil, or_false] at hm
  rcases hm with rfl | rfl | rfl <;> simp [PyVal.data?]

end Gost
