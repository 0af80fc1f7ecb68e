import Verif.Model.Alias
import Verif.Props.Pbkdf

/-! Properties C31 and C49: buffers shared with the caller. -/

namespace Gost.Alias
open Spec (hmac hashOf hmacHash IsHmacName)

/-! ### What must be observed -/

/-- The observations of a program on an object which shares nothing: the writes have no effect. -/
def valueRun {σ ι ο : Type} (C : Cls σ ι ο) (s : σ) : List (Ev ι) → List (Obs ο)
  | [] => []
  | .write _ _ :: es => .nothing :: valueRun C s es
  | .call x :: es => .result (C.call s x).2 :: valueRun C (C.call s x).1 es
  | .attr :: es =>
    (match C.access with
      | .hidden => .nothing
      | .copied f => .bytes (f s)
      | .exposed => .bytes (C.buf s)) :: valueRun C s es

/-- The buffer of the object is one of its fields. -/
structure Lawful {σ ι ο : Type} (C : Cls σ ι ο) : Prop where
  get_set : ∀ s b, C.buf (C.setBuf s b) = b
  set_get : ∀ s, C.setBuf s (C.buf s) = s
  set_set : ∀ s b b', C.setBuf (C.setBuf s b) b' = C.setBuf s b'

/-- The caller has no reference to the object's buffer. -/
structure Apart {σ : Type} (w : World σ) : Prop where
  cell : w.cell < w.heap.length
  held : ∀ r ∈ w.held, r < w.heap.length
  apart : w.cell ∉ w.held

theorem read_set_same (h : Heap) (r : Nat) (b : Bytes) (hr : r < h.length) : read (h.set r b) r = b := by
  simp [read, List.getD_eq_getElem?_getD, List.getElem?_set_self hr]

theorem read_set_other (h : Heap) (r r' : Nat) (b : Bytes) (hr : r ≠ r') :
    read (h.set r b) r' = read h r' := by
  simp [read, List.getD_eq_getElem?_getD, List.getElem?_set_ne hr]

theorem read_append (h : Heap) (b : Bytes) (r : Nat) (hr : r < h.length) :
    read (h ++ [b]) r = read h r := by
  simp [read, List.getD_eq_getElem?_getD, List.getElem?_append_left hr]

theorem read_new (h : Heap) (b : Bytes) : read (h ++ [b]) h.length = b := by
  simp [read, List.getD_eq_getElem?_getD]

/-- The attribute does not give away the buffer. -/
def Closed {σ ι ο : Type} (C : Cls σ ι ο) (es : List (Ev ι)) : Prop :=
  match C.access with
  | .exposed => Ev.attr ∉ es
  | _ => True

theorem Closed.tail {σ ι ο : Type} {C : Cls σ ι ο} {e : Ev ι} {es : List (Ev ι)} (h : Closed C (e :: es)) :
    Closed C es := by
  unfold Closed at *
  split at h
  · exact fun hm => h (List.mem_cons_of_mem _ hm)
  · trivial

theorem apart_step {σ ι ο : Type} {C : Cls σ ι ο} {w : World σ} (h : Apart w) (e : Ev ι)
    (he : C.access = .exposed → e ≠ .attr) : Apart (step C w e).1 := by
  cases e with
  | write r b =>
    unfold step
    simp only
    split
    · exact ⟨by simpa using h.cell, by simpa using h.held, h.apart⟩
    · exact h
  | call x =>
    unfold step
    simp only
    split
    · refine ⟨by simp, ?_, ?_⟩
      · intro r hr
        have := h.held r hr
        simp; omega
      · intro hm
        exact Nat.lt_irrefl _ (h.held _ hm)
    · exact ⟨by simpa using h.cell, by simpa using h.held, h.apart⟩
  | attr =>
    unfold step
    simp only
    split
    · exact h
    · refine ⟨?_, ?_, ?_⟩
      · have := h.cell; simp; omega
      · intro r hr
        rcases List.mem_cons.1 hr with rfl | hr
        · simp
        · have := h.held r hr; simp; omega
      · intro hm
        rcases List.mem_cons.1 hm with hm | hm
        · have := h.cell
          have hm' : w.cell = w.heap.length := hm
          omega
        · exact h.apart hm
    · next hx => exact absurd rfl (he hx)

/-- An object which shares nothing behaves as a value, whatever the caller does with its buffers. -/
theorem run_apart {σ ι ο : Type} {C : Cls σ ι ο} (hC : Lawful C) (es : List (Ev ι)) :
    ∀ w : World σ, Apart w → Closed C es → run C w es = valueRun C (w.state C) es := by
  induction es with
  | nil => intro w _ _; rfl
  | cons e es ih =>
    intro w hw hcl
    have hne : C.access = .exposed → e ≠ .attr := by
      intro hx he
      subst he
      unfold Closed at hcl
      rw [hx] at hcl
      exact hcl (by simp)
    have h1 := ih _ (apart_step hw e hne) hcl.tail
    rw [run, h1]
    cases e with
    | write r b =>
      rw [valueRun]
      congr 1
      · unfold step World.state
        simp only
        split
        · next hr =>
          rw [read_set_other _ _ _ _ (by rintro rfl; exact hw.apart hr)]
        · rfl
    | call x =>
      rw [valueRun]
      unfold step
      simp only
      split
      · congr 1
        unfold World.state
        simp only
        rw [read_new, hC.set_get]
      · congr 1
        unfold World.state
        simp only
        rw [read_set_same _ _ _ hw.cell, hC.set_get]
    | attr =>
      rw [valueRun]
      unfold step
      simp only
      split
      · next hx => rw [hx]
      · next f hf =>
        rw [hf]
        congr 1
        unfold World.state
        simp only
        rw [read_append _ _ _ hw.cell]
      · next hx => exact absurd rfl (hne hx)

/-- The calls do not change the buffers of the caller. -/
theorem held_kept {σ ι ο : Type} {C : Cls σ ι ο} {w : World σ} (h : Apart w) (e : Ev ι) (r : Nat)
    (hr : r ∈ w.held) (he : ∀ b, e ≠ .write r b) :
    read (step C w e).1.heap r = read w.heap r := by
  have hlt := h.held r hr
  have hne : w.cell ≠ r := by rintro rfl; exact h.apart hr
  cases e with
  | write r' b =>
    unfold step
    simp only
    split
    · exact read_set_other _ _ _ _ (by rintro rfl; exact he b rfl)
    · rfl
  | call x =>
    unfold step
    simp only
    split
    · exact read_append _ _ _ hlt
    · exact read_set_other _ _ _ _ hne
  | attr =>
    unfold step
    simp only
    split
    · rfl
    · exact read_append _ _ _ hlt
    · rfl

theorem fresh_apart {σ : Type} (h : Heap) (b : Bytes) (s : σ) : Apart (fresh h b s) :=
  ⟨by simp [fresh], fun r hr => by simp [fresh] at *; omega, by simp [fresh]⟩

theorem fresh_state {σ ι ο : Type} {C : Cls σ ι ο} (hC : Lawful C) (h : Heap) (s : σ) :
    (fresh h (C.buf s) s).state C = s := by
  unfold World.state fresh
  simp only
  rw [read_new, hC.set_get]

theorem hmac_lawful : Lawful hmacCls := ⟨fun _ _ => rfl, fun _ => rfl, fun _ _ _ => rfl⟩
theorem cbc_lawful : Lawful cbcCls := ⟨fun _ _ => rfl, fun _ => rfl, fun _ _ _ => rfl⟩
theorem cfb_lawful : Lawful cfbCls := ⟨fun _ _ => rfl, fun _ => rfl, fun _ _ _ => rfl⟩
theorem ofb_lawful : Lawful ofbCls := ⟨fun _ _ => rfl, fun _ => rfl, fun _ _ _ => rfl⟩
theorem ctr_lawful : Lawful ctrCls := ⟨fun _ _ => rfl, fun _ => rfl, fun _ _ _ => rfl⟩
theorem pbkdf_lawful : Lawful pbkdfCls := ⟨fun _ _ => rfl, fun _ => rfl, fun _ _ _ => rfl⟩

/-! ### C31 -/

/-- C31, what holds: unless the key is a `bytearray` of exactly 64 bytes, no later change of any of the
caller's buffers has an effect on any later result. -/
theorem C31_captured_partial (h : Heap) (name : String) (key : Arg) (w : World Hmac)
    (hk : ∀ r, key = .bytearray r → (read h r).length ≠ 64) (hw : hmacNew h name key = .ok w)
    (es : List (Ev HmacOp)) :
    ∃ s, Hmac.new name (key.val h) = .ok s ∧ run hmacCls w es = valueRun hmacCls s es := by
  unfold hmacNew at hw
  cases hs : Hmac.new name (key.val h) with
  | error e => rw [hs] at hw; cases hw
  | ok s =>
    refine ⟨s, rfl, ?_⟩
    rw [hs] at hw
    have he : w = fresh h s.key s := by
      cases key with
      | bytes b => cases hw; rfl
      | other => cases hw; rfl
      | bytearray r => simp only [if_neg (hk r rfl)] at hw; cases hw; rfl
    subst he
    rw [run_apart hmac_lawful es _ (fresh_apart h s.key s) (by simp [Closed, hmacCls])]
    rw [show s.key = hmacCls.buf s from rfl, fresh_state hmac_lawful]

/-- `clear` is the only call which binds a new key. -/
def endsSharing : HmacOp → Bool
  | .clear => true
  | .update _ | .digest | .hexdigest | .reset => false

theorem hmac_rebinds (x : HmacOp) : hmacCls.rebinds x = endsSharing x := by cases x <;> rfl

/-- The observations when the caller's cell `r` is the key, as long as it is (`shared`): every write
to it replaces the key, `clear` ends the sharing. -/
def sharedRun (r : Nat) (s : Hmac) (shared : Bool) : List (Ev HmacOp) → List (Obs HmacRes)
  | [] => []
  | .write r' b :: es =>
    .nothing :: sharedRun r (if shared ∧ r' = r then { s with key := b } else s) shared es
  | .call x :: es =>
    .result (hmacCall s x).2 :: sharedRun r (hmacCall s x).1 (shared && !endsSharing x) es
  | .attr :: es => .nothing :: sharedRun r s shared es

theorem sharedRun_false (r : Nat) (es : List (Ev HmacOp)) :
    ∀ s, sharedRun r s false es = valueRun hmacCls s es := by
  induction es with
  | nil => intro s; rfl
  | cons e es ih =>
    intro s
    cases e with
    | write r' b =>
      rw [sharedRun, valueRun, ih]
      simp
    | call x => rw [sharedRun, valueRun, Bool.false_and, ih]; rfl
    | attr => rw [sharedRun, valueRun, ih]; rfl

/-- C31, exact behaviour for a `bytearray` of 64 bytes: its contents at the time of each call are the
key, until `clear()`. -/
theorem C31_exact (h : Heap) (name : String) (r : Nat) (hr : r < h.length) (w : World Hmac)
    (hl : (read h r).length = 64) (hw : hmacNew h name (.bytearray r) = .ok w)
    (es : List (Ev HmacOp)) :
    ∃ s, Hmac.new name (.bytearray (read h r)) = .ok s ∧ run hmacCls w es = sharedRun r s true es := by
  unfold hmacNew at hw
  cases hs : Hmac.new name (Arg.val h (.bytearray r)) with
  | error e => rw [hs] at hw; cases hw
  | ok s =>
    refine ⟨s, hs, ?_⟩
    rw [hs] at hw
    simp only [if_pos hl] at hw
    cases hw
    have key : ∀ es (w : World Hmac), w.cell = r → r < w.heap.length →
        (∀ i ∈ w.held, i < w.heap.length) → r ∈ w.held →
        run hmacCls w es = sharedRun r (w.state hmacCls) true es := by
      clear hs hl hr es s
      intro es
      induction es with
      | nil => intro w _ _ _ _; rfl
      | cons e es ih =>
        intro w hc hlt hh hm
        cases e with
        | write r' b =>
          rw [run, sharedRun]
          have : (step hmacCls w (.write r' b)).1.state hmacCls =
              if true = true ∧ r' = r then { w.state hmacCls with key := b } else w.state hmacCls := by
            unfold step World.state
            simp only [hc, true_and]
            by_cases hrr : r' = r
            · subst hrr
              rw [if_pos hm, if_pos rfl, read_set_same _ _ _ hlt]
              rfl
            · rw [if_neg hrr]
              split
              · rw [read_set_other _ _ _ _ hrr]
              · rfl
          rw [ih, this]
          · rfl
          · exact hc
          · unfold step; simp only; split <;> simpa using hlt
          · unfold step; simp only; split <;> simpa using hh
          · exact hm
        | call x =>
          rw [run, sharedRun, ← hmac_rebinds]
          cases hb : hmacCls.rebinds x with
          | false =>
            have e1 : step hmacCls w (.call x) = ({ w with
                heap := w.heap.set w.cell (hmacCls.buf (hmacCall (w.state hmacCls) x).1),
                obj := (hmacCall (w.state hmacCls) x).1 }, .result (hmacCall (w.state hmacCls) x).2) := by
              unfold step
              simp only [hb]
              rfl
            rw [e1, ih]
            · congr 1
              unfold World.state
              simp only [hc]
              rw [read_set_same _ _ _ hlt]
              rfl
            · exact hc
            · simpa using hlt
            · simpa using hh
            · exact hm
          | true =>
            have e1 : step hmacCls w (.call x) = ({ w with
                heap := w.heap ++ [hmacCls.buf (hmacCall (w.state hmacCls) x).1],
                cell := w.heap.length,
                obj := (hmacCall (w.state hmacCls) x).1 }, .result (hmacCall (w.state hmacCls) x).2) := by
              unfold step
              simp only [hb]
              rfl
            rw [e1, run_apart hmac_lawful]
            · congr 1
              rw [show (true && !true) = false from rfl, sharedRun_false]
              unfold World.state
              simp only
              rw [read_new]
              rfl
            · refine ⟨by simp, ?_, ?_⟩
              · intro i hi
                have := hh i hi
                simp; omega
              · intro hm'
                exact Nat.lt_irrefl _ (hh _ hm')
            · simp [Closed, hmacCls]
        | attr =>
          rw [run, sharedRun]
          rw [show step hmacCls w .attr = (w, .nothing) from rfl, ih w hc hlt hh hm]
    rw [key es _ rfl hr (fun i hi => by simpa using hi) (by simpa using hr)]
    congr 1
    unfold World.state
    simp only
    have : s.key = read h r := by
      unfold Hmac.new at hs
      obtain ⟨t, ht, h2⟩ := Res.bind_eq_ok hs
      cases h2
      unfold Hmac.initKey at ht
      split at ht
      · cases ht
      · simp only [Arg.val, PyVal.data?] at ht
        rw [if_neg (by omega)] at ht
        cases ht
        simp only
        rw [if_neg (by omega)]
    rw [← this]
    rfl

/-- C31: no method of an HMAC object changes a buffer of the caller, not even the shared key. -/
theorem C31_caller (h : Heap) (name : String) (key : Arg) (hk : ∀ r, key = .bytearray r → r < h.length)
    (w : World Hmac) (hw : hmacNew h name key = .ok w) (xs : List HmacOp) (i : Nat) (hi : i < h.length) :
    read (after hmacCls w (xs.map .call)).heap i = read h i := by
  have step1 : ∀ (xs : List HmacOp) (w : World Hmac), w.cell < w.heap.length → h.length ≤ w.heap.length →
      (∀ i, i < h.length → read w.heap i = read h i) →
      ∀ i, i < h.length → read (after hmacCls w (xs.map .call)).heap i = read h i := by
    intro xs
    induction xs with
    | nil => intro w _ _ h1 i hi; exact h1 i hi
    | cons x xs ih =>
      intro w hc hl h1
      rw [List.map_cons, after]
      cases hx : endsSharing x with
      | true =>
        have e1 : (step hmacCls w (.call x)).1 = { w with
            heap := w.heap ++ [hmacCls.buf (hmacCall (w.state hmacCls) x).1],
            cell := w.heap.length, obj := (hmacCall (w.state hmacCls) x).1 } := by
          unfold step
          simp only [hmac_rebinds, hx]
          rfl
        rw [e1]
        refine ih _ (by simp) (by simp; omega) ?_
        intro i hi
        rw [← h1 i hi]
        unfold read
        simp only [List.getD_eq_getElem?_getD]
        rw [List.getElem?_append_left (by omega)]
      | false =>
        have hb : hmacCls.buf (hmacCall (w.state hmacCls) x).1 = read w.heap w.cell := by
          cases x with
          | update v =>
            unfold hmacCall Hmac.update
            dsimp only
            split
            · rfl
            · unfold Hmac.updateBytes
              dsimp only
              split <;> rfl
          | digest => rfl
          | hexdigest => rfl
          | reset => rfl
          | clear => cases hx
        have e1 : (step hmacCls w (.call x)).1 = { w with
            heap := w.heap.set w.cell (hmacCls.buf (hmacCall (w.state hmacCls) x).1),
            obj := (hmacCall (w.state hmacCls) x).1 } := by
          unfold step
          simp only [hmac_rebinds, hx]
          rfl
        rw [e1, hb]
        refine ih _ (by simpa using hc) (by simpa using hl) ?_
        intro i hi
        rw [← h1 i hi]
        by_cases e : w.cell = i
        · subst e
          rw [read_set_same _ _ _ hc]
        · rw [read_set_other _ _ _ _ e]
  unfold hmacNew at hw
  cases hs : Hmac.new name (key.val h) with
  | error e => rw [hs] at hw; cases hw
  | ok s =>
    rw [hs] at hw
    have hfresh : ∀ b, w = fresh h b s → read (after hmacCls w (xs.map .call)).heap i = read h i := by
      rintro b rfl
      refine step1 xs _ (by simp [fresh]) (by simp [fresh]) ?_ i hi
      intro i hi
      unfold read fresh
      simp only [List.getD_eq_getElem?_getD]
      rw [List.getElem?_append_left hi]
    cases key with
    | bytes b => cases hw; exact hfresh _ rfl
    | other => cases hw; exact hfresh _ rfl
    | bytearray r =>
      dsimp only at hw
      split at hw
      · cases hw
        exact step1 xs _ (hk r rfl) (Nat.le_refl _) (fun _ _ => rfl) i hi
      · cases hw; exact hfresh _ rfl

/-- The statement of C31. -/
def C31_statement : Prop :=
  ∀ (h : Heap) (name : String) (key : Arg) (w : World Hmac), hmacNew h name key = .ok w →
    ∀ es : List (Ev HmacOp), ∃ s, Hmac.new name (key.val h) = .ok s ∧
      run hmacCls w es = valueRun hmacCls s es

/-- A program: make an HMAC object with a 64-byte key in a `bytearray`, change one byte of the
buffer, hash a message. -/
def c31Program : List (Ev HmacOp) :=
  [.write 0 (List.replicate 64 1), .call (.update (.bytes [0x61])), .call .digest]

/-- C31 is false of the code: the program gives the code for the changed key. -/
theorem C31_negation : ∃ w s, hmacNew [List.replicate 64 0] "HMAC_GOSTR3411_2012_512" (.bytearray 0) = .ok w ∧
    Hmac.new "HMAC_GOSTR3411_2012_512" (.bytearray (List.replicate 64 0)) = .ok s ∧
    run hmacCls w c31Program ≠ valueRun hmacCls s c31Program := by
  have hs : Hmac.new "HMAC_GOSTR3411_2012_512" (.bytearray (List.replicate 64 0)) =
      .ok ⟨Spec.hmacKey (List.replicate 64 0), HashObj.hashInit "streebog512", 0⟩ :=
    Hmac.new_ok _ (Or.inr rfl) _ _ rfl (by decide)
  refine ⟨⟨[List.replicate 64 0], [0], 0,
    ⟨Spec.hmacKey (List.replicate 64 0), HashObj.hashInit "streebog512", 0⟩⟩, _, ?_, hs, ?_⟩
  · unfold hmacNew
    rw [show Arg.val [List.replicate 64 0] (.bytearray 0) = .bytearray (List.replicate 64 0) from rfl, hs]
    rfl
  · obtain ⟨s', h1, h2⟩ := C31_exact [List.replicate 64 0] "HMAC_GOSTR3411_2012_512" 0 (by decide)
      ⟨[List.replicate 64 0], [0], 0,
        ⟨Spec.hmacKey (List.replicate 64 0), HashObj.hashInit "streebog512", 0⟩⟩ (by decide)
      (by
        unfold hmacNew
        rw [show Arg.val [List.replicate 64 0] (.bytearray 0) = .bytearray (List.replicate 64 0) from rfl, hs]
        rfl) c31Program
    have hs' := hs.symm.trans h1
    cases hs'
    rw [h2]
    unfold c31Program
    simp only [sharedRun, valueRun, hmacCls, hmacCall, Hmac.update, PyVal.data?, true_and, if_true]
    intro he
    injection he with _ he
    injection he with _ he
    injection he with he _
    injection he with he
    injection he with he
    have e0 := hmac_one_update "HMAC_GOSTR3411_2012_512" (List.replicate 64 0) (by decide) [0x61]
    have e1 := hmac_one_update "HMAC_GOSTR3411_2012_512" (List.replicate 64 1) (by decide) [0x61]
    rw [show hmacHash "HMAC_GOSTR3411_2012_512" = "streebog512" from rfl] at e0 e1
    rw [show Spec.hmacKey (List.replicate 64 1) = List.replicate 64 1 by decide] at e1
    rw [e0, e1] at he
    revert he
    unfold hmac
    rw [hash512_fast, hash512_fast, hash512_fast, hash512_fast]
    decide +kernel

theorem C31_statement_false : ¬ C31_statement := by
  intro h
  obtain ⟨w, s, h1, h2, h3⟩ := C31_negation
  obtain ⟨s', h4, h5⟩ := h _ _ _ w h1 c31Program
  have h4' : Hmac.new "HMAC_GOSTR3411_2012_512" (.bytearray (List.replicate 64 0)) = .ok s' := h4
  rw [h2] at h4'
  cases h4'
  exact h3 h5

/-! ### C49 -/

/-- C49, CBC, CFB and OFB: everything holds. Reading `iv`, and writing to the buffers passed to the
constructor or returned by `iv`, has no effect on later results; and the buffers of the caller keep
their contents. -/
theorem C49_iv (h : Heap) (alg : String) (key iv : Arg) (pad : Int) (es : List (Ev CipherOp)) :
    (∀ w, cbcNew h alg key iv pad = .ok w → ∃ s, Cbc.init alg (key.val h) (iv.val h) pad = .ok s ∧
      run cbcCls w es = valueRun cbcCls s es) ∧
    (∀ w, fbNew h alg key iv = .ok w → ∃ s, Fb.init alg (key.val h) (iv.val h) = .ok s ∧
      run cfbCls w es = valueRun cfbCls s es ∧ run ofbCls w es = valueRun ofbCls s es) := by
  constructor
  · intro w hw
    unfold cbcNew at hw
    cases hs : Cbc.init alg (key.val h) (iv.val h) pad with
    | error e => rw [hs] at hw; cases hw
    | ok s =>
      rw [hs] at hw
      cases hw
      refine ⟨s, rfl, ?_⟩
      rw [run_apart cbc_lawful es _ (fresh_apart h s.iv s) (by simp [Closed, cbcCls]),
        show s.iv = cbcCls.buf s from rfl, fresh_state cbc_lawful]
  · intro w hw
    unfold fbNew at hw
    cases hs : Fb.init alg (key.val h) (iv.val h) with
    | error e => rw [hs] at hw; cases hw
    | ok s =>
      rw [hs] at hw
      cases hw
      refine ⟨s, rfl, ?_, ?_⟩
      · rw [run_apart cfb_lawful es _ (fresh_apart h s.iv s) (by simp [Closed, cfbCls]),
          show s.iv = cfbCls.buf s from rfl, fresh_state cfb_lawful]
      · rw [run_apart ofb_lawful es _ (fresh_apart h s.iv s) (by simp [Closed, ofbCls]),
          show s.iv = ofbCls.buf s from rfl, fresh_state ofb_lawful]

theorem after_apart {σ ι ο : Type} {C : Cls σ ι ο} (es : List (Ev ι)) :
    ∀ w : World σ, Apart w → Closed C es → Apart (after C w es) := by
  induction es with
  | nil => intro w h _; exact h
  | cons e es ih =>
    intro w h hcl
    refine ih _ (apart_step h e ?_) hcl.tail
    intro hx he
    subst he
    unfold Closed at hcl
    rw [hx] at hcl
    exact hcl (by simp)

/-- C49, the other direction: after any program on such objects a further call (or reading of the
attribute) leaves every buffer of the caller as it is. -/
theorem C49_callers_buffers (h : Heap) (alg : String) (key iv : Arg) (pad : Int)
    (es : List (Ev CipherOp)) (e : Ev CipherOp) :
    (∀ w, cbcNew h alg key iv pad = .ok w → ∀ r ∈ (after cbcCls w es).held, (∀ b, e ≠ .write r b) →
      read (step cbcCls (after cbcCls w es) e).1.heap r = read (after cbcCls w es).heap r) ∧
    (∀ w, fbNew h alg key iv = .ok w → ∀ C ∈ [cfbCls, ofbCls], ∀ r ∈ (after C w es).held,
      (∀ b, e ≠ .write r b) →
      read (step C (after C w es) e).1.heap r = read (after C w es).heap r) := by
  constructor
  · intro w hw r hr he
    unfold cbcNew at hw
    split at hw
    · cases hw
    · cases hw
      exact held_kept (after_apart es _ (fresh_apart _ _ _) (by simp [Closed, cbcCls])) e r hr he
  · intro w hw C hC r hr he
    unfold fbNew at hw
    split at hw
    · cases hw
    · cases hw
      refine held_kept (after_apart es _ (fresh_apart _ _ _) ?_) e r hr he
      rcases List.mem_cons.1 hC with rfl | hC
      · simp [Closed, cfbCls]
      · rcases List.mem_cons.1 hC with rfl | hC
        · simp [Closed, ofbCls]
        · cases hC

/-- C49, CTR and PBKDF, what holds: programs which do not read `counter` or `salt` cannot change the
object through the buffers which they passed. -/
theorem C49_arguments_partial (h : Heap) :
    (∀ alg key iv w (es : List (Ev CipherOp)), ctrNew h alg key iv = .ok w → Ev.attr ∉ es →
      ∃ s, Ctr.init alg (key.val h) (iv.val h) = .ok s ∧ run ctrCls w es = valueRun ctrCls s es) ∧
    (∀ rand password salt c w (es : List (Ev PbkdfOp)), pbkdfNew h rand password salt c = .ok w →
      Ev.attr ∉ es →
      ∃ s, Pbkdf.new rand (password.val h) (salt.map (Arg.val h)) c = .ok s ∧
        run pbkdfCls w es = valueRun pbkdfCls s es) := by
  constructor
  · intro alg key iv w es hw hes
    unfold ctrNew at hw
    cases hs : Ctr.init alg (key.val h) (iv.val h) with
    | error e => rw [hs] at hw; cases hw
    | ok s =>
      rw [hs] at hw
      cases hw
      refine ⟨s, rfl, ?_⟩
      rw [run_apart ctr_lawful es _ (fresh_apart h s.counter s) (by simpa [Closed, ctrCls] using hes),
        show s.counter = ctrCls.buf s from rfl, fresh_state ctr_lawful]
  · intro rand password salt c w es hw hes
    unfold pbkdfNew at hw
    cases hs : Pbkdf.new rand (password.val h) (salt.map (Arg.val h)) c with
    | error e => rw [hs] at hw; cases hw
    | ok s =>
      rw [hs] at hw
      cases hw
      refine ⟨s, rfl, ?_⟩
      rw [run_apart pbkdf_lawful es _ (fresh_apart h s.salt s) (by simpa [Closed, pbkdfCls] using hes),
        show s.salt = pbkdfCls.buf s from rfl, fresh_state pbkdf_lawful]

/-- C49 is false of the CTR object, exactly: writing `b` to the buffer returned by `counter` makes the
object behave as one with the counter `b`, for every object, counter and program that follows. -/
theorem C49_counter_negation (h : Heap) (alg : String) (key iv : Arg) (w : World Ctr)
    (hw : ctrNew h alg key iv = .ok w) (b : Bytes) (x : CipherOp) :
    ∃ s, Ctr.init alg (key.val h) (iv.val h) = .ok s ∧
      run ctrCls w [.attr, .write h.length b, .call x] =
        [.bytes s.counter, .nothing, .result (ctrCls.call { s with counter := b } x).2] := by
  unfold ctrNew at hw
  cases hs : Ctr.init alg (key.val h) (iv.val h) with
  | error e => rw [hs] at hw; cases hw
  | ok s =>
    rw [hs] at hw
    cases hw
    refine ⟨s, rfl, ?_⟩
    simp only [run, step, ctrCls, fresh, List.mem_cons, true_or, if_true, World.state, read_new]
    rw [read_set_same _ _ _ (by simp)]
    rfl

/-- The same for PBKDF: the contents of the buffer returned by `salt` are the salt. -/
theorem C49_salt_negation (h : Heap) (rand : Bytes) (password : Arg) (salt : Option Arg) (c : Int)
    (w : World Pbkdf) (hw : pbkdfNew h rand password salt c = .ok w) (b : Bytes) (x : PbkdfOp) :
    ∃ s, Pbkdf.new rand (password.val h) (salt.map (Arg.val h)) c = .ok s ∧
      run pbkdfCls w [.attr, .write h.length b, .call x] =
        [.bytes s.salt, .nothing, .result (pbkdfCls.call { s with salt := b } x).2] := by
  unfold pbkdfNew at hw
  cases hs : Pbkdf.new rand (password.val h) (salt.map (Arg.val h)) c with
  | error e => rw [hs] at hw; cases hw
  | ok s =>
    rw [hs] at hw
    cases hw
    refine ⟨s, rfl, ?_⟩
    simp only [run, step, pbkdfCls, fresh, List.mem_cons, true_or, if_true, World.state, read_new]
    rw [read_set_same _ _ _ (by simp)]
    rfl

/-- The results of calls on an object that shares nothing, one method after another. -/
def results {σ : Type} (enc dec : σ → PyVal → σ × Res Bytes) (clr : σ → σ) :
    σ → List CipherOp → List (Obs (Option (Res Bytes)))
  | _, [] => []
  | s, .encrypt v :: xs => .result (some (enc s v).2) :: results enc dec clr (enc s v).1 xs
  | s, .decrypt v :: xs => .result (some (dec s v).2) :: results enc dec clr (dec s v).1 xs
  | s, .clear :: xs => .result none :: results enc dec clr (clr s) xs

theorem valueRun_cipher {σ : Type} (C : Cls σ CipherOp (Option (Res Bytes)))
    (enc dec : σ → PyVal → σ × Res Bytes) (clr : σ → σ) (hC : C.call = cipherCall enc dec clr)
    (xs : List CipherOp) : ∀ s, valueRun C s (xs.map .call) = results enc dec clr s xs := by
  induction xs with
  | nil => intro s; rfl
  | cons x xs ih =>
    intro s
    cases x <;> simp only [List.map_cons, valueRun, results, hC, cipherCall, ih]

/-- C49: the results meant in `C49_iv` and `C49_arguments_partial` are those of `encrypt`, `decrypt`
and `clear` of the four modes. -/
theorem C49_methods (xs : List CipherOp) :
    (∀ s, valueRun cbcCls s (xs.map .call) = results Cbc.encrypt Cbc.decrypt Cbc.clear s xs) ∧
    (∀ s, valueRun cfbCls s (xs.map .call) = results Cfb.encrypt Cfb.decrypt Fb.clear s xs) ∧
    (∀ s, valueRun ofbCls s (xs.map .call) = results Ofb.encrypt Ofb.decrypt Fb.clear s xs) ∧
    (∀ s, valueRun ctrCls s (xs.map .call) = results Ctr.encrypt Ctr.decrypt Ctr.clear s xs) :=
  ⟨valueRun_cipher _ _ _ _ rfl xs, valueRun_cipher _ _ _ _ rfl xs, valueRun_cipher _ _ _ _ rfl xs,
    valueRun_cipher _ _ _ _ rfl xs⟩

/-- The statement of C49 for CTR and PBKDF. -/
def C49_statement : Prop :=
  ∀ h : Heap,
    (∀ alg key iv w (es : List (Ev CipherOp)), ctrNew h alg key iv = .ok w →
      ∃ s, Ctr.init alg (key.val h) (iv.val h) = .ok s ∧ run ctrCls w es = valueRun ctrCls s es) ∧
    (∀ rand password salt c w (es : List (Ev PbkdfOp)), pbkdfNew h rand password salt c = .ok w →
      ∃ s, Pbkdf.new rand (password.val h) (salt.map (Arg.val h)) c = .ok s ∧
        run pbkdfCls w es = valueRun pbkdfCls s es)

/-- A concrete program with PBKDF: the derived key changes. -/
theorem C49_statement_false : ¬ C49_statement := by
  intro hst
  have hn : Pbkdf.new [] (.bytes [1]) (some (.bytes [5])) ((1 : Nat) : Int) =
      .ok ⟨[1], [5], ((1 : Nat) : Int), 0, ⟨Spec.hmacKey [1], HashObj.hashInit "streebog512", 0⟩⟩ :=
    pbkdf_new_ok [] (.bytes [1]) [1] rfl (by decide) (some (.bytes [5])) [5] rfl _
  have hw : pbkdfNew [] [] (.bytes [1]) (some (.bytes [5])) ((1 : Nat) : Int) =
      .ok (fresh [] [5] ⟨[1], [5], ((1 : Nat) : Int), 0,
        ⟨Spec.hmacKey [1], HashObj.hashInit "streebog512", 0⟩⟩) := by
    unfold pbkdfNew
    rw [show (Option.map (Arg.val []) (some (Arg.bytes [5]))) = some (.bytes [5]) from rfl,
      show Arg.val [] (.bytes [1]) = .bytes [1] from rfl, hn]
  obtain ⟨s, h1, h2⟩ := (hst []).2 [] (.bytes [1]) (some (.bytes [5])) ((1 : Nat) : Int) _
    [.attr, .write 0 [6], .call (.derive ((1 : Nat) : Int))] hw
  obtain ⟨s', h1', h2'⟩ := C49_salt_negation [] [] (.bytes [1]) (some (.bytes [5])) ((1 : Nat) : Int) _ hw
    [6] (.derive ((1 : Nat) : Int))
  have e1 := hn.symm.trans h1
  have e2 := hn.symm.trans h1'
  cases e1
  cases e2
  rw [show ([] : Heap).length = 0 from rfl, h2] at h2'
  simp only [valueRun, pbkdfCls, pbkdfCall] at h2'
  injection h2' with _ h2'
  injection h2' with _ h2'
  injection h2' with h2' _
  injection h2' with h2'
  injection h2' with h2'
  have i1 : Pbkdf.Inv [1] [5] 1 ⟨[1], [5], ((1 : Nat) : Int), 0,
    ⟨Spec.hmacKey [1], HashObj.hashInit "streebog512", 0⟩⟩ := ⟨rfl, rfl, rfl, rfl⟩
  have i2 : Pbkdf.Inv [1] [6] 1 ⟨[1], [6], ((1 : Nat) : Int), 0,
    ⟨Spec.hmacKey [1], HashObj.hashInit "streebog512", 0⟩⟩ := ⟨rfl, rfl, rfl, rfl⟩
  rw [(Pbkdf.derive_ok i1 (by decide) 1 (by decide)).1,
    (Pbkdf.derive_ok i2 (by decide) 1 (by decide)).1] at h2'
  have u : ∀ sl : Bytes, Spec.pbkdf2 (prf [1]) sl 1 1 = (hmac512 [1] (sl ++ Spec.beBytes 4 1)).take 1 := by
    intro pw; rfl
  rw [u, u] at h2'
  revert h2'
  unfold hmac512 hmac
  rw [hash512_fast, hash512_fast, hash512_fast, hash512_fast]
  decide +kernel

end Gost.Alias
