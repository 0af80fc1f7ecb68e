import Verif.Proofs.Stream
import Verif.Proofs.KeyStream
import Verif.Props.RoundTrip

/-! Property C128: two results from the same state show how far the inputs agree. -/

namespace Gost
open Spec (Alg blocks rest)

/-- Two calls from the same state. The results agree in their first bytes just as far as the data do, counted in
steps of n bytes; a step counts only if both data have it. -/
def ShowsPrefix (n : Nat) (call : PyVal → Res Bytes) : Prop :=
  ∀ (v v' : PyVal) (d d' : Bytes), v.data? = some d → v'.data? = some d' →
    ∃ out out', call v = .ok out ∧ call v' = .ok out' ∧
      ∀ k, n * k ≤ d.length → n * k ≤ d'.length → (out.take (n * k) = out'.take (n * k) ↔ d.take (n * k) = d'.take (n * k))

/-- The data cut anywhere give the result cut there. -/
def Cuts (call : PyVal → Res Bytes) : Prop :=
  ∀ (v : PyVal) (d : Bytes), v.data? = some d →
    ∃ out, call v = .ok out ∧ ∀ k, call (.bytes (d.take k)) = .ok (out.take k)

/-! ### Stream modes -/

theorem addXor_cut (a b : Bytes) (k : Nat) : addXor a (b.take k) = (addXor a b).take k := by
  induction b generalizing a k with
  | nil => simp
  | cons y b ih =>
    cases a with
    | nil => simp
    | cons x a => cases k with
      | zero => simp
      | succ k => simp [ih]

/-- What CFB and OFB return. -/
def maskOut (E : Bytes → Bytes) (h : Bytes → Bytes → Bytes) (n : Nat) (R : List Bytes) (d : Bytes) : Bytes :=
  (mapAccum (regStep (maskG E) h) R (blocks n d)).2.flatten ++
    maskG E ((mapAccum (regStep (maskG E) h) R (blocks n d)).1.headD []) (rest n d)

theorem maskOut_lt (E : Bytes → Bytes) (h : Bytes → Bytes → Bytes) (n : Nat) (R : List Bytes) (d : Bytes)
    (hd : d.length < n) : maskOut E h n R d = maskG E (R.headD []) d := by
  simp [maskOut, blocks_of_lt n d hd, rest_of_lt n d hd, mapAccum]

theorem maskOut_cons (E : Bytes → Bytes) (h : Bytes → Bytes → Bytes) (n : Nat) (hn : 0 < n) (R : List Bytes) (b d : Bytes)
    (hb : b.length = n) : maskOut E h n R (b ++ d) =
      maskG E (R.headD []) b ++ maskOut E h n (R.tail ++ [h (R.headD []) b]) d := by
  simp [maskOut, blocks_cons n b d hn hb, rest_cons n b d hn hb, mapAccum, regStep]

theorem maskOut_take {o : CipherObj} {E D : Bytes → Bytes} (hI : Implements o E D) (h : Bytes → Bytes → Bytes)
    (hlen : ∀ r b : Bytes, r.length = o.blockSize → b.length = o.blockSize → (h r b).length = o.blockSize)
    (d : Bytes) : ∀ (R : List Bytes), GoodReg o.blockSize R → ∀ k,
      maskOut E h o.blockSize R (d.take k) = (maskOut E h o.blockSize R d).take k := by
  have hpos : 0 < o.blockSize := Implements.pos
  induction d using blocks_induction o.blockSize hpos with
  | short d hd =>
    intro R _ k
    rw [maskOut_lt _ _ _ _ _ hd, maskOut_lt _ _ _ _ _ (by simp; omega)]
    exact addXor_cut _ _ _
  | step b d hb ih =>
    intro R hR k
    have hm : (maskG E (R.headD []) b).length = o.blockSize := by
      rw [maskG_length hI _ _ hR.head (by omega), hb]
    rw [maskOut_cons _ _ _ hpos _ _ _ hb, List.take_append, List.take_append, hm, hb]
    rcases Nat.lt_or_ge k o.blockSize with hk | hk
    · rw [Nat.sub_eq_zero_of_le (Nat.le_of_lt hk), List.take_zero, List.take_zero, List.append_nil, List.append_nil,
        maskOut_lt _ _ _ _ _ (by simp; omega)]
      exact addXor_cut _ _ _
    · rw [List.take_of_length_le (l := b) (by omega), List.take_of_length_le (l := maskG E (R.headD []) b) (by omega),
        maskOut_cons _ _ _ hpos _ _ _ hb, ih]
      refine ⟨by simp, fun x hx => ?_⟩
      rcases List.mem_append.1 hx with hx | hx
      · exact hR.2 x (List.mem_of_mem_tail hx)
      · rw [List.mem_singleton.1 hx]
        exact hlen _ _ hR.head hb

/-- Calls which cut, and of which the second undoes the first, show the common prefix. -/
theorem shows_of_cuts {enc dec : PyVal → Res Bytes} (h1 : Cuts enc) (h2 : Cuts dec)
    (h : ∀ (v : PyVal) (d : Bytes), v.data? = some d → ∃ out, enc v = .ok out ∧ dec (.bytes out) = .ok d) :
    ShowsPrefix 1 enc := by
  intro v v' d d' hv hv'
  obtain ⟨out, e1, c1⟩ := h1 v d hv
  obtain ⟨out', e2, c2⟩ := h1 v' d' hv'
  refine ⟨out, out', e1, e2, fun k _ _ => ?_⟩
  rw [Nat.one_mul]
  constructor
  · intro e
    obtain ⟨x, a1, a2⟩ := h v d hv
    obtain ⟨x', b1, b2⟩ := h v' d' hv'
    rw [e1] at a1
    rw [e2] at b1
    rw [← Except.ok.inj a1] at a2
    rw [← Except.ok.inj b1] at b2
    obtain ⟨y, p1, p2⟩ := h2 (.bytes out) out rfl
    obtain ⟨y', q1, q2⟩ := h2 (.bytes out') out' rfl
    have p2 := p2 k
    rw [e, q2 k] at p2
    rw [← Except.ok.inj (a2.symm.trans p1), ← Except.ok.inj (b2.symm.trans q1)] at p2
    exact (Except.ok.inj p2).symm
  · intro e
    have := c1 k
    rw [e, c2 k] at this
    exact (Except.ok.inj this).symm

theorem Cfb.cuts (s : Fb) (hs : Cfb.Reachable s) (hiv : s.iv ≠ []) :
    Cuts (fun v => (Cfb.encrypt s v).2) ∧ Cuts (fun v => (Cfb.decrypt s v).2) := by
  obtain ⟨hg, hR⟩ := hs.inv
  obtain ⟨R, hR, hiv⟩ := hR.reg hiv
  constructor
  · intro v d hv
    refine ⟨maskOut s.obj.E (maskG s.obj.E) s.obj.blockSize R d,
      congrArg Prod.snd (Cfb.encrypt_ok s hg.implements R hR hiv v d hv), fun k => ?_⟩
    rw [← maskOut_take hg.implements _ (fun r b hr hb => by rw [maskG_length hg.implements r b hr (by omega), hb]) d R hR k]
    exact congrArg Prod.snd (Cfb.encrypt_ok s hg.implements R hR hiv _ _ rfl)
  · intro v d hv
    refine ⟨maskOut s.obj.E sndB s.obj.blockSize R d,
      congrArg Prod.snd (Cfb.decrypt_ok s hg.implements R hR hiv v d hv), fun k => ?_⟩
    rw [← maskOut_take hg.implements sndB (fun r b hr hb => hb) d R hR k]
    exact congrArg Prod.snd (Cfb.decrypt_ok s hg.implements R hR hiv _ _ rfl)

theorem Ofb.cuts (s : Fb) (hs : Ofb.Reachable s) (hiv : s.iv ≠ []) :
    Cuts (fun v => (Ofb.encrypt s v).2) ∧ Cuts (fun v => (Ofb.decrypt s v).2) := by
  obtain ⟨hg, hR⟩ := hs.inv
  obtain ⟨R, hR, hiv⟩ := hR.reg hiv
  have h : Cuts (fun v => (Ofb.encrypt s v).2) := by
    intro v d hv
    refine ⟨maskOut s.obj.E (ofbH s.obj.E) s.obj.blockSize R d,
      congrArg Prod.snd (Ofb.encrypt_ok s hg.implements R hR hiv v d hv), fun k => ?_⟩
    rw [← maskOut_take hg.implements (ofbH s.obj.E) (fun r b hr hb => hg.implements.enc_len r hr) d R hR k]
    exact congrArg Prod.snd (Ofb.encrypt_ok s hg.implements R hR hiv _ _ rfl)
  refine ⟨h, fun v d hv => ?_⟩
  obtain ⟨out, e1, e2⟩ := h v d hv
  refine ⟨out, ?_, fun k => ?_⟩
  · show (Ofb.decrypt s v).2 = _
    rw [Ofb.decrypt_eq s v d hv]; exact e1
  · show (Ofb.decrypt s _).2 = _
    rw [Ofb.decrypt_eq s _ _ rfl]; exact e2 k

theorem ctrStream_take {o : CipherObj} {E D : Bytes → Bytes} (hI : Implements o E D) (c : Bytes)
    (hc : c.length = o.blockSize) (m n k : Nat) (hm : m ≤ n) (hk : k ≤ o.blockSize * m) :
    (ctrStream E c n).take k = (ctrStream E c m).take k := by
  have e : ctrStream E c n = ctrStream E c m ++ ((List.range' m (n - m)).map fun i => E (ctrAt c i)).flatten := by
    unfold ctrStream
    rw [← List.flatten_append, ← List.map_append, List.range_eq_range', List.range_eq_range']
    congr 2
    rw [List.range'_eq_append_iff]
    exact ⟨m, hm, by simp, by simp⟩
  rw [e, List.take_append_of_le_length (by rw [ctrStream_length hI c hc]; exact hk)]

theorem Ctr.cuts (s : Ctr) (hs : Ctr.Reachable s) :
    Cuts (fun v => (s.encrypt v).2) ∧ Cuts (fun v => (s.decrypt v).2) := by
  obtain ⟨hg, hc⟩ := hs.inv
  have hpos : 0 < s.obj.blockSize := Implements.pos
  have h : Cuts (fun v => (s.encrypt v).2) := by
    intro v d hv
    refine ⟨_, congrArg Prod.snd (Ctr.encrypt_stream s hg.implements hc v d hv), fun k => ?_⟩
    have e := congrArg Prod.snd (Ctr.encrypt_stream s hg.implements hc (.bytes (d.take k)) _ rfl)
    refine e.trans (congrArg Except.ok ?_)
    have hl := le_ceil (d.take k).length s.obj.blockSize hpos
    have hle : ((d.take k).length + s.obj.blockSize - 1) / s.obj.blockSize ≤
        (d.length + s.obj.blockSize - 1) / s.obj.blockSize :=
      Nat.div_le_div_right (by simp; omega)
    have e1 : (addXor d (ctrStream s.obj.E s.counter ((d.length + s.obj.blockSize - 1) / s.obj.blockSize))).take k =
        (addXor d (ctrStream s.obj.E s.counter ((d.length + s.obj.blockSize - 1) / s.obj.blockSize))).take
          (d.take k).length := by
      rw [List.length_take, List.take_eq_take_iff]
      simp <;> omega
    have e2 : d.take (d.take k).length = d.take k := by rw [List.length_take, List.take_eq_take_iff]; omega
    rw [e1, addXor_take_both, ctrStream_take hg.implements s.counter hc _ _ _ hle hl, e2,
      addXor_comm (d.take k) ((ctrStream _ _ _).take _), addXor_take _ _ _ (Nat.le_refl _), addXor_comm]
  refine ⟨h, fun v d hv => ?_⟩
  obtain ⟨out, e1, e2⟩ := h v d hv
  refine ⟨out, ?_, fun k => ?_⟩
  · show (s.decrypt v).2 = _
    rw [Ctr.decrypt_eq s v d hv]; exact e1
  · show (s.decrypt _).2 = _
    rw [Ctr.decrypt_eq s _ _ rfl]; exact e2 k

/-- C128, CFB: the data cut anywhere give the result cut there, and two results agree in as many first bytes as the
data. Encryption and decryption. -/
theorem C128_cfb (s : Fb) (hs : Cfb.Reachable s) (hiv : s.iv ≠ []) :
    (Cuts (fun v => (Cfb.encrypt s v).2) ∧ ShowsPrefix 1 (fun v => (Cfb.encrypt s v).2)) ∧
    (Cuts (fun v => (Cfb.decrypt s v).2) ∧ ShowsPrefix 1 (fun v => (Cfb.decrypt s v).2)) := by
  obtain ⟨h1, h2⟩ := Cfb.cuts s hs hiv
  obtain ⟨hg, hR⟩ := hs.inv
  obtain ⟨R, hR, hiv⟩ := hR.reg hiv
  refine ⟨⟨h1, shows_of_cuts h1 h2 fun v d hv => ?_⟩, h2, shows_of_cuts h2 h1 fun v d hv => ?_⟩
  · obtain ⟨s', ct, e1, _, e3⟩ := Cfb.round_trip s hg.implements R hR hiv v d hv
    exact ⟨ct, congrArg Prod.snd e1, congrArg Prod.snd (e3 _ rfl)⟩
  · obtain ⟨s', m, e1, _, e3⟩ := Cfb.round_trip_rev s hg.implements R hR hiv v d hv
    exact ⟨m, congrArg Prod.snd e1, congrArg Prod.snd (e3 _ rfl)⟩

/-- C128, OFB. -/
theorem C128_ofb (s : Fb) (hs : Ofb.Reachable s) (hiv : s.iv ≠ []) :
    (Cuts (fun v => (Ofb.encrypt s v).2) ∧ ShowsPrefix 1 (fun v => (Ofb.encrypt s v).2)) ∧
    (Cuts (fun v => (Ofb.decrypt s v).2) ∧ ShowsPrefix 1 (fun v => (Ofb.decrypt s v).2)) := by
  obtain ⟨h1, h2⟩ := Ofb.cuts s hs hiv
  obtain ⟨hg, hR⟩ := hs.inv
  obtain ⟨R, hR, hiv⟩ := hR.reg hiv
  refine ⟨⟨h1, shows_of_cuts h1 h2 fun v d hv => ?_⟩, h2, shows_of_cuts h2 h1 fun v d hv => ?_⟩ <;>
    obtain ⟨s', ct, e1, _, e3⟩ := Ofb.round_trip s hg.implements R hR hiv v d hv
  · exact ⟨ct, congrArg Prod.snd e1, congrArg Prod.snd (e3 _ rfl)⟩
  · refine ⟨ct, ?_, ?_⟩
    · show (Ofb.decrypt s v).2 = _
      rw [Ofb.decrypt_eq s v d hv]; exact congrArg Prod.snd e1
    · show (Ofb.encrypt s _).2 = _
      rw [← Ofb.decrypt_eq s (.bytes ct) ct rfl]; exact congrArg Prod.snd (e3 _ rfl)

/-- C128, CTR. -/
theorem C128_ctr (s : Ctr) (hs : Ctr.Reachable s) :
    (Cuts (fun v => (s.encrypt v).2) ∧ ShowsPrefix 1 (fun v => (s.encrypt v).2)) ∧
    (Cuts (fun v => (s.decrypt v).2) ∧ ShowsPrefix 1 (fun v => (s.decrypt v).2)) := by
  obtain ⟨h1, h2⟩ := Ctr.cuts s hs
  obtain ⟨hg, hc⟩ := hs.inv
  refine ⟨⟨h1, shows_of_cuts h1 h2 fun v d hv => ?_⟩, h2, shows_of_cuts h2 h1 fun v d hv => ?_⟩ <;>
    obtain ⟨s', ct, e1, _, e3⟩ := Ctr.round_trip s hg.implements hc v d hv
  · exact ⟨ct, congrArg Prod.snd e1, congrArg Prod.snd (e3 _ rfl)⟩
  · refine ⟨ct, ?_, ?_⟩
    · show (s.decrypt v).2 = _
      rw [Ctr.decrypt_eq s v d hv]; exact congrArg Prod.snd e1
    · show (s.encrypt _).2 = _
      rw [← Ctr.decrypt_eq s (.bytes ct) ct rfl]; exact congrArg Prod.snd (e3 _ rfl)

/-! ### Block modes -/

theorem blocks_shows {τ : Type} (f : τ → Bytes → τ × Bytes) (J : τ → Prop) (n : Nat) (hn : 0 < n)
    (hf : ∀ t, J t → ∀ b : Bytes, b.length = n → J (f t b).1 ∧ (f t b).2.length = n)
    (hi : ∀ t, J t → ∀ b b' : Bytes, b.length = n → b'.length = n → (f t b).2 = (f t b').2 → b = b')
    (k : Nat) : ∀ (t : τ), J t → ∀ d d' : Bytes, n * k ≤ d.length → n * k ≤ d'.length →
      ((mapAccum f t (blocks n d)).2.flatten.take (n * k) = (mapAccum f t (blocks n d')).2.flatten.take (n * k) ↔
        d.take (n * k) = d'.take (n * k)) := by
  induction k with
  | zero => intro t _ d d' _ _; simp
  | succ k ih =>
    intro t ht d d' hd hd'
    rw [Nat.mul_succ] at hd hd' ⊢
    have split : ∀ x : Bytes, n * k + n ≤ x.length → ∃ b e : Bytes, x = b ++ e ∧ b.length = n ∧ n * k ≤ e.length :=
      fun x hx => ⟨x.take n, x.drop n, (List.take_append_drop n x).symm, by rw [List.length_take]; omega,
        by rw [List.length_drop]; omega⟩
    obtain ⟨b, e, rfl, hb, he⟩ := split d hd
    obtain ⟨b', e', rfl, hb', he'⟩ := split d' hd'
    obtain ⟨j1, l1⟩ := hf t ht b hb
    obtain ⟨j2, l2⟩ := hf t ht b' hb'
    have cut : ∀ x y : Bytes, x.length = n → (x ++ y).take (n * k + n) = x ++ y.take (n * k) := by
      intro x y hx
      rw [List.take_append, hx, List.take_of_length_le (by omega), Nat.add_sub_cancel]
    rw [blocks_cons n b e hn hb, blocks_cons n b' e' hn hb']
    simp only [mapAccum, List.flatten_cons]
    rw [cut _ _ l1, cut _ _ l2, cut _ _ hb, cut _ _ hb']
    constructor
    · intro h
      obtain ⟨h1, h2⟩ := List.append_inj h (l1.trans l2.symm)
      have hbb := hi t ht b b' hb hb' h1
      rw [← hbb] at h2 ⊢
      rw [(ih _ j1 e e' he he').1 h2]
    · intro h
      obtain ⟨h1, h2⟩ := List.append_inj h (hb.trans hb'.symm)
      rw [← h1, (ih _ j1 e e' he he').2 h2]

theorem setPadding_take (n : Nat) (hn : 0 < n) (d : Bytes) (pad : Int) (hp : PadOk pad) (m : Nat) (hm : m ≤ d.length) :
    (setPadding n d pad).take m = d.take m ∧ m ≤ (setPadding n d pad).length := by
  rcases hp with rfl | rfl
  · rw [setPadding_1, List.take_append_of_le_length hm, List.length_append]; exact ⟨rfl, by omega⟩
  · rw [setPadding_2 n hn, List.take_append_of_le_length hm, List.length_append]; exact ⟨rfl, by omega⟩

theorem Implements.D_inj {o : CipherObj} {E D : Bytes → Bytes} (h : Implements o E D) (a b : Bytes)
    (ha : a.length = o.blockSize) (hb : b.length = o.blockSize) (hab : D a = D b) : a = b := by
  rw [← h.E_D a ha, hab, h.E_D b hb]

/-- C128, ECB: two results agree in as many first blocks as the data. -/
theorem C128_ecb (s : Ecb) (hs : Ecb.Reachable s) :
    ShowsPrefix s.obj.blockSize (fun v => (s.encrypt v).2) ∧ ShowsPrefix s.obj.blockSize (fun v => (s.decrypt v).2) := by
  obtain ⟨hg, hp⟩ := hs.inv
  have hpos : 0 < s.obj.blockSize := Implements.pos
  constructor <;> intro v v' d d' hv hv'
  · refine ⟨_, _, congrArg Prod.snd (Ecb.encrypt_ok s hg.implements v d hv),
      congrArg Prod.snd (Ecb.encrypt_ok s hg.implements v' d' hv'), fun k hk hk' => ?_⟩
    have h := blocks_shows (fun (_ : Unit) b => ((), s.obj.E b)) (fun _ => True) _ hpos
      (fun _ _ b hb => ⟨trivial, hg.implements.enc_len b hb⟩)
      (fun _ _ b b' hb hb' e => hg.implements.E_inj b b' hb hb' e) k () trivial
      (setPadding s.obj.blockSize d s.padMode) (setPadding s.obj.blockSize d' s.padMode)
      (setPadding_take _ hpos _ _ hp _ hk).2 (setPadding_take _ hpos _ _ hp _ hk').2
    rw [(setPadding_take _ hpos _ _ hp _ hk).1, (setPadding_take _ hpos _ _ hp _ hk').1, mapAccum_unit, mapAccum_unit] at h
    exact h
  · refine ⟨_, _, congrArg Prod.snd (Ecb.decrypt_ok s hg.implements v d hv),
      congrArg Prod.snd (Ecb.decrypt_ok s hg.implements v' d' hv'), fun k hk hk' => ?_⟩
    have h := blocks_shows (fun (_ : Unit) b => ((), s.obj.D b)) (fun _ => True) _ hpos
      (fun _ _ b hb => ⟨trivial, hg.implements.dec_len b hb⟩)
      (fun _ _ b b' hb hb' e => hg.implements.D_inj b b' hb hb' e) k () trivial d d' hk hk'
    rw [mapAccum_unit, mapAccum_unit] at h
    exact h

/-- C128, CBC: two results agree in as many first blocks as the data. -/
theorem C128_cbc (s : Cbc) (hs : Cbc.Reachable s) (hiv : s.iv ≠ []) :
    ShowsPrefix s.obj.blockSize (fun v => (s.encrypt v).2) ∧ ShowsPrefix s.obj.blockSize (fun v => (s.decrypt v).2) := by
  obtain ⟨hg, hp, hR⟩ := hs.inv
  obtain ⟨R, hR, hiv⟩ := hR.reg hiv
  have hpos : 0 < s.obj.blockSize := Implements.pos
  constructor <;> intro v v' d d' hv hv'
  · refine ⟨_, _, congrArg Prod.snd (Cbc.encrypt_ok s hg.implements R hR hiv v d hv),
      congrArg Prod.snd (Cbc.encrypt_ok s hg.implements R hR hiv v' d' hv'), fun k hk hk' => ?_⟩
    have h := blocks_shows (regStep (cbcG s.obj.E) (cbcG s.obj.E)) (GoodReg s.obj.blockSize) _ hpos
      (fun R hR b hb => ⟨hR.step _ (cbcG_length hg.implements _ b hR.head hb), cbcG_length hg.implements _ b hR.head hb⟩)
      (fun R hR b b' hb hb' e => by
        have hr := hR.head
        have e := hg.implements.E_inj _ _ (by rw [addXor_length, hr, hb, Nat.min_self])
          (by rw [addXor_length, hr, hb', Nat.min_self]) e
        exact addXor_left_cancel _ _ _ (by omega) (by omega) e) k R hR
      (setPadding s.obj.blockSize d s.padMode) (setPadding s.obj.blockSize d' s.padMode)
      (setPadding_take _ hpos _ _ hp _ hk).2 (setPadding_take _ hpos _ _ hp _ hk').2
    rw [(setPadding_take _ hpos _ _ hp _ hk).1, (setPadding_take _ hpos _ _ hp _ hk').1] at h
    exact h
  · refine ⟨_, _, congrArg Prod.snd (Cbc.decrypt_ok s hg.implements R hR hiv v d hv),
      congrArg Prod.snd (Cbc.decrypt_ok s hg.implements R hR hiv v' d' hv'), fun k hk hk' => ?_⟩
    exact blocks_shows (regStep (cbcG' s.obj.D) sndB) (GoodReg s.obj.blockSize) _ hpos
      (fun R hR b hb => ⟨hR.step _ hb, by
        have hr := hR.head
        show (cbcG' _ _ _).length = _
        rw [cbcG', addXor_length, hr, hg.implements.dec_len b hb, Nat.min_self]⟩)
      (fun R hR b b' hb hb' e => by
        have hr := hR.head
        have h1 := hg.implements.dec_len b hb
        have h2 := hg.implements.dec_len b' hb'
        exact hg.implements.D_inj b b' hb hb' (addXor_left_cancel _ _ _ (by omega) (by omega) e)) k R hR d d' hk hk'

/-- A case: messages which agree in 18 bytes, then differ. -/
example : ∃ s, newCipher Alg.kuznechik.name (.bytes Ex.key) modeCfb (initVect := some (.bytes (Ex.count 9 32))) =
      .ok (.cfb s) ∧ ∃ c c', (Cfb.encrypt s (.bytes (Ex.count 1 18 ++ [7, 7]))).2 = .ok c ∧
        (Cfb.encrypt s (.bytearray (Ex.count 1 18 ++ [8, 7, 9]))).2 = .ok c' ∧ c.take 18 = c'.take 18 ∧ c.take 19 ≠ c'.take 19 := by
  obtain ⟨o, D, h1, _, h3, hI⟩ := new_cfb .kuznechik (.bytes Ex.key) (.bytes (Ex.count 9 32)) Ex.key (Ex.count 9 32) rfl
    (by decide) rfl (by decide) none none
  obtain ⟨c, c', e1, e2, h⟩ := (C128_cfb _ (.new h1) (show Ex.count 9 32 ≠ [] by decide)).1.2
    (.bytes (Ex.count 1 18 ++ [7, 7])) (.bytearray (Ex.count 1 18 ++ [8, 7, 9])) _ _ rfl rfl
  refine ⟨_, h1, c, c', e1, e2, ?_, ?_⟩
  · exact (h 18 (by decide) (by decide)).2 (by decide)
  · exact fun e => absurd ((h 19 (by decide) (by decide)).1 e) (by decide)

end Gost
