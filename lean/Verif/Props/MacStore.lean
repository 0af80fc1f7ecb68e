import Verif.Spec.MacCalls
import Verif.Props.CipherAny
import Verif.Props.Mac
import Verif.Props.Hex

/-! Property C72: calls of every kind on one MAC object. -/

namespace Gost
open Spec (Alg blocks rest macChain MacPast macLog macTag MacOp MacAns macCall macAnswers)

/-- A call on a MAC object. -/
inductive MacCall where
  | update (v : PyVal)
  | digest (size : Int)
  | hexdigest (size : Int)
  | macFinal
  | clear

/-- What a call stands for. -/
def MacCall.op : MacCall → MacOp
  | .update v => match v.data? with
    | some d => .update d
    | none => .badUpdate
  | .digest n => .digest n
  | .hexdigest n => .hexdigest n
  | .macFinal => .macFinal
  | .clear => .clear

/-- The object after a call. -/
def MacCall.apply (s : Mac) : MacCall → Mac
  | .update v => (s.update v).1
  | .digest n => (s.digest n).1
  | .hexdigest n => (s.hexdigest n).1
  | .macFinal => s.macFinal.1
  | .clear => s.clear

/-- A value which a method returns: nothing, bytes, or a string with the bytes which it stands for as
a hexadecimal string. -/
inductive MacVal where
  | none
  | bytes (b : Bytes)
  | str (b : Option Bytes)

/-- The result of a call. -/
def MacCall.result (s : Mac) : MacCall → Res MacVal
  | .update v => (s.update v).2.map fun _ => .none
  | .digest n => (s.digest n).2.map .bytes
  | .hexdigest n => (s.hexdigest n).2.map fun c => .str (Spec.unhex c)
  | .macFinal => s.macFinal.2.map .bytes
  | .clear => .ok .none

/-- The results of a sequence of calls, going on after exceptions. -/
def MacCall.results : Mac → List MacCall → List (Res MacVal)
  | _, [] => []
  | s, c :: cs => c.result s :: MacCall.results (c.apply s) cs

/-- The answers as values of Python. -/
def macRes : MacAns → Res MacVal
  | .done => .ok .none
  | .tooShort => .error .indexError
  | .badText => .error (.cipherError "GOSTCipherError: invalid text data")
  | .badSize => .error (.cipherError "GOSTCipherError: invalid message authentication code size")
  | .bytes b => .ok (.bytes b)
  | .hex b => .ok (.str (some b))

/-- The padded end of a message. -/
def padTail (n : Nat) (t : Bytes) : Bytes := t ++ 0x80 :: List.replicate (n - 1 - t.length) 0

theorem padTail_length {n : Nat} {t : Bytes} (h : t.length < n) : (padTail n t).length = n := by
  simp [padTail]; omega

/-- The object and its past. -/
structure MacStands (a : Alg) (key : Bytes) (D : Bool → Bytes → Bytes) (K1 K2 : Bytes) (p : MacPast)
    (s : Mac) : Prop where
  inv : s.Inv
  now : Now a key D p.cleared s.obj
  k1 : s.key1 = K1
  k2 : s.key2 = K2
  iter : s.iterBuf = p.tail
  cur : s.curMac = macLog (encNow a key) a.blockSize p.log
  prev : s.prevMac = macLog (encNow a key) a.blockSize (if p.whole then p.log.dropLast else p.log)
  fin : s.finBuff = if p.final then padTail a.blockSize p.tail
    else (p.log.getLastD (false, [])).2 ++ p.tail
  open_ : p.final = true → p.whole = false
  tail : p.tail ≠ [] → p.log ≠ []
  len : ∀ x ∈ p.log, x.2.length = a.blockSize

theorem macLog_append (E : Bool → Bytes → Bytes) (n : Nat) (X : List (Bool × Bytes)) (c : Bool)
    (bl : List Bytes) :
    macLog E n (X ++ bl.map fun b => (c, b)) = macChain (E c) (macLog E n X) bl := by
  unfold macLog macChain
  rw [List.foldl_append, List.foldl_map]

theorem MacStands.short {a : Alg} {key : Bytes} {D : Bool → Bytes → Bytes} {K1 K2 : Bytes} {p : MacPast}
    {s : Mac} (h : MacStands a key D K1 K2 p s) : p.tail.length < a.blockSize := by
  have := h.inv.iter
  rw [h.iter, h.now.bs] at this
  exact this

theorem MacStands.update {a : Alg} {key : Bytes} {D : Bool → Bytes → Bytes} {K1 K2 : Bytes} {p : MacPast}
    {s : Mac} (h : MacStands a key D K1 K2 p s) (v : PyVal) (d : Bytes) (hv : v.data? = some d) :
    MacStands a key D K1 K2 (macCall (encNow a key) K1 K2 a.blockSize p (.update d)).1 (s.update v).1 ∧
      (s.update v).2.map (fun _ => MacVal.none) =
        macRes (macCall (encNow a key) K1 K2 a.blockSize p (.update d)).2 := by
  have hpos : 0 < a.blockSize := Alg.blockSize_pos a
  have hinv := h.inv.update v
  have hval := Mac.update_val s h.now.impl h.inv.cur v d hv
  rw [h.iter, h.now.bs, List.length_append] at hval
  simp only [macCall]
  by_cases hlt : p.tail.length + d.length < a.blockSize
  · rw [if_pos hlt] at hval ⊢
    rw [hval]
    exact ⟨h, rfl⟩
  · rw [if_neg hlt] at hval ⊢
    rw [hval] at hinv ⊢
    refine ⟨?_, rfl⟩
    have hlen : (p.tail ++ d).length = p.tail.length + d.length := List.length_append
    generalize p.tail ++ d = data at *
    have hbl := blocks_last a.blockSize data hpos (by omega)
    have hne : blocks a.blockSize data ≠ [] := by rw [hbl]; simp
    have hdm := Nat.div_add_mod data.length a.blockSize
    have hml := Nat.mod_lt data.length hpos
    have hq : 0 < data.length / a.blockSize := Nat.div_pos (by omega) hpos
    have hmul : a.blockSize * (data.length / a.blockSize - 1) + a.blockSize =
        a.blockSize * (data.length / a.blockSize) := by
      rw [Nat.mul_sub, Nat.mul_one]
      have := Nat.le_mul_of_pos_right a.blockSize hq
      omega
    have hrest : (rest a.blockSize data).isEmpty = decide (data.length % a.blockSize = 0) := by
      have := rest_length a.blockSize data
      cases hr : rest a.blockSize data with
      | nil => rw [hr] at this; simp at this; simp [← this]
      | cons x l => rw [hr] at this; simp at this; simp [← this]
    have hmapne : (blocks a.blockSize data).map (fun b => (p.cleared, b)) ≠ [] := by simpa using hne
    have hwhole : MacPast.whole ⟨p.log ++ (blocks a.blockSize data).map fun b => (p.cleared, b),
        rest a.blockSize data, false, p.cleared⟩ = decide (data.length % a.blockSize = 0) := by
      unfold MacPast.whole
      simp only
      rw [hrest]
      have : (p.log ++ (blocks a.blockSize data).map fun b => (p.cleared, b)).isEmpty = false := by
        rw [List.isEmpty_eq_false_iff]
        simp [hne]
      rw [this]; simp
    refine ⟨hinv, h.now, h.k1, h.k2, rfl, ?_, ?_, ?_, ?_, ?_, ?_⟩
    · show macChain _ s.curMac _ = _
      rw [macLog_append, h.cur]
    · rw [hwhole]
      simp only
      rw [← hlen]
      by_cases h0 : data.length % a.blockSize = 0
      · rw [if_pos h0, if_pos (by simpa using h0), List.dropLast_append_of_ne_nil hmapne,
          ← List.map_dropLast, macLog_append, h.cur]
      · rw [if_neg h0, if_neg (by simpa using h0), macLog_append, h.cur]
    · simp only [Bool.false_eq_true, if_false]
      rw [hbl, List.map_append, ← List.append_assoc, List.map_singleton, List.getLastD_concat]
      simp only
      rw [← hlen]
      unfold rest
      rw [← hmul, ← List.drop_drop, List.take_append_drop]
    · intro hf; cases hf
    · intro _; simp [hne]
    · intro x hx
      rcases List.mem_append.1 hx with hx | hx
      · exact h.len x hx
      · obtain ⟨b, hb, rfl⟩ := List.mem_map.1 hx
        exact mem_blocks_length hb

theorem MacStands.clear {a : Alg} {key : Bytes} {D : Bytes → Bytes} {K1 K2 : Bytes} {p : MacPast}
    {s : Mac} (h : MacStands a key (fun c => if c then clearedD a else D) K1 K2 p s) :
    MacStands a key (fun c => if c then clearedD a else D) K1 K2 { p with cleared := true } s.clear :=
  ⟨h.inv.clear, h.now.clear, h.k1, h.k2, h.iter, h.cur, h.prev, h.fin, h.open_, h.tail, h.len⟩

theorem MacStands.final {a : Alg} {key : Bytes} {D : Bool → Bytes → Bytes} {K1 K2 : Bytes} {p : MacPast}
    {s : Mac} (h : MacStands a key D K1 K2 p s) :
    MacStands a key D K1 K2 { p with final := p.final || !p.whole } s.macFinal.1 ∧
      s.macFinal.2 = .ok (macTag (encNow a key) K1 K2 a.blockSize p) := by
  have hpos : 0 < a.blockSize := Alg.blockSize_pos a
  have hs := h.short
  have hinv := h.inv.macFinal
  have hval := Mac.macFinal_ok s h.now.impl h.inv
  rw [h.now.bs] at hval
  have hlast : p.log ≠ [] → (p.log.getLastD (false, [])).2.length = a.blockSize := by
    intro hne
    rw [List.getLastD_eq_getLast?, List.getLast?_eq_some_getLast hne]
    exact h.len _ (List.getLast_mem hne)
  unfold macTag
  by_cases hw : p.whole = true
  · -- the last block is complete
    have hfin : p.final = false := by
      cases hf : p.final with
      | false => rfl
      | true => rw [h.open_ hf] at hw; cases hw
    have hw' := hw
    unfold MacPast.whole at hw'
    simp only [Bool.and_eq_true, List.isEmpty_iff, Bool.not_eq_true', List.isEmpty_eq_false_iff] at hw'
    have hfb : s.finBuff = (p.log.getLastD (false, [])).2 := by
      rw [h.fin, hfin, hw'.1]; simp
    rw [if_pos (by rw [hfb]; exact hlast hw'.2)] at hval
    rw [hval, if_pos hw, hw, hfin]
    refine ⟨?_, ?_⟩
    · have := h
      rcases p with ⟨l, t, f, c⟩
      simp only at hfin
      subst hfin
      exact this
    · rw [hfb, h.prev, h.k1, if_pos hw]
      rfl
  · have hw0 : p.whole = false := by simpa using hw
    rw [if_neg hw, hw0]
    have hprev := h.prev
    rw [if_neg hw] at hprev
    cases hf : p.final with
    | true =>
      have hfb : s.finBuff = padTail a.blockSize p.tail := by rw [h.fin, hf]; rfl
      rw [if_pos (by rw [hfb]; exact padTail_length hs)] at hval
      rw [hval]
      refine ⟨?_, ?_⟩
      · have := h
        rcases p with ⟨l, t, f, c⟩
        simp only at hf
        subst hf
        exact this
      · rw [hfb, hprev, h.k1]
        rfl
    | false =>
      have hfb : s.finBuff = (p.log.getLastD (false, [])).2 ++ p.tail := by rw [h.fin, hf]; rfl
      have hnel : s.finBuff.length ≠ a.blockSize ∧ s.finBuff.drop a.blockSize = p.tail ∧
          s.finBuff.length - a.blockSize = p.tail.length := by
        rw [hfb]
        by_cases hl : p.log = []
        · have ht : p.tail = [] := Classical.byContradiction fun ht => h.tail ht hl
          rw [hl, ht]
          simp
          omega
        · have hll := hlast hl
          have ht : p.tail ≠ [] := by
            intro ht
            unfold MacPast.whole at hw0
            rw [ht] at hw0
            simp [hl] at hw0
          have htl : 0 < p.tail.length := List.length_pos_iff.2 ht
          rw [List.length_append, hll]
          exact ⟨by omega, List.drop_left' hll, by omega⟩
      rw [if_neg hnel.1, hnel.2.1, hnel.2.2] at hval
      rw [hval] at hinv ⊢
      refine ⟨⟨hinv, h.now, h.k1, h.k2, h.iter, h.cur, ?_, rfl, ?_, h.tail, h.len⟩, ?_⟩
      · exact h.prev
      · intro _; exact hw0
      · rw [hprev, h.k2]
        rfl

theorem MacStands.digest {a : Alg} {key : Bytes} {D : Bool → Bytes → Bytes} {K1 K2 : Bytes} {p : MacPast}
    {s : Mac} (h : MacStands a key D K1 K2 p s) (size : Int) :
    (s.digest size).2 = if (a.blockSize : Int) < size then
        .error (.cipherError "GOSTCipherError: invalid message authentication code size")
      else .ok ((macTag (encNow a key) K1 K2 a.blockSize p).take
        (if 0 ≤ size then size.toNat else (size + a.blockSize).toNat)) := by
  have hf := h.final.2
  obtain ⟨r, h1, h2⟩ := Mac.digest_ok s h.inv
  rw [hf] at h1
  cases h1
  rw [h.now.bs] at h2
  by_cases hlt : (a.blockSize : Int) < size
  · rw [if_pos hlt]
    unfold Mac.digest
    simp only []
    rw [h.now.bs, if_pos (by omega)]
  · rw [if_neg hlt, Mac.digest_eq s size _ hf (by rw [h.now.bs]; omega)]
    refine congrArg Except.ok ?_
    split
    · next h0 =>
      conv => lhs; rw [show size = ((size.toNat : Nat) : Int) by rw [Int.toNat_of_nonneg h0]]
      rw [pyUpto_nat]
    · next h0 =>
      unfold pyUpto sliceBound
      rw [if_pos (by omega), h2]

/-- The calls one after the other. -/
theorem MacStands.results {a : Alg} {key : Bytes} {D : Bytes → Bytes} {K1 K2 : Bytes} {p : MacPast}
    {s : Mac} (h : MacStands a key (fun c => if c then clearedD a else D) K1 K2 p s) (cs : List MacCall) :
    MacCall.results s cs =
      (macAnswers (encNow a key) K1 K2 a.blockSize p (cs.map MacCall.op)).map macRes := by
  induction cs generalizing p s with
  | nil => rfl
  | cons c cs ih =>
    have key' : MacStands a key (fun c => if c then clearedD a else D) K1 K2
        (macCall (encNow a key) K1 K2 a.blockSize p c.op).1 (c.apply s) ∧
        c.result s = macRes (macCall (encNow a key) K1 K2 a.blockSize p c.op).2 := by
      cases c with
      | update v =>
        cases hv : v.data? with
        | none =>
          simp only [MacCall.apply, MacCall.result, MacCall.op, hv, update_other s v hv]
          exact ⟨h.clear, rfl⟩
        | some d =>
          simp only [MacCall.apply, MacCall.result, MacCall.op, hv]
          exact h.update v d hv
      | digest n =>
        simp only [MacCall.apply, MacCall.result, MacCall.op, Mac.digest_state, h.digest n, macCall]
        refine ⟨h, ?_⟩
        split <;> rfl
      | hexdigest n =>
        simp only [MacCall.apply, MacCall.result, MacCall.op, Mac.hexdigest_eq, Mac.digest_state,
          h.digest n, macCall]
        refine ⟨h, ?_⟩
        split
        · rfl
        · simp only [Res.bind_ok, Res.pure_eq]
          show Except.ok (MacVal.str (Spec.unhex (pyHex _))) = _
          rw [unhex_pyHex]
          rfl
      | macFinal =>
        simp only [MacCall.apply, MacCall.result, MacCall.op, macCall]
        refine ⟨h.final.1, ?_⟩
        rw [h.final.2]
        rfl
      | clear => exact ⟨h.clear, rfl⟩
    simp only [MacCall.results, List.map_cons, macAnswers]
    rw [key'.2, ih key'.1]

/-- C72: calls of every kind on one MAC object, in any order. Every result is that of the log: the
blocks are chained with the cipher of the key until the first `clear` or refused call and with the
key-independent cipher from then on, the masks of the last block are always those of the key, and after
`mac_final` an incomplete last block gets the wrong mask until the next accepted data. -/
theorem C72_history (a : Alg) (kv dv : PyVal) (key d : Bytes) (hk : kv.data? = some key)
    (hkl : key.length = 32) (hd : dv.data? = some d) (hlen : d = [] ∨ a.blockSize ≤ d.length)
    (pad : Option Int) (iv : Option PyVal) :
    ∃ s, newCipher a.name kv modeMac pad iv (some dv) = .ok (.mac s) ∧
      ∀ cs : List MacCall, MacCall.results s cs =
        (macAnswers (fun c => if c then a.cleared else a.encrypt key)
          (Spec.macKey1 (a.encrypt key) a.blockSize) (Spec.macKey2 (a.encrypt key) a.blockSize) a.blockSize
          (if d = [] then MacPast.new
            else ⟨(blocks a.blockSize d).map fun b => (false, b), rest a.blockSize d, false, false⟩)
          (cs.map MacCall.op)).map macRes := by
  obtain ⟨o, D, hg, hbs, hI, h1, h2⟩ := new_mac a kv key hk hkl pad iv
  rw [hbs] at h1 h2
  have hnew : MacStands a key (fun c => if c then clearedD a else D)
      (Spec.macKey1 (a.encrypt key) a.blockSize) (Spec.macKey2 (a.encrypt key) a.blockSize) MacPast.new
      (macState o (a.encrypt key) (Spec.macKey1 (a.encrypt key) a.blockSize)
        (Spec.macKey2 (a.encrypt key) a.blockSize) []) := by
    refine ⟨macState_inv o hg hI _ _ [] (by rw [hbs]; exact macDouble_length _ _)
      (by rw [hbs]; exact macDouble_length _ _) (Or.inl rfl), ⟨hg, hbs, hI⟩, rfl, rfl, ?_, ?_, ?_, ?_, ?_, ?_, ?_⟩
    · simp [macState_nil, MacPast.new]
    · simp [macState_nil, MacPast.new, macLog, hbs, zeros]
    · simp [macState_nil, MacPast.new, macLog, hbs, zeros, MacPast.whole]
    · simp [macState_nil, MacPast.new]
    · intro h; cases h
    · intro h; exact absurd rfl h
    · intro x hx; cases hx
  by_cases h0 : d = []
  · subst h0
    exact ⟨_, h1 (some dv) hd, fun cs => by rw [if_pos rfl]; exact hnew.results cs⟩
  · have hge : a.blockSize ≤ d.length := hlen.resolve_left h0
    have hu := update_macState o hI (Spec.macKey1 (a.encrypt key) a.blockSize)
      (Spec.macKey2 (a.encrypt key) a.blockSize) [] dv d hd
    rw [hbs, if_neg (by simp; omega), List.nil_append] at hu
    have hs := (hnew.update dv d hd).1
    rw [hu] at hs
    refine ⟨_, by rw [h2 dv d hd h0, if_neg (by omega)], fun cs => ?_⟩
    rw [if_neg h0]
    have hp : (macCall (encNow a key) (Spec.macKey1 (a.encrypt key) a.blockSize)
        (Spec.macKey2 (a.encrypt key) a.blockSize) a.blockSize MacPast.new (.update d)).1 =
        ⟨(blocks a.blockSize d).map fun b => (false, b), rest a.blockSize d, false, false⟩ := by
      have hc : ¬ (MacPast.new.tail.length + d.length < a.blockSize) := by
        show ¬ (0 + d.length < a.blockSize)
        omega
      simp only [macCall]
      rw [if_neg hc]
      rfl
    rw [hp] at hs
    exact hs.results cs

/-- Without calls of `mac_final`, `clear` and refused data the code is that of the standard. -/
theorem C72_standard (E : Bytes → Bytes) (E' : Bool → Bytes → Bytes) (hE : E' false = E) (n : Nat)
    (M : Bytes) :
    macTag E' (Spec.macKey1 E n) (Spec.macKey2 E n) n
        ⟨(blocks n M).map fun b => (false, b), rest n M, false, false⟩ = Spec.omac E n M := by
  have hc : ∀ X : List Bytes, macLog E' n (X.map fun b => (false, b)) =
      macChain E (List.replicate n 0) X := by
    intro X
    have := macLog_append E' n [] false X
    rw [List.nil_append, hE] at this
    exact this
  have hr : (rest n M).isEmpty = decide (M.length % n = 0) := by
    have := rest_length n M
    cases hr : rest n M with
    | nil => rw [hr] at this; simp at this; simp [← this]
    | cons x l => rw [hr] at this; simp at this; simp [← this]
  have hb : (blocks n M).isEmpty = decide (M.length / n = 0) := by
    have := blocks_length n M
    cases hb : blocks n M with
    | nil => rw [hb] at this; simp at this; simp [← this]
    | cons x l => rw [hb] at this; simp at this; simp [← this]
  have hdm := Nat.div_add_mod M.length n
  have hw : (MacPast.whole ⟨(blocks n M).map fun b => (false, b), rest n M, false, false⟩ = true) ↔
      (M ≠ [] ∧ M.length % n = 0) := by
    unfold MacPast.whole
    simp only [List.isEmpty_map, hr, hb, Bool.and_eq_true, decide_eq_true_eq, Bool.not_eq_true',
      decide_eq_false_iff_not]
    constructor
    · rintro ⟨h1, h2⟩
      refine ⟨?_, h1⟩
      rintro rfl
      simp at h2
    · rintro ⟨h1, h2⟩
      refine ⟨h2, fun h3 => ?_⟩
      rw [h3, h2] at hdm
      exact h1 (List.length_eq_zero_iff.1 (by omega))
  unfold macTag Spec.omac
  by_cases h : M ≠ [] ∧ M.length % n = 0
  · rw [if_pos (hw.2 h), if_pos h]
    simp only
    rw [hE, ← List.map_dropLast, hc]
    have : (((blocks n M).map fun b => (false, b)).getLastD (false, [])).2 = (blocks n M).getLastD [] := by
      rw [List.getLastD_eq_getLast?, List.getLastD_eq_getLast?, List.getLast?_map]
      cases (blocks n M).getLast? <;> rfl
    rw [this]
  · rw [if_neg (fun h' => h (hw.1 h')), if_neg h]
    simp only [Bool.false_eq_true, if_false]
    rw [hE, hc, rest_length]

/-! ### Concrete cases -/

/-- A history for C72: data, a digest, `mac_final`, the digest again, a refused update, a digest. -/
example : ∃ s, newCipher Alg.magma.name (.bytes Ex.key) modeMac (data := some (.bytes (Ex.count 1 21))) =
      .ok (.mac s) ∧
    ∀ cs, MacCall.results s cs = (macAnswers (fun c => if c then Alg.magma.cleared else Alg.magma.encrypt Ex.key)
      (Spec.macKey1 (Alg.magma.encrypt Ex.key) 8) (Spec.macKey2 (Alg.magma.encrypt Ex.key) 8) 8
      ⟨[(false, Ex.count 1 8), (false, Ex.count 9 8)], Ex.count 17 5, false, false⟩ (cs.map MacCall.op)).map
        macRes := by
  obtain ⟨s, h1, h2⟩ := C72_history .magma (.bytes Ex.key) (.bytes (Ex.count 1 21)) Ex.key (Ex.count 1 21)
    rfl (by decide) rfl (by decide) none none
  rw [if_neg (by decide)] at h2
  exact ⟨s, h1, h2⟩

/-- The log at work, with blocks of two bytes, `E` adding one to every byte and a cleared cipher which
adds two: the digest, `mac_final`, the digest with the wrong mask, a refused update, and the same digest
with the cleared cipher. -/
example : macAnswers (fun c => List.map (· + if c then 2 else 1)) [8, 8] [16, 16] 2 MacPast.new
    [.update [4, 4, 2], .digest 2, .macFinal, .digest 1, .badUpdate, .digest 2, .update [0], .digest 3] =
    [.done, .bytes [24, 150], .bytes [24, 150], .bytes [16], .badText, .bytes [17, 143], .done,
      .badSize] := by decide

end Gost
