import Verif.SourceProofs.HashNew
import Verif.Model.Oid

/-! The functions and the class of `oid.py`. -/

namespace Gost.Src
namespace OidSrc

open Gost.Oid (bitLength lenInt digits lenOidOctet intToOctet encodeRest encodeOctet)

@[pysem] theorem bit_length (C : Ctx) (x : Int) (h : Heap) :
    callMeth C (.int x) "bit_length" [] h = ok (.int (bitLength x.natAbs)) h := (rfl)

@[pysem] theorem to_bytes (C : Ctx) (x n : Int) (s : String) (h : Heap) :
    callMeth C (.int x) "to_bytes" [.int n, .str s] h = toBytes x n s h := (rfl)

theorem toBytes_one {v : Nat} (hv : v < 256) (h : Heap) :
    toBytes (v : Int) 1 "big" h = ok (.bytes [UInt8.ofNat v]) h := by
  unfold toBytes
  rw [if_neg (by decide), if_neg (by simp; omega)]
  simp [Nat.mod_eq_of_lt hv]

/-- `_len_int`. -/
theorem len_int_ok (L n v b : Nat) (hb : 0 < b) (h : Heap) :
    call package L (n + 1) "Oid._len_int" [.int v, .int b] h = ok (.int (lenInt v b)) h := by
  rw [call_succ Fn.Oid._len_int]
  have e1 : arith .floordiv ((bitLength v : Nat) : Int) (b : Int) = .ok ((bitLength v / b : Nat) : Int) := by
    unfold arith
    simp only
    rw [if_neg (by omega), Int.fdiv_eq_ediv_of_nonneg _ (by omega)]
    rfl
  have e2 : arith .mod ((bitLength v : Nat) : Int) (b : Int) = .ok ((bitLength v % b : Nat) : Int) := by
    unfold arith
    simp only
    rw [if_neg (by omega), Int.fmod_eq_emod_of_nonneg _ (by omega)]
    rfl
  unfold lenInt
  simp only
  by_cases h0 : bitLength v / b = 0
  · have h0' : (((bitLength v / b : Nat) : Int) = 0) = True := by simp only [eq_iff_iff, iff_true]; omega
    rw [if_pos h0]
    py [Oid.f__len_int, Int.natAbs_natCast, e1, h0', decide_true]
    rfl
  · have h0' : (((bitLength v / b : Nat) : Int) = 0) = False := by simp only [eq_iff_iff, iff_false]; omega
    rw [if_neg h0]
    by_cases h1 : bitLength v % b = 0
    · have h1' : (((bitLength v % b : Nat) : Int) = 0) = True := by simp only [eq_iff_iff, iff_true]; omega
      rw [if_neg (by simpa using h1)]
      py [Oid.f__len_int, Int.natAbs_natCast, e1, h0', decide_false, e2, h1', decide_true]
    · have h1' : (((bitLength v % b : Nat) : Int) = 0) = False := by simp only [eq_iff_iff, iff_false]; omega
      rw [if_pos h1]
      py [Oid.f__len_int, Int.natAbs_natCast, e1, h0', decide_false, e2, h1']
      rfl

/-! The digits, the most significant one first. -/

theorem digits_left (k : Nat) : ∀ j v, digits k (j + 1) v = UInt8.ofNat ((v >>> (k * j)) &&& (2 ^ k - 1)) :: digits k j v
  | 0, v => by simp [digits]
  | j + 1, v => by
    rw [digits, digits_left k j (v >>> k), ← Nat.shiftRight_add, List.cons_append]
    rw [show k + k * j = k * (j + 1) by rw [Nat.mul_succ, Nat.add_comm]]
    rfl

theorem digits_length (k : Nat) : ∀ n v, (digits k n v).length = n
  | 0, _ => rfl
  | n + 1, v => by rw [digits, List.length_append, digits_length k n]; rfl

/-- The body of the loops. -/
def digitBody (m k : Int) : List Stmt :=
  [.assign (.index (.name "result") (.name "i")) (.bin .band (.name "value") (.int m)),
   .assign (.name "value") (.bin .shr (.name "value") (.int k))]

theorem digit_loop {C : Ctx} {b : List Stmt} {vs : List Val} {env : Env} {H : Heap} {o : Out Flow}
    (hl : forLoop "i" (fun env h => execs C b env h) vs env H = o) (k : Nat) (hk : k ≤ 8)
    (hb : b = digitBody ((2 ^ k - 1 : Nat) : Int) k) (pre : Bytes) (n v : Nat) (h : Heap)
    (hv : vs = (List.range n).map fun j : Nat => .int ((pre.length + (n - 1 - j) : Nat) : Int))
    (hH : H = h ++ [.bytearray (pre ++ List.replicate n 0)])
    (e1 : env "result" = some (.ref h.length)) (e2 : env "value" = some (.int v)) :
    ∃ env', o = ok (.next env') (h ++ [.bytearray (pre ++ digits k n v)]) ∧ env' "result" = some (.ref h.length) := by
  subst hb hv hH
  have := for_inv hl
    (fun j env h' => env "result" = some (.ref h.length) ∧ env "value" = some (.int ((v >>> (k * j) : Nat) : Int)) ∧
      h' = h ++ [.bytearray (pre ++ List.replicate (n - j) 0 ++ digits k j v)]) (by
    intro j w env h1 hw ⟨i1, i2, i3⟩
    subst i3
    rw [List.getElem?_map] at hw
    rcases Nat.lt_or_ge j n with hj | hj
    · rw [List.getElem?_range hj] at hw
      cases hw
      have hx : ((v >>> (k * j) &&& (2 ^ k - 1) : Nat) : Int) = ((UInt8.ofNat (v >>> (k * j) &&& (2 ^ k - 1))).toNat : Int) := by
        rw [UInt8.toNat_ofNat', Nat.mod_eq_of_lt]
        have : v >>> (k * j) &&& (2 ^ k - 1) < 2 ^ k := by
          rw [Nat.and_two_pow_sub_one_eq_mod]
          exact Nat.mod_lt _ (Nat.two_pow_pos k)
        exact Nat.lt_of_lt_of_le this (Nat.pow_le_pow_right (by decide) hk)
      have hs : (pre ++ List.replicate (n - j) 0 ++ digits k j v).set (pre.length + (n - 1 - j))
          (UInt8.ofNat (v >>> (k * j) &&& (2 ^ k - 1))) = pre ++ List.replicate (n - (j + 1)) 0 ++ digits k (j + 1) v := by
        rw [digits_left, show n - j = (n - 1 - j) + 1 by omega, List.replicate_succ', show n - (j + 1) = n - 1 - j by omega]
        rw [← List.append_assoc pre, List.append_assoc (pre ++ _), List.set_append_right _ _ (by simp)]
        simp
      have hlt : pre.length + (n - 1 - j) < (pre ++ List.replicate (n - j) 0 ++ digits k j v).length := by
        simp only [List.length_append, List.length_replicate]
        omega
      have hset := setItem_last h (pre ++ List.replicate (n - j) 0 ++ digits k j v) (pre.length + (n - 1 - j))
        (UInt8.ofNat (v >>> (k * j) &&& (2 ^ k - 1)))
      rw [if_pos hlt, hs] at hset
      refine ⟨(env.set "i" (.int ((pre.length + (n - 1 - j) : Nat) : Int))).set "value" (.int ((v >>> (k * j) >>> k : Nat) : Int)),
        _, ?_, ?_, ?_, rfl⟩
      · py [digitBody, i1, i2, intAnd_nat, hx, hset, arith_shr_nat]
      · py [i1]
      · py []
        rw [← Nat.shiftRight_add, Nat.mul_succ]
    · rw [List.getElem?_eq_none (by simpa using hj)] at hw
      cases hw) ⟨e1, by simpa using e2, by simp [digits]⟩
  obtain ⟨env', h', e, i1, -, i3⟩ := this
  refine ⟨env', ?_, i1⟩
  rw [e, i3]
  simp

theorem range_to_zero (n : Nat) :
    pyRange ((n : Int) - 1) (-1) (-1) = (List.range n).map fun j : Nat => .int ((([] : Bytes).length + (n - 1 - j) : Nat) : Int) := by
  rw [pyRange_down]
  apply List.ext_getElem
  · simp
  · intro i h1 h2
    simp at h1 h2
    simp

theorem range_to_one (n : Nat) (b : UInt8) :
    pyRange (n : Int) 0 (-1) = (List.range n).map fun j : Nat => .int (([b].length + (n - 1 - j) : Nat) : Int) := by
  have e : ((n : Int) - 0 - -1 - 1) = n := by omega
  simp only [pyRange]
  rw [if_neg (by decide), e]
  rw [show ((n : Int).fdiv (- -1)) = n by simp]
  apply List.ext_getElem
  · simp
  · intro i h1 h2
    simp at h1 h2
    simp
    omega

theorem lenInt_pos (v b : Nat) : 0 < lenInt v b := by
  unfold lenInt
  simp only
  split
  · exact Nat.one_pos
  · next h =>
    split
    · exact Nat.succ_pos _
    · exact Nat.pos_of_ne_zero h

/-- `_len_oid_octet`. -/
theorem len_oid_octet_ok (L n v : Nat) (h : Heap) :
    Returns (call package L (n + 2) "Oid._len_oid_octet" [.int v] h) h (lenOidOctet v) := by
  rw [call_succ Fn.Oid._len_oid_octet]
  unfold lenOidOctet
  by_cases hv : v < 0x80
  · have hv' : ((v : Int) < 128) = True := by simp only [eq_iff_iff, iff_true]; omega
    rw [if_pos hv]
    py [Oid.f__len_oid_octet, hv', decide_true, toBytes_one (show v < 256 by omega)]
    exact NewBytes.last (Ext.refl h) _
  · have hv' : ((v : Int) < 128) = False := by simp only [eq_iff_iff, iff_false]; omega
    rw [if_neg hv]
    have f : call package L (n + 1) "Oid._len_int" [.int v, .int 8] = ok (.int (lenInt v 8)) :=
      funext fun h => len_int_ok L n v 8 (by decide) h
    generalize lenInt v 8 = m at f ⊢
    have ea : arith .add ((m : Nat) : Int) 1 = .ok ((m + 1 : Nat) : Int) := rfl
    have eo : arith .bor 128 ((m : Nat) : Int) = .ok ((128 ||| m : Nat) : Int) := arith_bor_nat 128 m
    simp only
    by_cases hb : (128 ||| m) > 255
    · rw [if_pos hb]
      have hs : setItem (.ref h.length) (.int 0) (.int ((128 ||| m : Nat) : Int)) (h ++ [.bytearray (List.replicate (m + 1) 0)]) =
          fail .value (h ++ [.bytearray (List.replicate (m + 1) 0)]) := by
        simp only [setItem, get_last, position, List.length_replicate]
        rw [if_neg (show ¬ ((0 : Int) < 0) by decide), if_pos (by omega)]
        simp only
        rw [if_neg (by omega)]
      py [Oid.f__len_oid_octet, hv', decide_false, f, ea, eo, hs]
      exact ⟨_, rfl⟩
    · rw [if_neg hb]
      have hs : setItem (.ref h.length) (.int 0) (.int ((128 ||| m : Nat) : Int)) (h ++ [.bytearray (List.replicate (m + 1) 0)]) =
          ok () (h ++ [.bytearray ([UInt8.ofNat (128 ||| m)] ++ List.replicate m 0)]) := by
        have := setItem_last h (List.replicate (m + 1) 0) 0 (UInt8.ofNat (128 ||| m))
        rw [if_pos (by simp), UInt8.toNat_ofNat', Nat.mod_eq_of_lt (by omega)] at this
        exact this
      py [Oid.f__len_oid_octet, hv', decide_false, f, ea, eo, hs]
      generalize hl : forLoop _ _ _ _ _ = o
      obtain ⟨env', rfl, e'⟩ := digit_loop hl 8 (by decide) rfl [UInt8.ofNat (128 ||| m)] m v h (range_to_one m _) rfl
        (by py []) (by py [])
      py [e']
      exact NewBytes.last (Ext.refl h) _

theorem fits (v : Int) : v < 0 ∨ ∃ m : Nat, v = m := by
  by_cases h : v < 0
  · exact Or.inl h
  · exact Or.inr ⟨v.toNat, by omega⟩

/-- `_int_to_octet`. -/
theorem int_to_octet_ok (L n : Nat) (v : Int) (h : Heap) :
    Returns (call package L (n + 2) "Oid._int_to_octet" [.int v] h) h (intToOctet v) := by
  rw [call_succ Fn.Oid._int_to_octet]
  unfold intToOctet
  rcases fits v with hv | ⟨v, rfl⟩
  · have hv' : (v < 128) = True := by simp only [eq_iff_iff, iff_true]; omega
    have e : toBytes v 1 "big" h = fail .overflow h := by
      unfold toBytes
      rw [if_neg (by decide), if_pos (Or.inl hv)]
    rw [if_pos hv]
    py [Oid.f__int_to_octet, hv', decide_true, e]
    exact ⟨[], by simp [exc]⟩
  · rw [if_neg (by omega)]
    simp only [Int.toNat_natCast]
    by_cases hv : v < 0x80
    · have hv' : ((v : Int) < 128) = True := by simp only [eq_iff_iff, iff_true]; omega
      rw [if_pos hv]
      py [Oid.f__int_to_octet, hv', decide_true, toBytes_one (show v < 256 by omega)]
      exact NewBytes.last (Ext.refl h) _
    · have hv' : ((v : Int) < 128) = False := by simp only [eq_iff_iff, iff_false]; omega
      rw [if_neg hv]
      have f : call package L (n + 1) "Oid._len_int" [.int v, .int 7] = ok (.int (lenInt v 7)) :=
        funext fun h => len_int_ok L n v 7 (by decide) h
      have hm := lenInt_pos v 7
      generalize lenInt v 7 = m at f hm ⊢
      have hd := digits_length 7 m v
      generalize hds : digits 7 m v = ds at hd ⊢
      obtain ⟨b, bs, rfl⟩ : ∃ b bs, ds = b :: bs := by
        cases ds with
        | nil => simp at hd; omega
        | cons b bs => exact ⟨b, bs, rfl⟩
      py [Oid.f__int_to_octet, hv', decide_false, f]
      generalize hl : forLoop _ _ _ _ _ = o
      obtain ⟨env', rfl, e'⟩ := digit_loop hl 7 (by decide) rfl [] m v h (range_to_zero m) rfl
        (by py []) (by py [])
      have g0 : getItem (.ref h.length) (.int 0) (h ++ [.bytearray (b :: bs)]) = ok (.int b.toNat) (h ++ [.bytearray (b :: bs)]) := by
        rw [show (Val.int 0) = .int ((0 : Nat) : Int) from rfl, getItem_bytes (by rw [bytesOf_last]; rfl), bytesOf_last]
        rfl
      have eo : arith .bor ((b.toNat : Nat) : Int) 128 = .ok (((b ||| 0x80).toNat : Nat) : Int) := by
        rw [UInt8.toNat_or]
        exact arith_bor_nat b.toNat 128
      have hs : setItem (.ref h.length) (.int 0) (.int (((b ||| 0x80).toNat : Nat) : Int)) (h ++ [.bytearray (b :: bs)]) =
          ok () (h ++ [.bytearray ((b ||| 0x80) :: bs)]) := by
        have := setItem_last h (b :: bs) 0 (b ||| 0x80)
        rw [if_pos (by simp)] at this
        exact this
      rw [hds, List.nil_append]
      py [e', g0, eo, hs]
      exact NewBytes.last (Ext.refl h) _

/-! `_encode_octet`. -/

theorem getItem_intTuple (l : List Int) (i : Int) (h : Heap) :
    getItem (.tuple (l.map Val.int)) (.int i) h =
      match pyGet l i with
      | .ok x => ok (.int x) h
      | .error _ => fail .index h := by
  simp only [getItem, elems_tuple, pyGet_map]
  cases pyGet l i <;> rfl

theorem slice_intTuple (l : List Int) (i : Int) (h : Heap) :
    getSlice (.tuple (l.map Val.int)) (some i) none h = ok (.tuple ((pyFrom l i).map Val.int)) h := by
  simp [getSlice, pyFrom, sliceBound]

/-- The body of the loop. -/
def encodeBody : List Stmt :=
  [.assign (.name "result") (.bin .add (.name "result") (.call "Oid._int_to_octet" [.name "iter_value"]))]

theorem encode_loop (L n : Nat) (vs : List Int) : ∀ (b : Bytes) (r : Nat) (env : Env) (h : Heap),
    env "result" = some (.ref r) → bytesOf (.ref r) h = some b →
    match encodeRest vs b with
    | .ok b' => ∃ env' l r', forLoop "iter_value" (fun env h => execs (ctx L (n + 2)) encodeBody env h) (vs.map Val.int) env h =
        ok (.next env') (h ++ l) ∧ env' "result" = some (.ref r') ∧ bytesOf (.ref r') (h ++ l) = some b' ∧
        (r' = r ∨ h.length ≤ r')
    | .error e => ∃ l, forLoop "iter_value" (fun env h => execs (ctx L (n + 2)) encodeBody env h) (vs.map Val.int) env h =
        fail (exc e) (h ++ l) := by
  induction vs with
  | nil =>
    intro b r env h e1 e2
    exact ⟨env, [], r, by simp [forLoop], e1, by simpa using e2, Or.inl rfl⟩
  | cons v vs ih =>
    intro b r env h e1 e2
    have f := int_to_octet_ok L n v h
    simp only [encodeRest, List.map_cons, forLoop]
    generalize intToOctet v = res at f ⊢
    rcases f.cases with ⟨y, w, l, rfl, f', hw, hb⟩ | ⟨y, l, rfl, f'⟩
    · rw [ok_bind]
      have s : execs (ctx L (n + 2)) encodeBody (env.set "iter_value" (.int v)) h =
          ok (.next ((env.set "iter_value" (.int v)).set "result" (.ref (h ++ l).length))) (h ++ l ++ [.bytearray (b ++ y)]) := by
        py [encodeBody, e1, f', bytesOf_mono e2 l, hb]
      rw [s, thenRun_next]
      have := ih (b ++ y) (h ++ l).length _ (h ++ l ++ [.bytearray (b ++ y)])
        (show ((env.set "iter_value" (.int v)).set "result" (.ref (h ++ l).length)) "result" = _ by py []) (bytesOf_last _ _)
      generalize encodeRest vs (b ++ y) = res at this ⊢
      cases res with
      | ok b' =>
        obtain ⟨env', l', r', g1, g2, g3, g4⟩ := this
        refine ⟨env', l ++ [.bytearray (b ++ y)] ++ l', r', ?_, g2, ?_, Or.inr ?_⟩
        · rw [g1]; simp
        · rw [← g3]; simp
        · simp only [List.length_append] at g4
          omega
      | error e =>
        obtain ⟨l', g1⟩ := this
        exact ⟨l ++ [.bytearray (b ++ y)] ++ l', by rw [g1]; simp⟩
    · rw [error_bind]
      have s : execs (ctx L (n + 2)) encodeBody (env.set "iter_value" (.int v)) h = fail (exc y) (h ++ l) := by
        py [encodeBody, e1, f']
      rw [s, thenRun_fail]
      exact ⟨l, rfl⟩

/-- The end of the function. -/
def encodeEnd : List Stmt :=
  [.assign (.name "result") (.call "Oid._int_to_octet" [.name "first_value"]),
   .for_ "iter_value" (.slice (.name "value") (some (.int 2)) none) encodeBody,
   .ret (.name "result")]

theorem encode_end (L n : Nat) {env : Env} {h : Heap} {v : List Int} {x : Int} (e1 : env "value" = some (.tuple (v.map Val.int)))
    (e2 : env "first_value" = some (.int x)) :
    Returns (atEnd (execs (ctx L (n + 2)) encodeEnd env h)) h (intToOctet x >>= encodeRest (pyFrom v 2)) := by
  have f := int_to_octet_ok L n x h
  generalize intToOctet x = res at f ⊢
  rcases f.cases with ⟨y, w, l, rfl, f', hw, hb⟩ | ⟨y, l, rfl, f'⟩
  · rw [ok_bind]
    have := encode_loop L n (pyFrom v 2) y w (env.set "result" (.ref w)) (h ++ l) (by py []) hb
    generalize encodeRest (pyFrom v 2) y = res at this ⊢
    unfold atEnd
    cases res with
    | ok b' =>
      obtain ⟨env', l', r', g1, g2, g3, g4⟩ := this
      py [encodeEnd, e1, e2, f', slice_intTuple]
      rw [g1]
      py [g2]
      refine .intro (((Ext.refl h).add l).add l') ?_ g3
      rw [List.length_append] at g4
      omega
    | error e =>
      obtain ⟨l', g1⟩ := this
      py [encodeEnd, e1, e2, f', slice_intTuple]
      rw [g1]
      py []
      exact ⟨l ++ l', by simp⟩
  · rw [error_bind]
    unfold atEnd
    py [encodeEnd, e2, f']
    exact ⟨l, rfl⟩

/-- The first component. -/
def firstPart : Stmt :=
  .if_ (.cmp .eq (.index (.name "value") (.int 0)) (.int 0))
    [.if_ (.cmp .lt (.index (.name "value") (.int 1)) (.int 40))
      [.assign (.name "first_value") (.index (.name "value") (.int 1))]
      [.raise "GOSTOIDError" "invalid second SID value"]]
    [.if_ (.cmp .eq (.index (.name "value") (.int 0)) (.int 1))
      [.if_ (.cmp .lt (.index (.name "value") (.int 1)) (.int 40))
        [.assign (.name "first_value") (.bin .add (.index (.name "value") (.int 1)) (.int 40))]
        [.raise "GOSTOIDError" "invalid second SID value"]]
      [.if_ (.cmp .eq (.index (.name "value") (.int 0)) (.int 2))
        [.assign (.name "first_value") (.bin .add (.index (.name "value") (.int 1)) (.int 80))]
        [.raise "GOSTOIDError" "invalid first SID value"]]]

/-- The first component in the model. -/
def firstValue (value : List Int) : Res Int := do
  let v0 ← pyGet value 0
  if v0 = 0 then do
    let v1 ← pyGet value 1
    if v1 < 40 then pure v1 else .error (.oidError "invalid second SID value")
  else if v0 = 1 then do
    let v1 ← pyGet value 1
    if v1 < 40 then pure (v1 + 40) else .error (.oidError "invalid second SID value")
  else if v0 = 2 then do
    let v1 ← pyGet value 1
    pure (v1 + 80)
  else .error (.oidError "invalid first SID value")

theorem first_part {C : Ctx} {env : Env} {h : Heap} {v : List Int} (e1 : env "value" = some (.tuple (v.map Val.int))) :
    exec C firstPart env h =
      match firstValue v with
      | .ok x => ok (.next (env.set "first_value" (.int x))) h
      | .error e => fail (exc e) h := by
  have g := fun i => getItem_intTuple v i h
  unfold firstValue
  cases h0 : pyGet v 0 with
  | error e =>
    have := pyGet_error h0
    subst this
    py [firstPart, e1, g, h0]
    rw [error_bind]
    rfl
  | ok v0 =>
    rw [ok_bind]
    by_cases c0 : v0 = 0
    · subst c0
      rw [if_pos rfl]
      cases h1 : pyGet v 1 with
      | error e =>
        have := pyGet_error h1
        subst this
        py [firstPart, e1, g, h0, h1, decide_true]
        rw [error_bind]
        rfl
      | ok v1 =>
        rw [ok_bind]
        by_cases c1 : v1 < 40
        · py [firstPart, e1, g, h0, h1, decide_true, c1]
          rfl
        · py [firstPart, e1, g, h0, h1, decide_true, c1, decide_false]
          rfl
    · rw [if_neg c0]
      by_cases c2 : v0 = 1
      · subst c2
        rw [if_pos rfl]
        cases h1 : pyGet v 1 with
        | error e =>
          have := pyGet_error h1
          subst this
          py [firstPart, e1, g, h0, h1, decide_true, c0, decide_false]
          rw [error_bind]
          rfl
        | ok v1 =>
          rw [ok_bind]
          by_cases c1 : v1 < 40
          · py [firstPart, e1, g, h0, h1, decide_true, c0, c1, decide_false]
            rfl
          · py [firstPart, e1, g, h0, h1, decide_true, c0, c1, decide_false]
            rfl
      · rw [if_neg c2]
        by_cases c3 : v0 = 2
        · subst c3
          rw [if_pos rfl]
          cases h1 : pyGet v 1 with
          | error e =>
            have := pyGet_error h1
            subst this
            py [firstPart, e1, g, h0, h1, decide_true, c0, c2, decide_false]
            rw [error_bind]
            rfl
          | ok v1 =>
            rw [ok_bind]
            py [firstPart, e1, g, h0, h1, decide_true, c0, c2, decide_false]
            rfl
        · rw [if_neg c3]
          py [firstPart, e1, g, h0, c0, c2, c3, decide_false]
          rfl

theorem encodeOctet_eq (v : List Int) : encodeOctet v = firstValue v >>= fun x => intToOctet x >>= encodeRest (pyFrom v 2) := by
  unfold encodeOctet firstValue
  cases pyGet v 0 with
  | error e => rfl
  | ok v0 =>
    simp only [ok_bind]
    split
    · cases pyGet v 1 with
      | error e => rfl
      | ok v1 =>
        simp only [ok_bind]
        split <;> rfl
    · split
      · cases pyGet v 1 with
        | error e => rfl
        | ok v1 =>
          simp only [ok_bind]
          split <;> rfl
      · split
        · cases pyGet v 1 <;> rfl
        · rfl

/-- `_encode_octet`. -/
theorem encode_octet_ok (L n : Nat) (v : List Int) (h : Heap) :
    Returns (call package L (n + 3) "Oid._encode_octet" [.tuple (v.map Val.int)] h) h (encodeOctet v) := by
  rw [call_succ Fn.Oid._encode_octet, encodeOctet_eq]
  have hd : Oid.f__encode_octet.body = .assign (.name "result") (.builtin "bytearray" []) :: firstPart :: encodeEnd := rfl
  rw [run_body h rfl rfl, hd]
  rw [execs_assign (env := Env.set .empty "value" (.tuple (v.map Val.int))) (v := .ref h.length) (h' := h ++ [.bytearray []])
    (by py [])]
  rw [execs]
  have f := first_part (C := ctx L (n + 2)) (env := (Env.set .empty "value" (.tuple (v.map Val.int))).set "result" (.ref h.length))
    (h := h ++ [.bytearray []]) (v := v) (by py [])
  generalize firstValue v = res at f ⊢
  cases res with
  | error e =>
    rw [f, error_bind]
    exact ⟨_, rfl⟩
  | ok x =>
    rw [f, ok_bind, thenRun_next]
    have := encode_end L n (env := ((Env.set .empty "value" (.tuple (v.map Val.int))).set "result" (.ref h.length)).set
      "first_value" (.int x)) (h := h ++ [.bytearray []]) (v := v) (x := x) (by py []) (by py [])
    generalize (intToOctet x >>= encodeRest (pyFrom v 2)) = res at this ⊢
    rcases this.cases with ⟨y, w, l, rfl, f', hw, hb⟩ | ⟨y, l, rfl, f'⟩
    · rw [f']
      refine .intro (((Ext.refl h).add _).add l) ?_ hb
      rw [List.length_append] at hw
      omega
    · rw [f']
      exact ⟨[.bytearray []] ++ l, by simp⟩

/-! The class. -/

open Streebog (OidAt)

@[pysem] theorem split_dot (C : Ctx) (s : String) (h : Heap) :
    callMeth C (.str s) "split" [.str "."] h =
      ok (.ref h.length) (h ++ [Obj.list ((Oid.splitDot s.toList).map fun w => .str (String.ofList w))]) := (rfl)

theorem builtin_tuple (C : Ctx) (v : Val) (h : Heap) :
    applyBuiltin C "tuple" [v] h =
      match elems v h with
      | some l => ok (.tuple l) h
      | none => fail .stuck h := (rfl)

theorem builtin_int (C : Ctx) (w : List Char) (h : Heap) :
    applyBuiltin C "int" [.str (String.ofList w)] h =
      match Oid.pyInt w with
      | some i => ok (.int i) h
      | none => fail .value h := by
  show (match Oid.pyInt (String.ofList w).toList with
    | some i => ok (Val.int i) h
    | none => fail .value h) = _
  rw [String.toList_ofList]

theorem ints_comp (C : Ctx) (env : Env) (h : Heap) : ∀ ws : List (List Char),
    evalComp (fun w h => eval C (env.set "item" w) (.builtin "int" [.name "item"]) h)
      (ws.map fun w => .str (String.ofList w)) h =
      match ws.mapM Oid.pyInt with
      | some l => ok (l.map Val.int) h
      | none => fail .value h
  | [] => rfl
  | w :: ws => by
    have ih := ints_comp C env h ws
    have e : eval C (env.set "item" (.str (String.ofList w))) (.builtin "int" [.name "item"]) h =
        match Oid.pyInt w with
        | some i => ok (.int i) h
        | none => fail .value h := by
      rw [← builtin_int C w h]
      py []
    rw [List.map_cons, evalComp, e, List.mapM_cons]
    cases Oid.pyInt w with
    | none => rfl
    | some i =>
      rw [andThen_ok, ih]
      cases ws.mapM Oid.pyInt <;> rfl

theorem exec_try_ok {C : Ctx} {b hd : List Stmt} {env : Env} {h h' : Heap} {f : Flow} (e : execs C b env h = ok f h') :
    exec C (.tryValueError b hd) env h = ok f h' := by
  rw [exec, e]
  rfl

theorem exec_try_value {C : Ctx} {b hd : List Stmt} {env : Env} {h h' : Heap} (e : execs C b env h = fail .value h') :
    exec C (.tryValueError b hd) env h = execs C hd env h' := by
  rw [exec, e]
  rfl

/-- `digit`. -/
theorem digit_ok (L n : Nat) {s : String} {me : Nat} {h : Heap} (o : OidAt s me h) :
    match Oid.digit s.toList with
    | .ok l => ∃ l', call package L (n + 1) "ObjectIdentifier.digit" [.ref me] h = ok (.tuple (l.map Val.int)) (h ++ l')
    | .error e => ∃ l', call package L (n + 1) "ObjectIdentifier.digit" [.ref me] h = fail (exc e) (h ++ l') := by
  rw [call_succ Fn.ObjectIdentifier.digit, run_body h rfl rfl]
  unfold OidAt at o
  unfold Oid.digit
  have c := ints_comp (ctx L n) (Env.set .empty "self" (.ref me)) (h ++ [.list ((Oid.splitDot s.toList).map fun w => .str (String.ofList w))])
    (Oid.splitDot s.toList)
  have x : execs (ctx L n) [.assign (.name "result") (.builtin "tuple" [.comp (.builtin "int" [.name "item"]) "item"
            (.meth (.attr (.name "self") "_oid_str") "split" [.str "."])])] (Env.set .empty "self" (.ref me)) h =
      match (Oid.splitDot s.toList).mapM Oid.pyInt with
      | some l => ok (.next ((Env.set .empty "self" (.ref me)).set "result" (.tuple (l.map Val.int))))
          (h ++ [.list ((Oid.splitDot s.toList).map fun w => .str (String.ofList w))] ++ [.list (l.map Val.int)])
      | none => fail .value (h ++ [.list ((Oid.splitDot s.toList).map fun w => .str (String.ofList w))]) := by
    py [o]
    rw [c]
    cases (Oid.splitDot s.toList).mapM Oid.pyInt with
    | none => py []
    | some l => py [builtin_tuple]
  unfold ObjectIdentifier.m_digit atEnd
  rw [execs]
  generalize (Oid.splitDot s.toList).mapM Oid.pyInt = res at x ⊢
  cases res with
  | none =>
    rw [exec_try_value x]
    refine ⟨[Obj.list ((Oid.splitDot s.toList).map fun w => .str (String.ofList w))], ?_⟩
    py [exc]
  | some l =>
    rw [exec_try_ok x]
    refine ⟨[Obj.list ((Oid.splitDot s.toList).map fun w => .str (String.ofList w))] ++ [Obj.list (l.map Val.int)], ?_⟩
    py []
    rw [List.append_assoc]

/-- `octet`. -/
theorem octet_ok (L n : Nat) {s : String} {me : Nat} {h : Heap} (o : OidAt s me h) :
    Returns (call package L (n + 4) "ObjectIdentifier.octet" [.ref me] h) h (Oid.octet s.toList) := by
  rw [call_succ Fn.ObjectIdentifier.octet, run_body h rfl rfl]
  have o' : OidAt s me (h ++ [Obj.bytearray []] ++ [Obj.bytearray []]) := by
    unfold OidAt at o ⊢
    exact get_mono (get_mono o _) _
  have d := digit_ok L (n + 2) o'
  unfold OidAt at o'
  unfold Oid.octet
  unfold ObjectIdentifier.m_octet atEnd
  generalize Oid.digit s.toList = res at d ⊢
  cases res with
  | error e =>
    obtain ⟨l, d⟩ := d
    rw [error_bind]
    py [o', d]
    exact ⟨[Obj.bytearray []] ++ [Obj.bytearray []] ++ l, by simp⟩
  | ok v =>
    obtain ⟨l, d⟩ := d
    rw [ok_bind]
    have f := encode_octet_ok L n v (h ++ [Obj.bytearray []] ++ [Obj.bytearray []] ++ l)
    generalize encodeOctet v = res at f ⊢
    rcases f.cases with ⟨y, w, l2, rfl, f', hw, hb⟩ | ⟨y, l2, rfl, f'⟩
    · rw [ok_bind]
      have x : Ext h (h ++ [Obj.bytearray []] ++ [Obj.bytearray []] ++ l ++ l2) :=
        ((((Ext.refl h).add _).add _).add _).add _
      have g := len_oid_octet_ok L (n + 1) y.length
        (h ++ [Obj.bytearray []] ++ [Obj.bytearray []] ++ l ++ l2 ++ [Obj.bytearray [6]])
      generalize lenOidOctet y.length = res at g ⊢
      have t1 : toBytes (6 : Int) 1 "big" (h ++ [Obj.bytearray []] ++ [Obj.bytearray []] ++ l ++ l2) =
          ok (.bytes [6]) (h ++ [Obj.bytearray []] ++ [Obj.bytearray []] ++ l ++ l2) :=
        toBytes_one (v := 6) (by decide) _
      rcases g.cases with ⟨z, w2, l3, rfl, g', hw2, hb2⟩ | ⟨z, l3, rfl, g'⟩
      · rw [ok_bind]
        py [o', d, f', hb]
        rw [t1]
        have b6 : bytesOf (.ref (h ++ [Obj.bytearray []] ++ [Obj.bytearray []] ++ l ++ l2).length)
            (h ++ [Obj.bytearray []] ++ [Obj.bytearray []] ++ l ++ l2 ++ [Obj.bytearray [6]] ++ l3) = some [6] :=
          bytesOf_mono (bytesOf_last _ _) l3
        have by' := bytesOf_mono (bytesOf_mono (bytesOf_mono hb [Obj.bytearray [6]]) l3) [Obj.bytearray ([6] ++ z)]
        py [hb, g', b6, hb2, by']
        exact NewBytes.last (((x.add _).add _).add _) _
      · rw [error_bind]
        py [o', d, f', hb]
        rw [t1]
        py [hb, g']
        exact ⟨[Obj.bytearray []] ++ [Obj.bytearray []] ++ l ++ l2 ++ [Obj.bytearray [6]] ++ l3, by simp⟩
    · rw [error_bind]
      py [o', d, f']
      exact ⟨[Obj.bytearray []] ++ [Obj.bytearray []] ++ l ++ l2, by simp⟩

/-- `str(o)`. -/
theorem str_ok (L n : Nat) {s : String} {me : Nat} {h : Heap} (o : OidAt s me h) :
    call package L (n + 1) "ObjectIdentifier.__str__" [.ref me] h = ok (.str s) h := by
  unfold OidAt at o
  rw [call_succ Fn.ObjectIdentifier.__str__, run_body h rfl rfl]
  unfold ObjectIdentifier.m___str__ atEnd
  py [o]

theorem find_attr (l : List (String × String)) (s : String) :
    (findAttr s (l.map fun e => (e.1, Val.str e.2))).getD (.str "") =
      .str (match l.find? (fun p => p.1.toList = s.toList) with
        | some p => p.2
        | none => "") := by
  induction l with
  | nil => rfl
  | cons e l ih =>
    rw [List.map_cons, findAttr, List.find?_cons]
    by_cases hs : e.1 = s
    · rw [if_pos hs, hs]
      simp
    · rw [if_neg hs, ih]
      have : ¬ e.1.toList = s.toList := fun x => hs (String.toList_inj.mp x)
      simp [this]

theorem table_eq : Oid.g_OBJECT_IDENTIFIER_TC26 = .dict (Oid.tc26.map fun e => (e.1, Val.str e.2)) := (rfl)

/-- `name`. -/
theorem name_ok (L n : Nat) {s : String} {me : Nat} {h : Heap} (o : OidAt s me h) :
    call package L (n + 1) "ObjectIdentifier.name" [.ref me] h = ok (.str (Oid.name s.toList)) h := by
  unfold OidAt at o
  rw [call_succ Fn.ObjectIdentifier.name, run_body h rfl rfl]
  unfold ObjectIdentifier.m_name atEnd Oid.name
  generalize ht : Oid.tc26 = t
  have hg : Oid.g_OBJECT_IDENTIFIER_TC26 = .dict (t.map fun e => (e.1, Val.str e.2)) := ht ▸ table_eq
  py [o, hg]
  exact congrArg (ok · h) (find_attr t s)

end OidSrc
end Gost.Src
