import Verif.Source.Lemmas
import Verif.Model.Utils

/-! The functions of utils.py, as they are written, compute the functions of the model. -/

namespace Gost.Src


/-- `bytearray(v)` is a new byte array with the contents `b`, now and later. -/
def Coerces (v : Val) (h : Heap) (b : Bytes) : Prop :=
  ∀ l, newBytearray v (h ++ l) = ok (.ref (h ++ l).length) (h ++ l ++ [.bytearray b])

theorem Coerces.bytes {v : Val} {h : Heap} {b : Bytes} (e : bytesOf v h = some b) : Coerces v h b := by
  intro l
  have := bytesOf_mono e l
  rw [newBytearray_bytes (by rw [this]; rfl), this]
  rfl

theorem intsToBytes_ints (l : List Nat) (hl : ∀ x ∈ l, x < 256) :
    intsToBytes (l.map fun x => .int (x : Nat)) = some (l.map UInt8.ofNat) := by
  induction l with
  | nil => rfl
  | cons a l ih =>
    have h1 : (0 : Int) ≤ a ∧ (a : Int) < 256 := by
      have := hl a (by simp)
      omega
    simp only [List.map_cons, intsToBytes, ih fun x hx => hl x (by simp [hx]), if_pos h1, Int.toNat_natCast]

theorem Coerces.ints (l : List Nat) (hl : ∀ x ∈ l, x < 256) (h : Heap) :
    Coerces (Src.ints l) h (l.map UInt8.ofNat) := by
  intro l'
  show listBytearray (l.map fun x => .int (x : Nat)) _ = _
  rw [listBytearray, intsToBytes_ints l hl]
  rfl

theorem add_xor_any (L n : Nat) {va vb : Val} {a b : Bytes} {h : Heap} (ha : Coerces va h a)
    (hb : Coerces vb h b) :
    NewBytes (call package L (n + 1) "Utils.add_xor" [va, vb] h) h (addXor a b) := by
  have ha := ha []
  have hb := hb [.bytearray a]
  rw [List.append_nil] at ha
  rw [call_succ Fn.Utils.add_xor]
  py [Utils.f_add_xor, ha, hb]
  have hlen : (addXor a b).length = min a.length b.length := by simp [addXor]
  generalize e0 : h ++ [Obj.bytearray a] ++ [Obj.bytearray b] = h0
  have ea : bytesOf (.ref h.length) h0 = some a := by subst e0; py []
  have eb : bytesOf (.ref (h ++ [Obj.bytearray a]).length) h0 = some b := by subst e0; py []
  generalize hl : forLoop _ _ _ _ _ = o
  obtain ⟨env, h', rfl, i1, i2, i3, R, i4, i5⟩ := for_range hl (fun k env h' =>
    env "op_a" = some (.ref h.length) ∧ env "op_b" = some (.ref (h ++ [Obj.bytearray a]).length) ∧
    env "result" = some (.ref h0.length) ∧ ∃ R, Filled R (addXor a b) (· < k) ∧ h' = h0 ++ [.bytearray R])
    (by
      rintro k env _ hk ⟨i1, i2, i3, R, i4, rfl⟩
      obtain ⟨x, hx⟩ := get_some (l := a) (k := k) (by omega)
      obtain ⟨y, hy⟩ := get_some (l := b) (k := k) (by omega)
      have hR : k < R.length := by rw [i4.1, hlen]; exact hk
      refine ⟨_, _, by py [i1, i2, i3, ea, eb, hx, hy, hR]; rfl, ?_⟩
      py [i1, i2, i3]
      exact ⟨trivial, trivial, trivial, _, i4.set (x := x ^^^ y) (by simp [addXor, List.getElem?_zipWith, hx, hy])
        (by omega), rfl⟩)
    (by py []; exact ⟨trivial, trivial, trivial, _, Filled.zero _ _ hlen.symm (by omega), rfl⟩)
  subst i5
  have := i4.eq (by omega)
  subst this e0
  py [i3]
  exact .last (((Ext.refl _).add _).add _) _

theorem add_xor_ok (L n : Nat) {va vb : Val} {a b : Bytes} {h : Heap} (ha : bytesOf va h = some a)
    (hb : bytesOf vb h = some b) :
    NewBytes (call package L (n + 1) "Utils.add_xor" [va, vb] h) h (addXor a b) :=
  add_xor_any L n (.bytes ha) (.bytes hb)

/-- The argument as the model sees it. -/
def pyVal (v : Val) (h : Heap) : PyVal :=
  match v with
  | .bytes b => .bytes b
  | v =>
    match bytesOf v h with
    | some b => .bytearray b
    | none => .other

theorem pyVal_data (v : Val) (h : Heap) : (pyVal v h).data? = bytesOf v h := by
  unfold pyVal
  split
  · rfl
  · split <;> simp_all [PyVal.data?]

theorem check_value_ok (L n : Nat) (v : Val) (size : Nat) (h : Heap) :
    call package L (n + 1) "Utils.check_value" [v, .int size] h =
      ok (.bool (checkValue (pyVal v h) size)) h := by
  rw [call_succ Fn.Utils.check_value]
  unfold checkValue
  rw [pyVal_data]
  cases e : bytesOf v h with
  | none => py [Utils.f_check_value, e]
  | some b =>
    by_cases hl : (b.length : Int) = size
    · have : (b.length == size) = true := by simp; omega
      py [Utils.f_check_value, e, hl, decide_true, this]
    · have : (b.length == size) = false := by simp; omega
      py [Utils.f_check_value, e, hl, decide_false, this]

theorem msb_ok (L n : Nat) {v : Val} {b : Bytes} {x : UInt8} {h : Heap} (e : bytesOf v h = some b)
    (hx : msb b = .ok x) : call package L (n + 1) "Utils.msb" [v] h = ok (.int x.toNat) h := by
  rw [call_succ Fn.Utils.msb]
  cases b with
  | nil => cases hx
  | cons y b =>
    cases hx
    have := getItem_bytes (v := v) (h := h) (k := 0) (by rw [e]; rfl)
    rw [e] at this
    py [Utils.f_msb]
    py [show getItem v (.int 0) h = _ from this]
    py [Option.getD_some, List.getElem?_cons_zero]
    rw [UInt8.toNat_and]
    rfl

theorem zero_fill_ok (L n : Nat) {v : Val} {b : Bytes} {h : Heap} (e : bytesOf v h = some b) :
    NewBytes (call package L (n + 1) "Utils.zero_fill" [v] h) h (zeroFill b) := by
  rw [call_succ Fn.Utils.zero_fill]
  py [Utils.f_zero_fill, e]
  exact .last (Ext.refl _) _

/-- `zero_fill` of anything else. -/
theorem zero_fill_other (L n : Nat) {v : Val} {h : Heap} (e : bytesOf v h = none) :
    call package L (n + 1) "Utils.zero_fill" [v] h = ok (.bytes []) h := by
  rw [call_succ Fn.Utils.zero_fill]
  py [Utils.f_zero_fill, e]

theorem bytearray_to_int_ok (L n : Nat) {v : Val} {b : Bytes} {h : Heap} (e : bytesOf v h = some b) :
    call package L (n + 1) "Utils.bytearray_to_int" [v] h = ok (.int (bytesToInt b)) h := by
  rw [call_succ Fn.Utils.bytearray_to_int]
  py [Utils.f_bytearray_to_int, e]
  rfl

theorem compare_ok (L n : Nat) {va vb : Val} {a b : Bytes} {h : Heap} (ha : bytesOf va h = some a)
    (hb : bytesOf vb h = some b) :
    ∃ h', call package L (n + 1) "Utils.compare" [va, vb] h = ok (.bool (compare a b)) h' ∧ Ext h h' := by
  rw [call_succ Fn.Utils.compare]
  unfold compare
  by_cases hlen : a.length = b.length
  · have e1 : (a.length != b.length) = false := by simp [hlen]
    py [Utils.f_compare, ha, hb, show ((a.length : Int) = b.length) = True by simp [hlen], decide_true, e1]
    have ea : bytesOf (.ref h.length) (h ++ [Obj.bytearray a] ++ [Obj.bytearray b]) = some a := by py []
    have eb : bytesOf (.ref (h ++ [Obj.bytearray a]).length) (h ++ [Obj.bytearray a] ++ [Obj.bytearray b])
      = some b := by py []
    generalize e0 : h ++ [Obj.bytearray a] ++ [Obj.bytearray b] = h0 at ea eb
    generalize hl : forLoop _ _ _ _ _ = o
    let f := fun (acc : Nat) (x : UInt8 × UInt8) => acc + (x.1 ^^^ x.2).toNat
    obtain ⟨env, h', rfl, i1, i2, i3, rfl⟩ := for_enum hl (fun k env h' =>
      env "op_a" = some (.ref h.length) ∧ env "op_b" = some (.ref (h ++ [Obj.bytearray a]).length) ∧
      env "res_check" = some (.int (((a.zip b).take k).foldl f 0 : Nat)) ∧ h' = h0)
      (by
        rintro k v env _ hk ⟨i1, i2, i3, rfl⟩
        have hk' : k < a.length := by
          rcases Nat.lt_or_ge k a.length with h1 | h1
          · exact h1
          · rw [List.getElem?_eq_none (by simpa using h1)] at hk
            cases hk
        obtain ⟨x, hx⟩ := get_some (l := a) (k := k) hk'
        obtain ⟨y, hy⟩ := get_some (l := b) (k := k) (by omega)
        refine ⟨_, _, by py [i1, i2, i3, ea, eb, hx, hy]; rfl, ?_⟩
        rw [foldl_take_succ (x := (x, y)) f 0 (by simp [List.zip, List.getElem?_zipWith, hx, hy])]
        py [i1, i2, i3]
        refine ⟨trivial, trivial, ?_, trivial⟩
        simp [f])
      (by py []; exact ⟨trivial, trivial, rfl, trivial⟩)
    py [i3]
    refine ⟨h', ?_, ⟨_, by rw [← e0, List.append_assoc]⟩⟩
    rw [List.take_of_length_le (by simp [List.length_zip, hlen])]
    congr 2
    show _ = (List.foldl f 0 (a.zip b) == 0)
    generalize List.foldl f 0 (a.zip b) = m
    cases m <;> simp <;> omega
  · have e1 : (a.length != b.length) = true := by simp [hlen]
    py [Utils.f_compare, ha, hb, show ((a.length : Int) = b.length) = False by simp; omega,
      decide_false, e1]
    exact ⟨_, rfl, ⟨_, by rw [List.append_assoc]⟩⟩

theorem compare_to_zero_ok (L n : Nat) {va : Val} {a : Bytes} {h : Heap} (ha : bytesOf va h = some a) :
    ∃ h', call package L (n + 1) "Utils.compare_to_zero" [va] h = ok (.bool (compareToZero a)) h' ∧
      Ext h h' := by
  rw [call_succ Fn.Utils.compare_to_zero]
  unfold compareToZero
  py [Utils.f_compare_to_zero, ha]
  have ea : bytesOf (.ref h.length) (h ++ [Obj.bytearray a]) = some a := by py []
  generalize e0 : h ++ [Obj.bytearray a] = h0 at ea
  generalize hl : forLoop _ _ _ _ _ = o
  let f := fun (acc : Nat) (x : UInt8) => acc + (x ^^^ 0).toNat
  obtain ⟨env, h', rfl, i1, i3, rfl⟩ := for_enum hl (fun k env h' =>
    env "value" = some (.ref h.length) ∧
    env "res_check" = some (.int ((a.take k).foldl f 0 : Nat)) ∧ h' = h0)
    (by
      rintro k v env _ hk ⟨i1, i3, rfl⟩
      have hk' : k < a.length := by
        rcases Nat.lt_or_ge k a.length with h1 | h1
        · exact h1
        · rw [List.getElem?_eq_none (by simpa using h1)] at hk
          cases hk
      obtain ⟨x, hx⟩ := get_some (l := a) (k := k) hk'
      refine ⟨_, _, by
        py [i1, i3, ea, hx]
        rw [show arith .bxor (x.toNat : Int) 0 = .ok ((x ^^^ 0).toNat : Int) from arith_bxor_nat _ 0]
        py [i3]
        rfl, ?_⟩
      rw [foldl_take_succ f 0 hx]
      py [i1, i3]
      refine ⟨trivial, ?_, trivial⟩
      simp [f])
    (by py []; exact ⟨trivial, rfl, trivial⟩)
  py [i3]
  refine ⟨h', ?_, ⟨_, e0.symm⟩⟩
  rw [List.take_of_length_le (by simp)]
  congr 2
  show _ = (List.foldl f 0 a == 0)
  generalize List.foldl f 0 a = m
  cases m <;> simp <;> omega

theorem byte_of_int (x : Int) (p : Nat) :
    (intAnd x (255 * 2 ^ (p * 8))).fdiv (2 ^ (p * 8)) = (x / 256 ^ p) % 256 := by
  have hs : (2 : Nat) ^ (p * 8) = 256 ^ p := by rw [Nat.mul_comm, Nat.pow_mul]
  have hc : (255 * 2 ^ (p * 8) : Int) = ((255 <<< (p * 8) : Nat) : Int) := by
    rw [Nat.shiftLeft_eq]; simp
  have hi : (2 : Int) ^ (p * 8) = ((2 ^ (p * 8) : Nat) : Int) := by simp
  have hj : (256 : Int) ^ p = ((256 ^ p : Nat) : Int) := by simp
  have hand : ∀ m : Nat, ((255 <<< (p * 8)) &&& m) / 2 ^ (p * 8) = m / 256 ^ p % 256 := by
    intro m
    rw [← Nat.shiftRight_eq_div_pow, Nat.shiftRight_and_distrib, Nat.shiftLeft_shiftRight,
      Nat.shiftRight_eq_div_pow, hs, Nat.and_comm]
    exact Nat.and_two_pow_sub_one_eq_mod _ 8
  rw [hc, hi, hj]
  cases x with
  | ofNat m =>
    show Int.fdiv ((m &&& (255 <<< (p * 8)) : Nat) : Int) _ = _
    rw [Nat.and_comm]
    have := hand m
    rw [Int.fdiv_eq_ediv_of_nonneg _ (Int.natCast_nonneg _)]
    rw [show (Int.ofNat m) = (m : Int) from rfl]
    rw [← Int.natCast_ediv, this]
    simp
  | negSucc m =>
    show Int.fdiv (((255 <<< (p * 8)) ^^^ ((255 <<< (p * 8)) &&& m) : Nat) : Int) _ = _
    rw [Int.fdiv_eq_ediv_of_nonneg _ (Int.natCast_nonneg _), ← Int.natCast_ediv]
    have e : ((255 <<< (p * 8)) ^^^ ((255 <<< (p * 8)) &&& m)) / 2 ^ (p * 8) = 255 - m / 256 ^ p % 256 := by
      rw [← Nat.shiftRight_eq_div_pow, Nat.shiftRight_xor_distrib, Nat.shiftLeft_shiftRight,
        Nat.shiftRight_eq_div_pow, hand]
      have h1 : m / 256 ^ p % 256 < 256 := Nat.mod_lt _ (by decide)
      generalize m / 256 ^ p % 256 = t at h1
      have : ∀ t : Fin 256, 255 ^^^ t.val = 255 - t.val := by decide +kernel
      exact this ⟨t, h1⟩
    rw [e, Int.negSucc_ediv _ (by exact_mod_cast Nat.pow_pos (by decide))]
    rw [show ((m : Int).ediv ((256 ^ p : Nat) : Int)) = ((m / 256 ^ p : Nat) : Int) from rfl]
    generalize m / 256 ^ p = t
    omega

theorem intsToBytes_map (f : Nat → Int) (l : List Nat) (hf : ∀ p, 0 ≤ f p ∧ f p < 256) :
    intsToBytes (l.map fun p => Val.int (f p)) = some (l.map fun p => UInt8.ofNat (f p).toNat) := by
  induction l with
  | nil => rfl
  | cons a l ih => simp only [List.map_cons, intsToBytes, ih, if_pos (hf a)]

theorem int_to_bytearray_ok (L n : Nat) (x : Int) (k : Nat) (h : Heap) :
    NewBytes (call package L (n + 1) "Utils.int_to_bytearray" [.int x, .int k] h) h (intToBytes x k) := by
  rw [call_succ Fn.Utils.int_to_bytearray]
  py [Utils.f_int_to_bytearray, show ((-1 : Int) = 0) = False by decide, pyRange_down]
  rw [evalComp_map (fun v => match v with
    | .int p => .int ((x / 256 ^ p.toNat) % 256)
    | v => v) _ (by
      intro v hv
      obtain ⟨p, -, rfl⟩ := List.mem_map.mp hv
      py [show ((p : Int) * 8) = ((p * 8 : Nat) : Int) by simp, byte_of_int, Int.toNat_natCast])]
  py [List.map_map, listBytearray]
  have := intsToBytes_map (fun p => x / 256 ^ p % 256) (List.range k).reverse
    (fun p => by constructor <;> omega)
  rw [show ((fun v => match v with
    | .int p => .int ((x / 256 ^ p.toNat) % 256)
    | v => v) ∘ fun k : Nat => Val.int k) = fun p : Nat => Val.int (x / 256 ^ p % 256) by
      funext p; simp]
  rw [this]
  exact .last ((Ext.refl _).add _) _

end Gost.Src
