import Verif.SourceProofs.Utils
import Verif.SourceProofs.NewOid
import Verif.Model.Streebog

/-! The methods of the class `GOST34112012`, as they are written, compute the functions of the model. -/

namespace Gost.Src

namespace Streebog

open Gost.Hash

/-! The table `_T`. -/

theorem table_eq : Hash.g_T = .tuple (tTable.map ints) := (rfl)

theorem table_rows : ∀ t, t < 8 → (tTable.getD t []).length = 256 := by decide +kernel

theorem table_length : tTable.length = 8 := by decide +kernel

theorem table_words : ∀ r ∈ tTable, ∀ x ∈ r, x < 2 ^ 64 := by decide +kernel

theorem tEntry_lt {t : Nat} (ht : t < 8) (b : UInt8) : tEntry t b < 2 ^ 64 := by
  have h1 := table_rows t ht
  have h2 : t < tTable.length := by rw [table_length]; exact ht
  have h3 : tTable.getD t [] = tTable[t] := by simp [List.getD, h2]
  have h4 : b.toNat < (tTable[t]).length := by rw [← h3, h1]; exact b.toNat_lt
  unfold tEntry
  rw [h3]
  have h5 : (tTable[t]).getD b.toNat 0 = (tTable[t])[b.toNat] := by simp [List.getD, h4]
  rw [h5]
  exact table_words _ (List.getElem_mem h2) _ (List.getElem_mem h4)

/-- `_T[t][data[k]]`. -/
def entryExpr (t k : Nat) : Expr :=
  .index (.index (.glob "Hash._T") (.int t)) (.index (.name "data") (.int k))

theorem entry_ok (L n : Nat) {env : Env} {v : Val} {h : Heap} {d : Bytes} (ed : env "data" = some v)
    (e : bytesOf v h = some d) {t k : Nat} (ht : t < 8) (hk : k < d.length) :
    eval (ctx L n) env (entryExpr t k) h = ok (.int (tEntry t (d.getD k 0))) h := by
  have h1 : getItem (.tuple (tTable.map ints)) (.int t) h = ok (ints (tTable.getD t [])) h := by
    have h2 : t < tTable.length := by rw [table_length]; exact ht
    rw [getItem_tuple, List.getElem?_map, List.getElem?_eq_getElem h2]
    simp [List.getD, h2]
  have h3 : d[k]? = some (d.getD k 0) := by simp [List.getD, hk]
  have h4 : ∀ b : UInt8, getItem (ints (tTable.getD t [])) (.int b.toNat) h = ok (.int (tEntry t b)) h := by
    intro b
    have h5 : b.toNat < (tTable.getD t []).length := by rw [table_rows t ht]; exact b.toNat_lt
    have h6 : tEntry t b = (tTable.getD t [])[b.toNat] := by
      unfold tEntry
      generalize tTable.getD t [] = l at *
      simp [List.getD, h5]
    rw [getItem_ints, List.getElem?_eq_getElem h5, h6]
  py [entryExpr, table_eq, h1, ed, e, h3, h4]

/-- The word number `j` of `_hash_lps`. -/
def wordExpr (j : Nat) : Expr :=
  .bin .bxor (.bin .bxor (.bin .bxor (.bin .bxor (.bin .bxor (.bin .bxor (.bin .bxor
    (entryExpr 0 (0 + j)) (entryExpr 1 (8 + j))) (entryExpr 2 (16 + j))) (entryExpr 3 (24 + j)))
    (entryExpr 4 (32 + j))) (entryExpr 5 (40 + j))) (entryExpr 6 (48 + j))) (entryExpr 7 (56 + j))

theorem word_ok (L n : Nat) {env : Env} {v : Val} {h : Heap} {d : Bytes} (ed : env "data" = some v)
    (e : bytesOf v h = some d) (hd : 64 ≤ d.length) {j : Nat} (hj : j < 8) :
    eval (ctx L n) env (wordExpr j) h = ok (.int (lpsWord d j)) h := by
  have en := fun t k (ht : t < 8) (hk : k < 64) => entry_ok L n ed e ht (k := k) (by omega)
  py [wordExpr, en 0 (0 + j) (by omega) (by omega), en 1 (8 + j) (by omega) (by omega),
    en 2 (16 + j) (by omega) (by omega), en 3 (24 + j) (by omega) (by omega),
    en 4 (32 + j) (by omega) (by omega), en 5 (40 + j) (by omega) (by omega),
    en 6 (48 + j) (by omega) (by omega), en 7 (56 + j) (by omega) (by omega)]
  rfl

theorem lpsWord_lt (d : Bytes) (j : Nat) : lpsWord d j < 2 ^ 64 := by
  unfold lpsWord
  refine Nat.xor_lt_two_pow (Nat.xor_lt_two_pow (Nat.xor_lt_two_pow (Nat.xor_lt_two_pow (Nat.xor_lt_two_pow
    (Nat.xor_lt_two_pow (Nat.xor_lt_two_pow ?_ ?_) ?_) ?_) ?_) ?_) ?_) ?_
  all_goals exact tEntry_lt (by decide) _

theorem toBytes_little {m : Nat} (hm : m < 2 ^ 64) (h : Heap) :
    toBytes m 8 "little" h = ok (.bytes (toBytes8le m)) h := by
  have h1 : ¬ ((8 : Int) < 0) := by decide
  have h2 : ¬ ((m : Int) < 0 ∨ (256 : Int) ^ (8 : Int).toNat ≤ m) := by
    have : (256 : Int) ^ (8 : Int).toNat = 2 ^ 64 := by decide
    rw [this]
    omega
  have h3 : ¬ ("little" = "big") := by decide
  simp only [toBytes, if_neg h1, if_neg h2, if_neg h3, Int.toNat_natCast]
  rfl

/-- `internal[8 * j::] = (...).to_bytes(8, byteorder='little')`. -/
def wordStmt (j : Nat) : Stmt :=
  .assign (.slice (.name "internal") (some (.int ((8 * j : Nat) : Int))) none)
    (.meth (wordExpr j) "to_bytes" [.int 8, .str "little"])

/-- The body of `_hash_lps`. -/
theorem lps_body : GOST34112012.m__hash_lps.body =
    .assign (.name "internal") (.builtin "bytearray" [.glob "Hash._BLOCK_SIZE"]) ::
      ((List.range 8).map wordStmt ++ [.ret (.name "internal")]) := rfl

/-- What is in `internal` after `k` of the words. -/
def lpsPart (d : Bytes) (k : Nat) : Bytes :=
  if k = 0 then List.replicate 64 0 else (List.range k).flatMap fun j => toBytes8le (lpsWord d j)

theorem lpsWords_length (d : Bytes) (k : Nat) :
    ((List.range k).flatMap fun j => toBytes8le (lpsWord d j)).length = 8 * k := by
  induction k with
  | zero => rfl
  | succ k ih =>
    rw [List.range_succ, List.flatMap_append, List.length_append, ih]
    simp [toBytes8le]
    omega

theorem lpsPart_succ (d : Bytes) (k : Nat) :
    pySliceAssign (lpsPart d k) ((8 * k : Nat) : Int) (lpsPart d k).length (toBytes8le (lpsWord d k)) =
      lpsPart d (k + 1) := by
  have h1 : (lpsPart d (k + 1)) = ((List.range k).flatMap fun j => toBytes8le (lpsWord d j)) ++
      toBytes8le (lpsWord d k) := by
    rw [lpsPart, if_neg (by omega), List.range_succ, List.flatMap_append]
    simp
  have h2 : (lpsPart d k).take (8 * k) = ((List.range k).flatMap fun j => toBytes8le (lpsWord d j)) := by
    unfold lpsPart
    split
    · rename_i h; subst h; rfl
    · rw [List.take_of_length_le (by rw [lpsWords_length]; exact Nat.le_refl _)]
  have h3 : 8 * k ≤ (lpsPart d k).length := by
    unfold lpsPart
    split
    · rename_i h; subst h; simp
    · rw [lpsWords_length]
      exact Nat.le_refl _
  have h4 : sliceBound (lpsPart d k).length ((8 * k : Nat) : Int) = 8 * k := by
    unfold sliceBound
    generalize (lpsPart d k).length = m at *
    simp only [Int.toNat_natCast]
    split <;> omega
  have h5 : sliceBound (lpsPart d k).length ((lpsPart d k).length : Int) = (lpsPart d k).length := by
    unfold sliceBound
    generalize (lpsPart d k).length = m at *
    simp only [Int.toNat_natCast]
    split <;> omega
  show List.take (sliceBound _ _) _ ++ _ ++ List.drop (max (sliceBound _ _) (sliceBound _ _)) _ = _
  rw [h4, h5, h1, h2, Nat.max_eq_right h3, List.drop_length, List.append_nil]

/-- `v[lo:] = w`. -/
theorem setSlice_from {r : Nat} {h : Heap} {b y : Bytes} {w : Val} (e : h[r]? = some (.bytearray b))
    (ew : bytesOf w h = some y) (lo : Int) :
    setSlice (.ref r) (some lo) none w h = ok () (h.set r (.bytearray (pySliceAssign b lo b.length y))) := by
  simp only [setSlice, e, ew, Option.getD_some, Option.getD_none]

theorem callMeth_to_bytes (C : Ctx) (x n : Int) (order : String) (h : Heap) :
    callMeth C (.int x) "to_bytes" [.int n, .str order] h = toBytes x n order h := (rfl)

theorem words_ok (L n : Nat) {env : Env} {v : Val} {h : Heap} {d : Bytes} (ed : env "data" = some v)
    (ei : env "internal" = some (.ref h.length)) (e : bytesOf v h = some d) (hd : 64 ≤ d.length) :
    ∀ k, k ≤ 8 → ∀ rest,
    execs (ctx L n) ((List.range k).map wordStmt ++ rest) env (h ++ [.bytearray (lpsPart d 0)]) =
      execs (ctx L n) rest env (h ++ [.bytearray (lpsPart d k)])
  | 0, _, rest => rfl
  | k + 1, hk, rest => by
    rw [List.range_succ, List.map_append, List.append_assoc, words_ok L n ed ei e hd k (by omega)]
    rw [List.map_singleton, List.singleton_append]
    have h1 := word_ok L n ed (bytesOf_mono e [Obj.bytearray (lpsPart d k)]) hd (j := k) (by omega)
    have h2 := toBytes_little (lpsWord_lt d k) (h ++ [.bytearray (lpsPart d k)])
    have h3 := setSlice_from (get_last h (.bytearray (lpsPart d k)))
      (bytesOf_bytes (toBytes8le (lpsWord d k)) _) ((8 * k : Nat) : Int)
    rw [lpsPart_succ, set_last] at h3
    py [wordStmt, h1, ei]
    rw [callMeth_to_bytes, h2]
    py [ei]
    rw [h3]
    py []

theorem lps_ok (L n : Nat) {v : Val} {h : Heap} {d : Bytes} (e : bytesOf v h = some d)
    (hd : 64 ≤ d.length) :
    NewBytes (call package L (n + 1) "GOST34112012._hash_lps" [v] h) h (lps d) := by
  rw [call_succ Fn.GOST34112012._hash_lps]
  py [lps_body, show GOST34112012.m__hash_lps.params = ["data"] from rfl]
  rw [show List.replicate 64 0 = lpsPart d 0 from rfl, words_ok L n (by py []) (by py []) e hd 8 (Nat.le_refl _)]
  py []
  exact .last (Ext.refl _) _

/-! Addition modulo `2 ^ 512`. -/

/-- One turn of the loop of `_hash_add_512`. -/
def addStep (a b : Bytes) (st : Nat × Bytes) (i : Nat) : Nat × Bytes :=
  let c := (a.getD i 0).toNat + (b.getD i 0).toNat + (st.1 >>> 8)
  (c, st.2 ++ [UInt8.ofNat (c &&& 0xff)])

theorem addSteps_length (a b : Bytes) (k : Nat) :
    ((List.range k).foldl (addStep a b) (0, [])).2.length = k := by
  induction k with
  | zero => rfl
  | succ k ih =>
    rw [List.range_succ, List.foldl_append]
    simp [addStep, ih]

theorem add_512_ok (L n : Nat) {va vb : Val} {a b : Bytes} {h : Heap} (ha : bytesOf va h = some a)
    (hb : bytesOf vb h = some b) (la : 64 ≤ a.length) (lb : 64 ≤ b.length) :
    NewBytes (call package L (n + 1) "GOST34112012._hash_add_512" [va, vb] h) h (add512 a b) := by
  rw [call_succ Fn.GOST34112012._hash_add_512]
  py [GOST34112012.m__hash_add_512, ha, hb]
  generalize e0 : h ++ [Obj.bytearray a] ++ [Obj.bytearray b] = h0
  have ea : bytesOf (.ref h.length) h0 = some a := by subst e0; py []
  have eb : bytesOf (.ref (h ++ [Obj.bytearray a]).length) h0 = some b := by subst e0; py []
  generalize hl : forLoop _ _ _ _ _ = o
  obtain ⟨env, h', rfl, i1, i2, i3, i4, i5⟩ := for_range (n := 64) hl (fun k env h' =>
    env "op_a" = some (.ref h.length) ∧ env "op_b" = some (.ref (h ++ [Obj.bytearray a]).length) ∧
    env "result" = some (.ref h0.length) ∧
    env "op_c" = some (.int (((List.range k).foldl (addStep a b) (0, [])).1 : Nat)) ∧
    h' = h0 ++ [.bytearray (partly 64 ((List.range k).foldl (addStep a b) (0, [])).2)])
    (by
      rintro k env _ hk ⟨i1, i2, i3, i4, rfl⟩
      rw [List.range_succ, List.foldl_append]
      have hx : a[k]? = some (a.getD k 0) := by simp [List.getD, show k < a.length by omega]
      have hy : b[k]? = some (b.getD k 0) := by simp [List.getD, show k < b.length by omega]
      have hs := addSteps_length a b k
      generalize (List.range k).foldl (addStep a b) (0, []) = st at *
      have hset := fun x => setItem_partly (n := 64) (acc := st.2) (by omega) x h0
      rw [hs] at hset
      have hlow : ∀ c : Nat, Val.int ((c &&& 255 : Nat) : Int) = .int (UInt8.ofNat (c &&& 255)).toNat := by
        intro c
        have : c &&& 255 < 256 := Nat.lt_of_le_of_lt Nat.and_le_right (by decide)
        rw [UInt8.toNat_ofNat_of_lt' this]
      refine ⟨_, _, by
        py [i1, i2, i3, i4, ea, eb, hx, hy, arith_shr_lit, arith_add_nat, arith_and_lit]
        rw [show (OfNat.ofNat 255 : Nat) = 255 from rfl, hlow, hset]
        py []
        rfl, ?_⟩
      py [i1, i2, i3]
      exact ⟨trivial, trivial, trivial, rfl, rfl⟩)
    (by py []; exact ⟨trivial, trivial, trivial, rfl, rfl⟩)
  subst i5
  rw [partly_full (addSteps_length a b 64)]
  subst e0
  py [i3]
  exact .last (((Ext.refl _).add _).add _) _

/-! The round keys and the compression function. -/

theorem addXor_length (a b : Bytes) : (addXor a b).length = min a.length b.length := by simp [addXor]

theorem lps_length (d : Bytes) : (lps d).length = 64 := lpsWords_length d 8

theorem consts_eq : Hash.g_C = .tuple (cTable.map ints) := (rfl)

theorem consts_length : cTable.length = 12 := by decide +kernel

theorem consts_rows : ∀ r ∈ cTable, r.length = 64 ∧ ∀ x ∈ r, x < 256 := by decide +kernel

theorem const_ok {i : Nat} (hi : i < 12) (h : Heap) :
    ∃ v, getItem Hash.g_C (.int i) h = ok v h ∧ Coerces v h (cConst i) ∧ (cConst i).length = 64 := by
  have h2 : i < cTable.length := by rw [consts_length]; exact hi
  have h3 : cTable.getD i [] = cTable[i] := by simp [List.getD, h2]
  have h4 := consts_rows _ (List.getElem_mem h2)
  refine ⟨ints cTable[i], ?_, ?_, ?_⟩
  · rw [consts_eq, getItem_tuple, List.getElem?_map, List.getElem?_eq_getElem h2]
    rfl
  · rw [cConst, h3]
    exact .ints _ h4.2 h
  · rw [cConst, h3, List.length_map]
    exact h4.1

theorem get_key_ok (L n : Nat) {self : Nat} {attrs : List (String × Val)} {h : Heap} {v : Val} {k : Bytes} {i : Nat}
    (o : h[self]? = some (.inst "GOST34112012" attrs)) (e : bytesOf v h = some k) (hk : 64 ≤ k.length)
    (hi : i < 12) :
    NewBytes (call package L (n + 2) "GOST34112012._hash_get_key" [.ref self, v, .int i] h) h (getKey k i) := by
  rw [call_succ Fn.GOST34112012._hash_get_key]
  obtain ⟨c, hc, hcc, hcl⟩ := const_ok hi (h ++ [Obj.bytearray (List.replicate 64 0)])
  obtain ⟨r, l, e1, hr, b1⟩ := (add_xor_any L n (.bytes (bytesOf_mono e [Obj.bytearray (List.replicate 64 0)])) hcc).elim
  py [GOST34112012.m__hash_get_key, hc, e1]
  have h1 := lps_ok L n b1 (by rw [addXor_length]; omega)
  obtain ⟨r', l', e2, hr', b2⟩ := h1.elim
  py [o, e2]
  exact .intro ((((Ext.refl _).add _).add _).add _) (by simp at hr'; omega) b2

/-- One round of `_hash_e`. -/
def eStep (st : Bytes × Bytes) (i : Nat) : Bytes × Bytes :=
  (getKey st.1 i, addXor (lps st.2) (getKey st.1 i))

theorem e_ok (L n : Nat) {self : Nat} {attrs : List (String × Val)} {h : Heap} {vk vd : Val} {k d : Bytes}
    (o : h[self]? = some (.inst "GOST34112012" attrs)) (ek : bytesOf vk h = some k) (ed : bytesOf vd h = some d)
    (hk : 64 ≤ k.length) (hd : 64 ≤ d.length) :
    NewBytes (call package L (n + 3) "GOST34112012._hash_e" [.ref self, vk, vd] h) h (hashE k d) ∧
      (hashE k d).length = 64 := by
  rw [call_succ Fn.GOST34112012._hash_e]
  obtain ⟨r, l, e1, hr, b1⟩ := (add_xor_ok L (n + 1) ek ed).elim
  py [GOST34112012.m__hash_e, e1]
  have key_length : ∀ k i, (getKey k i).length = 64 := fun k i => lps_length _
  generalize hl : forLoop _ _ _ _ _ = res
  obtain ⟨env, h', rfl, x, i1, vk', r', i2, i3, hr', i4, i5, i6, i7⟩ := for_range (n := 12) hl (fun j env h' =>
    Ext h h' ∧ env "self" = some (.ref self) ∧ ∃ vk r, env "k" = some vk ∧
      env "internal" = some (.ref r) ∧ h.length ≤ r ∧
      bytesOf vk h' = some ((List.range j).foldl eStep (k, addXor k d)).1 ∧
      bytesOf (.ref r) h' = some ((List.range j).foldl eStep (k, addXor k d)).2 ∧
      64 ≤ ((List.range j).foldl eStep (k, addXor k d)).1.length ∧
      64 ≤ ((List.range j).foldl eStep (k, addXor k d)).2.length)
    (by
      rintro j env h' hj ⟨x, i1, vk, r, i2, i3, hr, i4, i5, i6, i7⟩
      rw [List.range_succ, List.foldl_append]
      generalize (List.range j).foldl eStep (k, addXor k d) = st at *
      have o' := x.get o
      obtain ⟨r1, l1, e1, hr1, b1⟩ := (lps_ok L (n + 1) i5 i7).elim
      obtain ⟨r2, l2, e2, hr2, b2⟩ := (get_key_ok L n (get_mono o' l1) (bytesOf_mono i4 l1) i6 hj).elim
      obtain ⟨r3, l3, e3, hr3, b3⟩ := (add_xor_ok L (n + 1) (bytesOf_mono b1 l2) b2).elim
      refine ⟨_, _, by py [i1, i2, i3, o', e1, e2, e3]; rfl, ?_⟩
      py [i1]
      refine ⟨((x.add _).add _).add _, trivial, _, _, rfl, rfl, ?_, bytesOf_mono b2 l3, b3, ?_, ?_⟩
      · have := x.length
        simp at hr3
        omega
      · exact Nat.le_of_eq (key_length _ _).symm
      · show 64 ≤ (addXor _ _).length
        rw [addXor_length, lps_length, key_length]
        decide)
    (by py []; exact ⟨(Ext.refl _).add _, trivial, _, _, rfl, rfl, hr, bytesOf_mono ek l, b1, hk, by
          show 64 ≤ (addXor _ _).length
          rw [addXor_length]; omega⟩)
  py [i3]
  refine ⟨.intro x hr' i5, ?_⟩
  show (((List.range 12).foldl eStep (k, addXor k d)).2).length = 64
  rw [show List.range 12 = List.range (11 + 1) from rfl, List.range_succ, List.foldl_append]
  show (addXor _ _).length = 64
  rw [addXor_length, lps_length, key_length]
  decide

theorem g_ok (L n : Nat) {self : Nat} {attrs : List (String × Val)} {h : Heap} {vh vn vd : Val} {hh hn d : Bytes}
    (o : h[self]? = some (.inst "GOST34112012" attrs)) (eh : bytesOf vh h = some hh) (en : bytesOf vn h = some hn)
    (ed : bytesOf vd h = some d) (lh : hh.length = 64) (ln : 64 ≤ hn.length) (ld : 64 ≤ d.length) :
    NewBytes (call package L (n + 4) "GOST34112012._hash_g" [.ref self, vh, vn, vd] h) h (hashG hh hn d) ∧
      (hashG hh hn d).length = 64 := by
  rw [call_succ Fn.GOST34112012._hash_g]
  obtain ⟨r1, l1, e1, hr1, b1⟩ := (add_xor_ok L (n + 2) en eh).elim
  obtain ⟨r2, l2, e2, hr2, b2⟩ := (lps_ok L (n + 2) b1 (by rw [addXor_length]; omega)).elim
  have h3 := e_ok L n (get_mono (get_mono o l1) l2) b2 (bytesOf_mono (bytesOf_mono ed l1) l2)
    (by rw [lps_length]; omega) ld
  obtain ⟨r3, l3, e3, hr3, b3⟩ := h3.1.elim
  obtain ⟨r4, l4, e4, hr4, b4⟩ := (add_xor_ok L (n + 2) b3 (bytesOf_mono (bytesOf_mono (bytesOf_mono eh l1) l2) l3)).elim
  obtain ⟨r5, l5, e5, hr5, b5⟩ := (add_xor_ok L (n + 2) b4
    (bytesOf_mono (bytesOf_mono (bytesOf_mono (bytesOf_mono ed l1) l2) l3) l4)).elim
  py [GOST34112012.m__hash_g, e1, o, e2, e3, e4, e5]
  refine ⟨.intro (((((Ext.refl _).add _).add _).add _).add _ |>.add _) (by simp at hr5; omega) b5, ?_⟩
  show (addXor (addXor (hashE _ _) _) _).length = 64
  rw [addXor_length, addXor_length, h3.2]
  omega

end Streebog

end Gost.Src
