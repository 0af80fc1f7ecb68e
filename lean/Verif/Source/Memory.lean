import Verif.Source.Agree

/-! Programs which change cells of the memory. -/

namespace Gost.Src

/-! Cells. -/

theorem get_set_same {h : Heap} {r : Nat} (o : Obj) (e : (h[r]?).isSome = true) :
    (h.set r o)[r]? = some o := by
  obtain ⟨b, hb⟩ := Option.isSome_iff_exists.mp e
  rw [List.getElem?_set_self (get_lt hb)]

theorem get_set_other {h : Heap} {r r' : Nat} (o : Obj) (e : r ≠ r') : (h.set r o)[r']? = h[r']? :=
  List.getElem?_set_ne e

attribute [pysem] get_set_same

/-- A cell which is not a byte array. -/
def noBytes : Option Obj → Bool
  | some (.bytearray _) => false
  | _ => true

@[pysem] theorem noBytes_inst (c : String) (l : List (String × Val)) :
    noBytes (some (.inst c l)) = true := (rfl)

@[pysem] theorem noBytes_list (l : List Val) : noBytes (some (.list l)) = true := (rfl)

/-- Changes of lists and objects do not touch byte arrays. -/
@[pysem] theorem bytesOf_set {h : Heap} {r : Nat} {o : Obj} (v : Val) (e : noBytes h[r]? = true)
    (e' : noBytes (some o) = true) : bytesOf v (h.set r o) = bytesOf v h := by
  cases v with
  | ref m =>
    unfold bytesOf
    by_cases hm : r = m
    · subst hm
      rcases Nat.lt_or_ge r h.length with hr | hr
      · simp only [List.getElem?_set_self hr]
        cases h1 : h[r]? with
        | none => cases o <;> first | rfl | cases e'
        | some o' =>
          rw [h1] at e
          cases o <;> cases o' <;> first | rfl | (cases e; done) | (cases e'; done)
      · rw [List.set_eq_of_length_le hr]
    · simp only [List.getElem?_set_ne hm]
  | _ => rfl

theorem BytesList.set {vs : List Val} {h : Heap} {ks : List Bytes} (b : BytesList vs h ks) {r : Nat}
    {o : Obj} (e : noBytes h[r]? = true) (e' : noBytes (some o) = true) :
    BytesList vs (h.set r o) ks := by
  unfold BytesList at *
  rw [← b]
  refine List.map_congr_left fun v _ => ?_
  rw [bytesOf_set v e e']

theorem BytesList.nil (h : Heap) : BytesList [] h [] := rfl

theorem BytesList.snoc {vs : List Val} {h : Heap} {ks : List Bytes} (b : BytesList vs h ks) {v : Val}
    {k : Bytes} (e : bytesOf v h = some k) : BytesList (vs ++ [v]) h (ks ++ [k]) := by
  unfold BytesList at *
  simp [b, e]

theorem BytesList.setAt {vs : List Val} {h : Heap} {ks : List Bytes} (b : BytesList vs h ks) (k : Nat)
    {v : Val} {x : Bytes} (e : bytesOf v h = some x) : BytesList (vs.set k v) h (ks.set k x) := by
  unfold BytesList at *
  rw [List.map_set, List.map_set, b, e]

theorem BytesList.append {vs ws : List Val} {h : Heap} {ks ls : List Bytes} (b : BytesList vs h ks)
    (c : BytesList ws h ls) : BytesList (vs ++ ws) h (ks ++ ls) := by
  unfold BytesList at *
  rw [List.map_append, List.map_append, b, c]

theorem BytesList.getNat {vs : List Val} {h : Heap} {ks : List Bytes} (b : BytesList vs h ks) {k : Nat}
    (hk : k < ks.length) : ∃ w, vs[k]? = some w ∧ bytesOf w h = some ks[k] := by
  have h1 := congrArg (fun l => l[k]?) b
  simp only [List.getElem?_map, List.getElem?_eq_getElem hk, Option.map_some] at h1
  cases h2 : vs[k]? with
  | none => rw [h2] at h1; cases h1
  | some w =>
    rw [h2] at h1
    exact ⟨w, rfl, by simpa using h1⟩

/-- `v[k] = x` on a list. -/
theorem setItem_list {r : Nat} {h : Heap} {vs : List Val} (e : h[r]? = some (.list vs)) {k : Nat}
    (hk : k < vs.length) (x : Val) :
    setItem (.ref r) (.int k) x h = ok () (h.set r (.list (vs.set k x))) := by
  have h1 : ¬ ((k : Int) < 0) := by omega
  have h2 : (0 : Int) ≤ k ∧ (k : Int) < vs.length := by omega
  simp only [setItem, e, position, if_neg h1, if_pos h2, Int.toNat_natCast]

theorem getItem_listNat {r : Nat} {h : Heap} {vs : List Val} (e : h[r]? = some (.list vs)) {k : Nat}
    {w : Val} (hw : vs[k]? = some w) : getItem (.ref r) (.int k) h = ok w h := by
  rw [getItem_list e, pyGet_nat hw]

theorem take_map_set {α : Type} (f : α → α) {l : List α} {k : Nat} (hk : k < l.length) :
    ((l.take k).map f ++ l.drop k).set k (f l[k]) = (l.take (k + 1)).map f ++ l.drop (k + 1) := by
  rw [List.take_succ_eq_append_getElem hk, List.map_append, ← List.getElem_cons_drop hk]
  rw [List.set_append_right _ _ (by simp; omega)]
  simp [Nat.min_eq_left (Nat.le_of_lt hk)]
  rw [← List.getElem_cons_drop hk, List.set_cons_zero]

/-- Different kinds of objects are different cells. -/
theorem ne_of_get {h : Heap} {r r' : Nat} {o o' : Obj} (e : h[r]? = some o) (e' : h[r']? = some o')
    (n : o ≠ o') : r ≠ r' := by
  rintro rfl
  rw [e] at e'
  exact n (Option.some.inj e')

theorem Ext.set {h h' : Heap} (a : Ext h h') {r : Nat} (hr : h.length ≤ r) (o : Obj) :
    Ext h (h'.set r o) := by
  obtain ⟨l, rfl⟩ := a
  exact ⟨l.set (r - h.length) o, by rw [List.set_append_right _ _ hr]⟩

theorem Ext.get {h h' : Heap} (a : Ext h h') {r : Nat} {o : Obj} (e : h[r]? = some o) :
    h'[r]? = some o := by
  obtain ⟨l, rfl⟩ := a
  exact get_mono e l

theorem Ext.bytesList {h h' : Heap} (a : Ext h h') {vs : List Val} {ks : List Bytes}
    (b : BytesList vs h ks) : BytesList vs h' ks := by
  obtain ⟨l, rfl⟩ := a
  exact b.mono l

/-- Only the cells `W` of `h` have changed. -/
def Frame (W : List Nat) (h h' : Heap) : Prop :=
  h.length ≤ h'.length ∧ ∀ r, r < h.length → r ∉ W → h'[r]? = h[r]?

theorem Ext.frame {h h' : Heap} (a : Ext h h') (W : List Nat) : Frame W h h' := by
  obtain ⟨l, rfl⟩ := a
  exact ⟨by simp, fun r hr _ => List.getElem?_append_left hr⟩

theorem Frame.ext {h h' : Heap} (f : Frame [] h h') : Ext h h' := by
  refine ⟨h'.drop h.length, ?_⟩
  have : h'.take h.length = h := by
    apply List.ext_getElem?
    intro r
    rcases Nat.lt_or_ge r h.length with hr | hr
    · rw [List.getElem?_take_of_lt hr, f.2 r hr (by simp)]
    · rw [List.getElem?_eq_none hr, List.getElem?_eq_none]
      simp
      omega
  conv => lhs; rw [← List.take_append_drop h.length h', this]

theorem Frame.refl (W : List Nat) (h : Heap) : Frame W h h := (Ext.refl h).frame W

theorem Frame.trans {W : List Nat} {h h' h'' : Heap} (a : Frame W h h') (b : Frame W h' h'') :
    Frame W h h'' :=
  ⟨Nat.le_trans a.1 b.1, fun r hr hw => by rw [b.2 r (Nat.lt_of_lt_of_le hr a.1) hw, a.2 r hr hw]⟩

theorem Frame.mono {W W' : List Nat} {h h' : Heap} (a : Frame W h h') (s : ∀ r ∈ W, r < h.length → r ∈ W') :
    Frame W' h h' :=
  ⟨a.1, fun r hr hw => a.2 r hr fun hr' => hw (s r hr' hr)⟩

theorem Frame.add {W : List Nat} {h h' : Heap} (a : Frame W h h') (l : Heap) : Frame W h (h' ++ l) :=
  a.trans ((Ext.refl h').add l |>.frame W)

theorem Frame.set {W : List Nat} {h h' : Heap} (a : Frame W h h') {r : Nat} (hr : r ∈ W) (o : Obj) :
    Frame W h (h'.set r o) :=
  ⟨by simpa using a.1, fun r' hr' hw => by
    rw [List.getElem?_set_ne (fun e : r = r' => hw (e ▸ hr)), a.2 r' hr' hw]⟩

theorem Frame.setNew {W : List Nat} {h h' : Heap} (a : Frame W h h') {r : Nat} (hr : h.length ≤ r) (o : Obj) :
    Frame W h (h'.set r o) :=
  ⟨by simpa using a.1, fun r' hr' hw => by
    rw [List.getElem?_set_ne (by omega), a.2 r' hr' hw]⟩

theorem Frame.get {W : List Nat} {h h' : Heap} (a : Frame W h h') {r : Nat} {o : Obj} (e : h[r]? = some o)
    (hr : r ∉ W) : h'[r]? = some o := by
  rw [a.2 r (get_lt e) hr, e]

/-- The value is not one of the cells `W`. -/
def Apart (W : List Nat) (v : Val) : Prop := ∀ r, v = .ref r → r ∉ W

theorem Frame.bytesOf {W : List Nat} {h h' : Heap} (a : Frame W h h') {v : Val} {b : Bytes}
    (e : bytesOf v h = some b) (hv : Apart W v) : bytesOf v h' = some b := by
  cases v with
  | ref r =>
    have hr : r < h.length := by
      unfold Src.bytesOf at e
      cases h1 : h[r]? with
      | none => simp [h1] at e
      | some o => exact get_lt h1
    unfold Src.bytesOf at *
    simp only [a.2 r hr (hv r rfl)]
    exact e
  | _ => exact e

/-- Cells which did not exist at first may change as well. -/
theorem Frame.then {W W' : List Nat} {h h' h'' : Heap} (a : Frame W h h') (b : Frame W' h' h'')
    (s : ∀ r ∈ W', r ∈ W ∨ h.length ≤ r) : Frame W h h'' :=
  ⟨Nat.le_trans a.1 b.1, fun r hr hw => by
    rw [b.2 r (Nat.lt_of_lt_of_le hr a.1) (fun h1 => (s r h1).elim hw (by omega)), a.2 r hr hw]⟩

/-- A byte object is not one of the cells which are not byte arrays. -/
theorem apart_of_noBytes {W : List Nat} {h : Heap} {v : Val} {b : Bytes} (e : Src.bytesOf v h = some b)
    (n : ∀ r ∈ W, noBytes h[r]? = true) : Apart W v := by
  rintro r rfl hr
  have := n r hr
  unfold Src.bytesOf at e
  cases h1 : h[r]? with
  | none => simp [h1] at e
  | some o =>
    rw [h1] at this
    cases o with
    | bytearray x => cases this
    | _ => simp [h1] at e

theorem bytesOf_lt {r : Nat} {h : Heap} {b : Bytes} (e : Src.bytesOf (.ref r) h = some b) : r < h.length := by
  unfold Src.bytesOf at e
  cases h1 : h[r]? with
  | none => simp [h1] at e
  | some o => exact get_lt h1

/-- `b[lo:hi]`. -/
def cut (lo hi : Option Int) (b : Bytes) : Bytes :=
  match lo, hi with
  | some i, some j => pySlice b i j
  | some i, none => pyFrom b i
  | none, some j => pyUpto b j
  | none, none => b

/-- A slice of a byte object. -/
theorem getSlice_bytes {v : Val} {h : Heap} {b : Bytes} (e : bytesOf v h = some b) (lo hi : Option Int) :
    ∃ w l, getSlice v lo hi h = ok w (h ++ l) ∧ bytesOf w (h ++ l) = some (cut lo hi b) := by
  cases v with
  | bytes x =>
    cases e
    exact ⟨_, [], by rw [List.append_nil]; rfl, rfl⟩
  | ref r =>
    cases h1 : h[r]? with
    | none => simp [bytesOf, h1] at e
    | some o =>
      cases o with
      | bytearray x =>
        have : x = b := by simpa [bytesOf, h1] using e
        subst this
        refine ⟨.ref h.length, [.bytearray (cut lo hi x)], ?_, bytesOf_last _ _⟩
        simp only [getSlice, h1]
        rfl
      | _ => simp [bytesOf, h1] at e
  | _ => cases e

/-- A slice of a byte array is a new byte array. -/
theorem getSlice_ref {r : Nat} {h : Heap} {b : Bytes} (e : bytesOf (.ref r) h = some b) (lo hi : Option Int) :
    getSlice (.ref r) lo hi h = ok (.ref h.length) (h ++ [.bytearray (cut lo hi b)]) := by
  cases h1 : h[r]? with
  | none => simp [bytesOf, h1] at e
  | some o =>
    cases o with
    | bytearray x =>
      have : x = b := by simpa [bytesOf, h1] using e
      subst this
      simp only [getSlice, h1]
      rfl
    | _ => simp [bytesOf, h1] at e

@[pysem] theorem elems_last_list (l : List Val) (h : Heap) :
    elems (.ref h.length) (h ++ [.list l]) = some l := by
  simp [elems]

/-! Byte arrays which are not the newest cell. -/

theorem bytesOf_set_ne {h : Heap} {r : Nat} {v : Val} (o : Obj) (e : v ≠ .ref r) :
    bytesOf v (h.set r o) = bytesOf v h := by
  cases v with
  | ref r' => simp only [bytesOf]; rw [get_set_other _ (fun h1 => e (by rw [h1]))]
  | _ => rfl

theorem bytesOf_set_same {h : Heap} {r : Nat} (b : Bytes) (e : r < h.length) :
    bytesOf (.ref r) (h.set r (.bytearray b)) = some b := by
  simp [bytesOf, e]

theorem setItem_fill {n r : Nat} {acc : Bytes} {h : Heap} (hr : r < h.length) (hn : acc.length < n) (x : UInt8) :
    setItem (.ref r) (.int acc.length) (.int x.toNat) (h.set r (.bytearray (partly n acc))) =
      ok () (h.set r (.bytearray (partly n (acc ++ [x])))) := by
  have h4 : (h.set r (.bytearray (partly n acc)))[r]? = some (.bytearray (partly n acc)) := by simp [hr]
  have h3 := byte_range x
  have hp : position acc.length (partly n acc).length = some acc.length := by
    rw [partly_length (by omega)]
    have h5 : ¬ ((acc.length : Int) < 0) := by omega
    simp only [position, if_neg h5]
    rw [if_pos (by omega), Int.toNat_natCast]
  simp only [setItem, h4, hp, if_pos h3, Int.toNat_natCast, UInt8.ofNat_toNat, partly_set hn, List.set_set]

/-- `for x in range(n): result[x] = g(x)`, where `result` is any byte array. -/
theorem fill_at {x : String} {body : Env → Heap → Out Flow} {n r : Nat} {env : Env} {h : Heap}
    {o : Out Flow}
    (hl : forLoop x body (pyRange 0 n 1) env (h.set r (.bytearray (List.replicate n 0))) = o)
    (g : Nat → Res UInt8) (I : Bytes → Env → Prop) (E : Heap → Prop)
    (step : ∀ acc env, acc.length < n → I acc env →
      Agree (body (env.set x (.int acc.length)) (h.set r (.bytearray (partly n acc)))) (g acc.length)
        (fun y fl h' => ∃ env', fl = .next env' ∧ I (acc ++ [y]) env' ∧
          h' = h.set r (.bytearray (partly n (acc ++ [y])))) E)
    (start : I [] env) :
    Agree o ((List.range n).mapM g) (fun b fl h' => ∃ env', fl = .next env' ∧ I b env' ∧ b.length = n ∧
      h' = h.set r (.bytearray b)) E := by
  rw [pyRange_up] at hl
  have := for_foldlM (σ := Bytes) _ hl (fun acc i => do let y ← g i; pure (acc ++ [y]))
    (fun k acc env h' => I acc env ∧ acc.length = k ∧ h' = h.set r (.bytearray (partly n acc)))
    E (s := [])
    (by
      rintro k i acc env _ hk ⟨i1, rfl, rfl⟩
      have hlt : acc.length < n := by
        rcases Nat.lt_or_ge acc.length n with h1 | h1
        · exact h1
        · rw [List.getElem?_eq_none (by simpa using h1)] at hk
          cases hk
      rw [List.getElem?_range hlt] at hk
      cases hk
      have := step acc env hlt i1
      cases hg : g acc.length with
      | error e =>
        rw [hg] at this
        exact this
      | ok y =>
        rw [hg] at this
        obtain ⟨_, _, e1, env', rfl, i2, rfl⟩ := this
        exact ⟨_, _, e1, env', rfl, i2, by simp, rfl⟩)
    ⟨start, rfl, by simp [partly]⟩
  rw [← mapM_eq_foldlM] at this
  refine this.mono ?_ fun h' a => a
  rintro r fl h' - ⟨env', rfl, i1, i2, rfl⟩
  rw [List.length_range] at i2
  exact ⟨env', rfl, i1, i2, by rw [partly_full i2]⟩

theorem set_get {h : Heap} {r : Nat} {o : Obj} (e : h[r]? = some o) : h.set r o = h := by
  apply List.ext_getElem?
  intro i
  by_cases hi : r = i
  · subst hi; rw [get_set_same _ (by rw [e]; rfl), e]
  · rw [get_set_other _ hi]

theorem set_last (h : Heap) (o o' : Obj) : (h ++ [o]).set h.length o' = h ++ [o'] := by simp

/-- `v[lo:hi] = w`. -/
theorem setSlice_bytes {r : Nat} {h : Heap} {b y : Bytes} {w : Val} (e : h[r]? = some (.bytearray b))
    (ew : bytesOf w h = some y) (lo hi : Int) :
    setSlice (.ref r) (some lo) (some hi) w h = ok () (h.set r (.bytearray (pySliceAssign b lo hi y))) := by
  simp only [setSlice, e, ew, Option.getD_some]

/-! Natural numbers. -/

theorem arith_bor_nat (m n : Nat) : arith .bor m n = .ok ((m ||| n : Nat) : Int) := by
  have e : ¬ ((m : Int) < 0 ∨ (n : Int) < 0) := by omega
  simp only [arith, if_neg e, Int.toNat_natCast]

theorem arith_add_nat (m n : Nat) : arith .add m n = .ok ((m + n : Nat) : Int) := (rfl)

theorem arith_mul_nat (m n : Nat) : arith .mul m n = .ok ((m * n : Nat) : Int) := (rfl)

theorem arith_mul_lit (m n : Nat) :
    arith .mul m (no_index (@OfNat.ofNat Int n _)) = .ok ((m * OfNat.ofNat n : Nat) : Int) := (rfl)

theorem arith_and_lit (m n : Nat) :
    arith .band m (no_index (@OfNat.ofNat Int n _)) = .ok ((m &&& OfNat.ofNat n : Nat) : Int) := (rfl)

theorem arith_shl_nat (m n : Nat) : arith .shl m n = .ok ((m <<< n : Nat) : Int) := by
  rw [arith_shl, Nat.shiftLeft_eq]
  simp

theorem arith_shl_lit (m n : Nat) :
    arith .shl m (no_index (@OfNat.ofNat Int n _)) = .ok ((m <<< (OfNat.ofNat n) : Nat) : Int) :=
  arith_shl_nat m n

theorem arith_shr_nat (m n : Nat) : arith .shr m n = .ok ((m >>> n : Nat) : Int) := by
  rw [arith_shr, Nat.shiftRight_eq_div_pow, Int.fdiv_eq_ediv_of_nonneg _ (by exact Int.natCast_nonneg (2 ^ n))]
  simp

theorem arith_shr_lit (m n : Nat) :
    arith .shr m (no_index (@OfNat.ofNat Int n _)) = .ok ((m >>> (OfNat.ofNat n) : Nat) : Int) :=
  arith_shr_nat m n

end Gost.Src
