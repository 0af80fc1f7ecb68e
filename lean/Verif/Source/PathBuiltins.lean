import Verif.Source.PathOps

/-! Elements, slices, attributes and built-in functions on two memories of the same shape. -/

namespace Gost.Src

variable {A : String → String → Ty} {w : World} {h h' : Heap}

/-! ### Elements and slices -/

theorem pyGet_all2 {R : Val → Val → Prop} {l m : List Val} (e : All2 R l m) (i : Int) :
    (∃ a b, pyGet l i = .ok a ∧ pyGet m i = .ok b ∧ R a b) ∨ ∃ x y, pyGet l i = .error x ∧ pyGet m i = .error y := by
  unfold pyGet
  rw [e.length]
  simp only []
  generalize (if i < 0 then i + (m.length : Int) else i) = j
  by_cases q : j < 0
  · rw [if_pos q, if_pos q]; exact .inr ⟨_, _, rfl, rfl⟩
  · rw [if_neg q, if_neg q]
    rcases e.get j.toNat with ⟨a, b⟩ | ⟨a, b, ea, eb, r⟩
    · rw [a, b]; exact .inr ⟨_, _, rfl, rfl⟩
    · rw [ea, eb]; exact .inl ⟨_, _, rfl, rfl, r⟩

theorem getItem_low (H : HRel A w h h') {s t : Ty} (i : t.item = some s) {v v' j j' : Val} (l : Holds w t v v')
    (lj : Low j j') : SameEnd A w (fun w => Holds w s) (getItem v j h) (getItem v' j' h') := by
  cases lj with
  | int k =>
    simp only [getItem]
    rcases elems_item H i l with ⟨e, e'⟩ | ⟨x, y, e, e', q⟩
    · rw [e, e']; exact SameEnd.fail H _
    · rw [e, e']
      simp only []
      rcases pyGet_all2 q k with ⟨a, b, f, f', r⟩ | ⟨a, b, f, f'⟩
      · rw [f, f']; exact SameEnd.ok H r
      · rw [f, f']; exact SameEnd.fail H _
  | _ => exact SameEnd.fail H _

/-- The type of an element. -/
def tyIndex (s t : Ty) : Option Ty :=
  match s, t with
  | .row m k, .bits j => if 2 ^ j ≤ m then some (.bits k) else none
  | .pair, .lit 0 => some .lint
  | s, t => if t.isLow then s.item else none

theorem row_get {l : List Nat} {m k : Nat} (e : l.length = m) (q : ∀ x ∈ l, x < 2 ^ k) {i : Nat} (lt : i < m) :
    ∃ x : Nat, x < 2 ^ k ∧ pyGet (l.map fun n : Nat => Val.int n) (i : Int) = .ok (.int x) := by
  have lt' : i < l.length := by omega
  refine ⟨l[i], q _ (List.getElem_mem lt'), ?_⟩
  unfold pyGet
  simp only []
  rw [if_neg (by omega), if_neg (by omega), Int.toNat_natCast, List.getElem?_map, List.getElem?_eq_getElem lt']
  rfl

theorem getItem_ty (H : HRel A w h h') {s t u : Ty} {v v' j j' : Val} (l : Holds w s v v') (lj : Holds w t j j')
    (e : tyIndex s t = some u) : SameEnd A w (fun w => Holds w u) (getItem v j h) (getItem v' j' h') := by
  unfold tyIndex at e
  split at e
  · split at e
    · cases e
      rename_i le
      obtain ⟨l, el, q, rfl, rfl⟩ := l
      obtain ⟨x, x', lx, lx', rfl, rfl⟩ := lj
      obtain ⟨y, ly, ey⟩ := row_get el q (Nat.lt_of_lt_of_le lx le)
      obtain ⟨y', ly', ey'⟩ := row_get el q (Nat.lt_of_lt_of_le lx' le)
      simp only [getItem, ints, elems, ey, ey']
      exact SameEnd.ok H ⟨y, y', ly, ly', rfl, rfl⟩
    · cases e
  · cases e
    obtain ⟨k, x, x', _, _, rfl, rfl⟩ := l
    obtain ⟨rfl, rfl⟩ := lj
    exact SameEnd.ok H ⟨k, rfl, rfl⟩
  · split at e
    · rename_i q
      exact getItem_low H e l (lj.low q)
    · cases e

/-- What the bounds cut out of a list. -/
def cutLow {α : Type} (lo hi : Option Int) (l : List α) : List α :=
  match lo, hi with
  | some i, some j => pySlice l i j
  | some i, none => pyFrom l i
  | none, some j => pyUpto l j
  | none, none => l

theorem cut_all2 {α : Type} {R : α → α → Prop} {l m : List α} (e : All2 R l m) (lo hi : Option Int) :
    All2 R (cutLow lo hi l) (cutLow lo hi m) := by
  unfold cutLow
  split
  · unfold pySlice
    rw [e.length]
    exact (e.drop _).take _
  · unfold pyFrom
    rw [e.length]
    exact e.drop _
  · unfold pyUpto
    rw [e.length]
    exact e.take _
  · exact e

theorem cut_length {b c : Bytes} (e : b.length = c.length) (lo hi : Option Int) :
    (cutLow lo hi b).length = (cutLow lo hi c).length :=
  (cut_all2 (R := fun _ _ => True) (All2.of_length (fun _ _ => trivial) e) lo hi).length

theorem getSlice_eq (v : Val) (lo hi : Option Int) (h : Heap) : getSlice v lo hi h =
    match v with
    | .bytes b => ok (.bytes (cutLow lo hi b)) h
    | .tuple l => ok (.tuple (cutLow lo hi l)) h
    | .ref r =>
      match h[r]? with
      | some (.bytearray b) => alloc (.bytearray (cutLow lo hi b)) h
      | some (.list l) => alloc (.list (cutLow lo hi l)) h
      | _ => fail .stuck h
    | _ => fail .stuck h := by
  cases lo <;> cases hi <;> rfl

theorem getSlice_low (H : HRel A w h h') {v v' : Val} (l : Low v v') (lo hi : Option Int) :
    SameEnd A w (fun w' x x' => Low x x' ∧ (bytesLike w v → bytesLike w' x) ∧ (listLike w v → listLike w' x))
      (getSlice v lo hi h) (getSlice v' lo hi h') := by
  rw [getSlice_eq, getSlice_eq]
  cases l with
  | bytes e => exact SameEnd.ok H ⟨.bytes (cut_length e lo hi), fun _ => trivial, False.elim⟩
  | tuple e => exact SameEnd.ok H ⟨.tuple (.of (cut_all2 e.all2 lo hi)), False.elim, fun _ => trivial⟩
  | ref r =>
    simp only []
    rcases H.at r with ⟨e, e'⟩ | ⟨k, o, o', ek, e, e', q⟩
    · rw [e, e']; exact SameEnd.fail H _
    · rw [e, e']
      cases q with
      | bytearray q =>
        refine SameEnd.alloc H (.bytearray (cut_length q lo hi)) ⟨.ref _, fun _ => by simp [bytesLike], fun x => ?_⟩
        rw [show w[r]? = some Kind.list from x] at ek
        cases ek
      | list q =>
        refine SameEnd.alloc H (.list (cut_all2 q lo hi)) ⟨.ref _, fun x => ?_, fun _ => by simp [listLike]⟩
        rw [show w[r]? = some Kind.bytearray from x] at ek
        cases ek
      | inst q => exact SameEnd.fail H _
  | _ => exact SameEnd.fail H _

/-- The type of a slice. -/
def tySlice (s : Ty) : Option Ty :=
  match s with
  | .arr => some .arr
  | .seq | .ints | .row .. | .rows .. | .scals => some .seq
  | .low => some .low
  | _ => none

theorem getSlice_ty (H : HRel A w h h') {s u : Ty} {v v' : Val} (l : Holds w s v v') (lo hi : Option Int)
    (e : tySlice s = some u) : SameEnd A w (fun w => Holds w u) (getSlice v lo hi h) (getSlice v' lo hi h') := by
  have seq : Holds w .seq v v' → SameEnd A w (fun w => Holds w .seq) (getSlice v lo hi h) (getSlice v' lo hi h') :=
    fun l => (getSlice_low H l.1 lo hi).mono fun w' x x' q => ⟨q.1, q.2.2 l.2⟩
  cases s with
  | arr => cases e; exact (getSlice_low H l.1 lo hi).mono fun w' x x' q => ⟨q.1, q.2.1 l.2⟩
  | low => cases e; exact (getSlice_low H l lo hi).mono fun w' x x' q => q.1
  | seq => cases e; exact seq l
  | ints => cases e; exact seq (l.sub rfl)
  | row m k => cases e; exact seq (l.sub rfl)
  | rows m k => cases e; exact seq (l.sub rfl)
  | scals => cases e; exact seq (l.sub rfl)
  | _ => cases e

/-! ### Changing an object -/

/-- Which assignments to elements are good. -/
def okSetItem (o i x : Ty) : Bool := o.isLow && i.isLow && (x.isLow || (decide (o = .arr) && x.sub .elem))

theorem setItem_bytes (H : HRel A w h h') {r : Nat} {i : Int} {b c : Bytes} (k : w[r]? = some .bytearray)
    (e : b.length = c.length) (x y : Int) (d : (0 ≤ x ∧ x < 256) ↔ (0 ≤ y ∧ y < 256)) :
    SameEnd A w (fun _ _ _ => True)
      (match position i b.length with
        | some j =>
          if 0 ≤ x ∧ x < 256 then ok () (h.set r (.bytearray (b.set j (UInt8.ofNat x.toNat))))
          else fail .value h
        | none => fail .index h)
      (match position i c.length with
        | some j =>
          if 0 ≤ y ∧ y < 256 then ok () (h'.set r (.bytearray (c.set j (UInt8.ofNat y.toNat))))
          else fail .value h'
        | none => fail .index h') := by
  rw [e]
  cases position i c.length with
  | none => exact SameEnd.fail H _
  | some j =>
    simp only []
    by_cases q : 0 ≤ x ∧ x < 256
    · rw [if_pos q, if_pos (d.mp q)]
      exact SameEnd.ok (H.set k (.bytearray (by simp [e]))) trivial
    · rw [if_neg q, if_neg fun z => q (d.mpr z)]
      exact SameEnd.fail H _

theorem setItem_ty (H : HRel A w h h') {so si sx : Ty} {o o' i i' x x' : Val} (ho : Holds w so o o')
    (hi : Holds w si i i') (hx : Holds w sx x x') (e : okSetItem so si sx = true) :
    SameEnd A w (fun _ _ _ => True) (setItem o i x h) (setItem o' i' x' h') := by
  simp only [okSetItem, Bool.and_eq_true, Bool.or_eq_true, decide_eq_true_eq] at e
  obtain ⟨⟨eo, ei⟩, ex⟩ := e
  have lo := ho.low eo
  have li := hi.low ei
  have hx : Low x x' ∨ (so = .arr ∧ isByte x ∧ isByte x') := by
    rcases ex with ex | ⟨es, ex⟩
    · exact .inl (hx.low ex)
    · rcases hx.sub ex with q | q
      · exact .inr ⟨es, q⟩
      · exact .inl q
  cases lo with
  | ref r =>
    cases li with
    | int j =>
      simp only [setItem]
      rcases H.at r with ⟨e, e'⟩ | ⟨k, p, p', ek, e, e', q⟩
      · rw [e, e']; exact SameEnd.fail H _
      · rw [e, e']
        cases q with
        | bytearray q =>
          rcases hx with hx | ⟨_, ⟨y, ly, rfl⟩, ⟨y', ly', rfl⟩⟩
          · cases hx with
            | int z => exact setItem_bytes H ek q z z Iff.rfl
            | _ => exact SameEnd.fail H _
          · exact setItem_bytes H ek q y y' (by omega)
        | list q =>
          rcases hx with hx | ⟨rfl, _⟩
          · simp only [q.length]
            split
            · exact SameEnd.ok (H.set ek (.list (q.set hx _))) trivial
            · exact SameEnd.fail H _
          · have := ho.2
            rw [show w[r]? = some Kind.bytearray from this] at ek
            cases ek
        | inst q => exact SameEnd.fail H _
    | _ => exact SameEnd.fail H _
  | _ => cases li <;> exact SameEnd.fail H _

theorem sliceAssign_length {b c x y : Bytes} (e : b.length = c.length) (q : x.length = y.length) (i j : Int) :
    (pySliceAssign b i j x).length = (pySliceAssign c i j y).length := by
  simp only [pySliceAssign, List.length_append, List.length_take, List.length_drop, e, q]

theorem setSlice_low (H : HRel A w h h') {v v' x x' : Val} (l : Low v v') (lx : Low x x') (lo hi : Option Int) :
    SameEnd A w (fun _ _ _ => True) (setSlice v lo hi x h) (setSlice v' lo hi x' h') := by
  cases l with
  | ref r =>
    simp only [setSlice]
    rcases H.at r with ⟨e, e'⟩ | ⟨k, p, p', ek, e, e', q⟩
    · rw [e, e']; exact SameEnd.fail H _
    · rw [e, e']
      cases q with
      | bytearray q =>
        rename_i b c
        rcases bytesOf_low H lx with ⟨f, f'⟩ | ⟨y, z, f, f', g⟩
        · rw [f, f']; exact SameEnd.fail H _
        · rw [f, f']
          refine SameEnd.ok (H.set ek (.bytearray ?_)) trivial
          rw [q]
          exact sliceAssign_length q g _ _
      | list q => exact SameEnd.fail H _
      | inst q => exact SameEnd.fail H _
  | _ => exact SameEnd.fail H _

theorem setAttrList_attrs {B : String → Ty} {a : String} {x x' : Val} (q : Holds w (B a) x x')
    {l m : List (String × Val)} (e : Attrs B w l m) : Attrs B w (setAttrList a x l) (setAttrList a x' m) := by
  induction e with
  | nil => exact .cons ⟨rfl, q⟩ .nil
  | @cons p p' l m r t ih =>
    obtain ⟨n, v⟩ := p
    obtain ⟨n', v'⟩ := p'
    obtain ⟨rn, rv⟩ := r
    simp only at rn
    subst rn
    simp only [setAttrList]
    split
    · exact .cons ⟨rfl, q⟩ t
    · exact .cons ⟨rfl, rv⟩ ih

theorem findAttr_attrs {B : String → Ty} {a : String} {l m : List (String × Val)} (e : Attrs B w l m) :
    (findAttr a l = none ∧ findAttr a m = none) ∨
      ∃ v v', findAttr a l = some v ∧ findAttr a m = some v' ∧ Holds w (B a) v v' := by
  induction e with
  | nil => exact .inl ⟨rfl, rfl⟩
  | @cons p p' l m r t ih =>
    obtain ⟨n, v⟩ := p
    obtain ⟨n', v'⟩ := p'
    obtain ⟨rn, rv⟩ := r
    simp only at rn rv
    subst rn
    simp only [findAttr]
    split
    · rename_i q
      subst q
      exact .inr ⟨_, _, rfl, rfl, rv⟩
    · exact ih

/-- Which assignments to attributes are good. -/
def okSetAttr (A : String → String → Ty) (o : Ty) (a : String) (x : Ty) : Bool :=
  match o with
  | .inst cs => cs.all fun c => x.sub (A c a)
  | _ => false

theorem setAttr_ty (H : HRel A w h h') {so sx : Ty} {a : String} {o o' x x' : Val} (ho : Holds w so o o')
    (hx : Holds w sx x x') (e : okSetAttr A so a sx = true) :
    SameEnd A w (fun _ _ _ => True) (setAttr o a x h) (setAttr o' a x' h') := by
  cases so with
  | inst cs =>
    obtain ⟨r, c, rfl, rfl, k, m⟩ := ho
    obtain ⟨p, p', f, f', q⟩ := H.cell r _ k
    cases q with
    | inst q =>
      simp only [setAttr, f, f']
      exact SameEnd.ok (H.set k (.inst (setAttrList_attrs (hx.sub (List.all_eq_true.mp e c m)) q))) trivial
  | _ => cases e

/-! ### Built-in functions -/

theorem ints_low {l m : List Val} (e : All2 Low l m) : intsToBytes l = intsToBytes m ∧ l.all isInt = m.all isInt := by
  induction e with
  | nil => exact ⟨rfl, rfl⟩
  | cons a _ ih =>
    cases a <;> simp only [intsToBytes, List.all_cons, ih.1, ih.2, isInt] <;> exact ⟨trivial, trivial⟩

theorem listBytearray_low (H : HRel A w h h') {l m : List Val} (e : All2 Low l m) :
    SameEnd A w (fun w => Holds w .arr) (listBytearray l h) (listBytearray m h') := by
  simp only [listBytearray, (ints_low e).1, (ints_low e).2]
  split
  · exact SameEnd.alloc H (.bytearray rfl) ⟨.ref _, by simp [bytesLike]⟩
  · split <;> exact SameEnd.fail H _

theorem newBytearray_low (H : HRel A w h h') {v v' : Val} (l : Low v v') :
    SameEnd A w (fun w => Holds w .arr) (newBytearray v h) (newBytearray v' h') := by
  have fresh : ∀ {b c : Bytes}, b.length = c.length →
      SameEnd A w (fun w => Holds w .arr) (alloc (.bytearray b) h) (alloc (.bytearray c) h') := fun e =>
    SameEnd.alloc H (.bytearray e) ⟨.ref _, by simp [bytesLike]⟩
  cases l with
  | int i =>
    simp only [newBytearray]
    split
    · exact SameEnd.fail H _
    · exact fresh rfl
  | bytes e => exact fresh e
  | tuple e => exact listBytearray_low H e.all2
  | ref r =>
    simp only [newBytearray]
    rcases H.at r with ⟨e, e'⟩ | ⟨k, p, p', ek, e, e', q⟩
    · simp only [bytesOf, e, e']; exact SameEnd.fail H _
    · cases q with
      | bytearray q => simp only [bytesOf, e, e']; exact fresh q
      | list q => simp only [bytesOf, e, e']; exact listBytearray_low H q
      | inst q => simp only [bytesOf, e, e']; exact SameEnd.fail H _
  | _ => exact SameEnd.fail H _

/-- Lists of values as lists of types say. -/
def HoldsL (w : World) : List Ty → List Val → List Val → Prop
  | [], [], [] => True
  | t :: ts, v :: vs, v' :: vs' => Holds w t v v' ∧ HoldsL w ts vs vs'
  | _, _, _ => False

theorem HoldsL.mono {w w' : World} (x : TyMore w w') : ∀ {ts : List Ty} {vs vs' : List Val}, HoldsL w ts vs vs' →
    HoldsL w' ts vs vs'
  | [], [], [], _ => trivial
  | _ :: _, _ :: _, _ :: _, h => ⟨h.1.mono x, h.2.mono x⟩

theorem HoldsL.nil {vs vs' : List Val} (h : HoldsL w [] vs vs') : vs = [] ∧ vs' = [] := by
  cases vs <;> cases vs' <;> first | exact ⟨rfl, rfl⟩ | exact h.elim

theorem HoldsL.cons {t : Ty} {ts : List Ty} {vs vs' : List Val} (h : HoldsL w (t :: ts) vs vs') :
    ∃ v us v' us', vs = v :: us ∧ vs' = v' :: us' ∧ Holds w t v v' ∧ HoldsL w ts us us' := by
  cases vs <;> cases vs' <;> first | exact ⟨_, _, _, _, rfl, rfl, h.1, h.2⟩ | exact h.elim

theorem HoldsL.length : ∀ {ts : List Ty} {vs vs' : List Val}, HoldsL w ts vs vs' →
    vs.length = ts.length ∧ vs'.length = ts.length
  | [], [], [], _ => ⟨rfl, rfl⟩
  | _ :: _, _ :: _, _ :: _, h => by simp [h.2.length.1, h.2.length.2]

/-- The type of the result of a built-in function. -/
def tyBuiltin (f : String) (ts : List Ty) : Option Ty :=
  if same f "bytearray" then
    match ts with
    | [] => some .arr
    | [t] => if t.isLow then some .arr else none
    | _ => none
  else if same f "range" then
    match ts with
    | [a] => if a.isLow then some .ints else none
    | [a, b] => if a.isLow && b.isLow then some .ints else none
    | [a, b, c] => if a.isLow && b.isLow && c.isLow then some .ints else none
    | _ => none
  else if same f "len" then
    match ts with
    | [t] => if t.isLow then some .lint else none
    | _ => none
  else if same f "isbytes" then
    match ts with
    | [.arr] => some (.const true)
    | [t] => if t.isLow then some .lbool else none
    | _ => none
  else if same f "min" then
    match ts with
    | [a, b] => if a.isLow && b.isLow then some .lint else none
    | _ => none
  else if same f "enumerate" then
    match ts with
    | [.arr] => some .pairs
    | _ => none
  else if same f "tuple" then
    match ts with
    | [.seq] => some .seq
    | _ => none
  else if same f "int.from_bytes" then
    match ts with
    | [.arr, .str] => some .int
    | _ => none
  else if same f "int" then
    match ts with
    | [t] => if t.isLow then some .lint else none
    | _ => none
  else if same f "hasattr" then
    match ts with
    | [a, b] => if a.isLow && b.isLow then some .lbool else none
    | _ => none
  else if same f "pack>I" then
    match ts with
    | [.bits k] => if k ≤ 32 then some .arr else none
    | _ => none
  else if same f "os.urandom" then
    match ts with
    | [t] => if t.isLow then some .arr else none
    | _ => none
  else none

theorem toBytes_ok (x n : Nat) (order : String) (h : Heap) (l : x < 2 ^ (8 * n)) :
    ∃ b : Bytes, b.length = n ∧ toBytes x n order h = ok (.bytes b) h := by
  have p : ¬((x : Int) < 0 ∨ (256 : Int) ^ n ≤ x) := by
    intro q
    rcases q with q | q
    · omega
    · have : (256 : Int) ^ n = ((2 ^ (8 * n) : Nat) : Int) := by
        rw [Nat.pow_mul, Int.natCast_pow]
        congr 1
      omega
  simp only [toBytes, Int.toNat_natCast]
  rw [if_neg (by omega), if_neg p]
  refine ⟨_, ?_, rfl⟩
  split <;> simp

theorem toBytes_same (H : HRel A w h h') (x n : Int) (order : String) :
    SameEnd A w (fun w => Holds w .arr) (toBytes x n order h) (toBytes x n order h') := by
  simp only [toBytes]
  split
  · exact SameEnd.fail H _
  · split
    · exact SameEnd.fail H _
    · exact SameEnd.ok H ⟨Low.refl _, trivial⟩

theorem pyRange_ints (a b c : Int) : ∃ l : List Int, pyRange a b c = l.map .int :=
  ⟨(List.range (if 0 < c then (b - a + c - 1).fdiv c else (a - b - c - 1).fdiv (-c)).toNat).map
    fun k : Nat => a + c * (k : Int), by simp only [pyRange, List.map_map]; rfl⟩

theorem range_ok (H : HRel A w h h') (a b c : Int) : SameEnd A w (fun w => Holds w .ints)
    (ok (.tuple (pyRange a b c)) h) (ok (.tuple (pyRange a b c)) h') := by
  obtain ⟨l, e⟩ := pyRange_ints a b c
  exact SameEnd.ok H ⟨l, by rw [e], rfl⟩

theorem isBytes_low (H : HRel A w h h') {v v' : Val} (l : Low v v') : isBytes v h = isBytes v' h' := by
  unfold isBytes
  rcases bytesOf_low H l with ⟨e, e'⟩ | ⟨b, c, e, e', _⟩ <;> rw [e, e'] <;> rfl

theorem urandom_low (H : HRel A w h h') {v v' : Val} (l : Low v v') :
    SameEnd A w (fun w => Holds w .arr) (builtin "os.urandom" [v] h) (builtin "os.urandom" [v'] h') := by
  cases l with
  | int n =>
    simp only [builtin]
    rcases H.at 0 with ⟨e, e'⟩ | ⟨k, p, p', ek, e, e', q⟩
    · rw [e, e']; exact SameEnd.fail H _
    · rw [e, e']
      cases q with
      | list q =>
        cases q with
        | nil => exact SameEnd.fail H _
        | cons a t =>
          cases a with
          | bytes g =>
            simp only [g]
            split
            · exact SameEnd.ok (H.set ek (.list t)) ⟨.bytes g, trivial⟩
            · exact SameEnd.fail H _
          | _ => exact SameEnd.fail H _
      | bytearray q => exact SameEnd.fail H _
      | inst q => exact SameEnd.fail H _
  | _ => exact SameEnd.fail H _

theorem hasattr_low (H : HRel A w h h') {v v' a a' : Val} (l : Low v v') (la : Low a a') :
    SameEnd A w (fun w => Holds w .lbool) (builtin "hasattr" [v, a] h) (builtin "hasattr" [v', a'] h') := by
  cases l with
  | ref r =>
    cases la with
    | str s =>
      simp only [builtin]
      rcases H.at r with ⟨e, e'⟩ | ⟨k, p, p', ek, e, e', q⟩
      · rw [e, e']; exact SameEnd.fail H _
      · rw [e, e']
        cases q with
        | inst q =>
          rcases findAttr_attrs (a := s) q with ⟨f, f'⟩ | ⟨x, y, f, f', _⟩
          · simp only [f, f']; exact SameEnd.ok H ⟨_, rfl, rfl⟩
          · simp only [f, f']; exact SameEnd.ok H ⟨_, rfl, rfl⟩
        | _ => exact SameEnd.fail H _
    | _ => exact SameEnd.fail H _
  | _ => cases la <;> exact SameEnd.fail H _

theorem pack_bits (H : HRel A w h h') {k : Nat} (le : k ≤ 32) {v v' : Val} (l : Holds w (.bits k) v v') :
    SameEnd A w (fun w => Holds w .arr) (builtin "pack>I" [v] h) (builtin "pack>I" [v'] h') := by
  obtain ⟨x, x', lx, lx', rfl, rfl⟩ := l
  have key : ∀ (x : Nat) (h : Heap), x < 2 ^ k → ∃ b : Bytes, b.length = 4 ∧ builtin "pack>I" [.int x] h = ok (.bytes b) h := by
    intro x h lx
    have lx : x < 2 ^ 32 := pow_mono lx le
    obtain ⟨b, e, q⟩ := toBytes_ok x 4 "big" h lx
    refine ⟨b, e, ?_⟩
    simp only [builtin]
    rw [if_pos (by omega)]
    exact q
  obtain ⟨b, e, q⟩ := key x h lx
  obtain ⟨c, e', q'⟩ := key x' h' lx'
  rw [q, q']
  exact SameEnd.ok H ⟨.bytes (by rw [e, e']), trivial⟩

theorem pyLen_low (H : HRel A w h h') {v v' : Val} (l : Low v v') :
    SameEnd A w (fun w => Holds w .lint) (pyLen v h) (pyLen v' h') := by
  unfold pyLen
  rcases elems_low H l with ⟨e, e'⟩ | ⟨x, y, e, e', q⟩
  · rw [e, e']; exact SameEnd.fail H _
  · rw [e, e']
    simp only [q.length]
    exact SameEnd.ok H ⟨_, rfl, rfl⟩

theorem from_bytes_other {v : Val} {s : String} (z : s ≠ "big") (h : Heap) :
    builtin "int.from_bytes" [v, .str s] h = fail .stuck h := by
  unfold builtin
  split <;> simp_all

theorem builtin_ty (H : HRel A w h h') {f : String} {ts : List Ty} {u : Ty} {vs vs' : List Val}
    (L : HoldsL w ts vs vs') (e : tyBuiltin f ts = some u) :
    SameEnd A w (fun w => Holds w u) (builtin f vs h) (builtin f vs' h') := by
  unfold tyBuiltin at e
  by_cases q : same f "bytearray" = true
  · rw [if_pos q] at e
    rw [same_iff.mp q]
    split at e
    · cases e
      obtain ⟨rfl, rfl⟩ := L.nil
      exact SameEnd.alloc H (.bytearray rfl) ⟨.ref _, by simp [bytesLike]⟩
    · obtain ⟨v, us, v', us', rfl, rfl, l, r⟩ := L.cons
      obtain ⟨rfl, rfl⟩ := r.nil
      split at e
      · rename_i i
        cases e
        exact newBytearray_low H (l.low i)
      · cases e
    · cases e
  rw [if_neg q] at e
  by_cases q : same f "range" = true
  · rw [if_pos q] at e
    rw [same_iff.mp q]
    split at e
    · obtain ⟨v, us, v', us', rfl, rfl, l, r⟩ := L.cons
      obtain ⟨rfl, rfl⟩ := r.nil
      split at e
      · rename_i i
        cases e
        have l := l.low i
        cases l <;> first | exact range_ok H _ _ _ | exact SameEnd.fail H _
      · cases e
    · obtain ⟨v, us, v', us', rfl, rfl, l, r⟩ := L.cons
      obtain ⟨v2, us, v2', us', rfl, rfl, l2, r⟩ := r.cons
      obtain ⟨rfl, rfl⟩ := r.nil
      split at e
      · rename_i i
        cases e
        simp only [Bool.and_eq_true] at i
        have l := l.low i.1
        have l2 := l2.low i.2
        cases l <;> cases l2 <;> first | exact range_ok H _ _ _ | exact SameEnd.fail H _
      · cases e
    · obtain ⟨v, us, v', us', rfl, rfl, l, r⟩ := L.cons
      obtain ⟨v2, us, v2', us', rfl, rfl, l2, r⟩ := r.cons
      obtain ⟨v3, us, v3', us', rfl, rfl, l3, r⟩ := r.cons
      obtain ⟨rfl, rfl⟩ := r.nil
      split at e
      · rename_i i
        cases e
        simp only [Bool.and_eq_true] at i
        have l := l.low i.1.1
        have l2 := l2.low i.1.2
        have l3 := l3.low i.2
        cases l with
        | int a =>
          cases l2 with
          | int b =>
            cases l3 with
            | int c =>
              simp only [builtin]
              by_cases z : c = 0
              · rw [if_pos z, if_pos z]; exact SameEnd.fail H _
              · rw [if_neg z, if_neg z]; exact range_ok H _ _ _
            | _ => exact SameEnd.fail H _
          | _ => cases l3 <;> exact SameEnd.fail H _
        | _ => cases l2 <;> cases l3 <;> exact SameEnd.fail H _
      · cases e
    · cases e
  rw [if_neg q] at e
  by_cases q : same f "len" = true
  · rw [if_pos q] at e
    rw [same_iff.mp q]
    split at e
    · obtain ⟨v, us, v', us', rfl, rfl, l, r⟩ := L.cons
      obtain ⟨rfl, rfl⟩ := r.nil
      split at e
      · rename_i i
        cases e
        exact pyLen_low H (l.low i)
      · cases e
    · cases e
  rw [if_neg q] at e
  by_cases q : same f "isbytes" = true
  · rw [if_pos q] at e
    rw [same_iff.mp q]
    split at e
    · cases e
      obtain ⟨v, us, v', us', rfl, rfl, l, r⟩ := L.cons
      obtain ⟨rfl, rfl⟩ := r.nil
      obtain ⟨b, c, e, e', _⟩ := bytesOf_like H l.1 l.2
      simp only [builtin, isBytes, e, e']
      exact SameEnd.ok H ⟨rfl, rfl⟩
    · obtain ⟨v, us, v', us', rfl, rfl, l, r⟩ := L.cons
      obtain ⟨rfl, rfl⟩ := r.nil
      split at e
      · rename_i i
        cases e
        simp only [builtin, isBytes_low H (l.low i)]
        exact SameEnd.ok H ⟨_, rfl, rfl⟩
      · cases e
    · cases e
  rw [if_neg q] at e
  by_cases q : same f "min" = true
  · rw [if_pos q] at e
    rw [same_iff.mp q]
    split at e
    · obtain ⟨v, us, v', us', rfl, rfl, l, r⟩ := L.cons
      obtain ⟨v2, us, v2', us', rfl, rfl, l2, r⟩ := r.cons
      obtain ⟨rfl, rfl⟩ := r.nil
      split at e
      · rename_i i
        cases e
        simp only [Bool.and_eq_true] at i
        have l := l.low i.1
        have l2 := l2.low i.2
        cases l <;> cases l2 <;> first | exact SameEnd.ok H ⟨_, rfl, rfl⟩ | exact SameEnd.fail H _
      · cases e
    · cases e
  rw [if_neg q] at e
  by_cases q : same f "enumerate" = true
  · rw [if_pos q] at e
    rw [same_iff.mp q]
    split at e
    · cases e
      obtain ⟨v, us, v', us', rfl, rfl, l, r⟩ := L.cons
      obtain ⟨rfl, rfl⟩ := r.nil
      obtain ⟨b, c, e, e', g⟩ := bytesOf_like H l.1 l.2
      have key : ∀ {v : Val} {h : Heap} {b : Bytes}, bytesOf v h = some b →
          elems v h = some (b.map fun x : UInt8 => Val.int x.toNat) := by
        intro v h b e
        cases v with
        | bytes x => cases e; rfl
        | ref r =>
          simp only [bytesOf] at e
          simp only [elems]
          split at e
          · rename_i q; cases e; rw [q]
          · cases e
        | _ => cases e
      simp only [builtin, key e, key e']
      exact SameEnd.ok H ⟨_, _, byte_ints g, rfl, rfl⟩
    · cases e
  rw [if_neg q] at e
  by_cases q : same f "tuple" = true
  · rw [if_pos q] at e
    rw [same_iff.mp q]
    split at e
    · cases e
      obtain ⟨v, us, v', us', rfl, rfl, l, r⟩ := L.cons
      obtain ⟨rfl, rfl⟩ := r.nil
      simp only [builtin]
      rcases elems_item (t := .seq) H rfl l with ⟨e, e'⟩ | ⟨x, y, e, e', q⟩
      · rw [e, e']; exact SameEnd.fail H _
      · rw [e, e']; exact SameEnd.ok H ⟨.tuple (.of q), trivial⟩
    · cases e
  rw [if_neg q] at e
  by_cases q : same f "int.from_bytes" = true
  · rw [if_pos q] at e
    rw [same_iff.mp q]
    split at e
    · cases e
      obtain ⟨v, us, v', us', rfl, rfl, l, r⟩ := L.cons
      obtain ⟨v2, us, v2', us', rfl, rfl, l2, r⟩ := r.cons
      obtain ⟨rfl, rfl⟩ := r.nil
      obtain ⟨s, rfl, rfl⟩ := l2
      obtain ⟨b, c, e, e', _⟩ := bytesOf_like H l.1 l.2
      by_cases z : s = "big"
      · subst z
        simp only [builtin, e, e']
        exact SameEnd.ok H ⟨_, _, rfl, rfl⟩
      · rw [from_bytes_other z, from_bytes_other z]
        exact SameEnd.fail H _
    · cases e
  rw [if_neg q] at e
  by_cases q : same f "int" = true
  · rw [if_pos q] at e
    rw [same_iff.mp q]
    split at e
    · obtain ⟨v, us, v', us', rfl, rfl, l, r⟩ := L.cons
      obtain ⟨rfl, rfl⟩ := r.nil
      split at e
      · rename_i i
        cases e
        have l := l.low i
        cases l with
        | str s =>
          simp only [builtin]
          cases Oid.pyInt s.toList with
          | none => exact SameEnd.fail H _
          | some i => exact SameEnd.ok H ⟨_, rfl, rfl⟩
        | _ => exact SameEnd.fail H _
      · cases e
    · cases e
  rw [if_neg q] at e
  by_cases q : same f "hasattr" = true
  · rw [if_pos q] at e
    rw [same_iff.mp q]
    split at e
    · obtain ⟨v, us, v', us', rfl, rfl, l, r⟩ := L.cons
      obtain ⟨v2, us, v2', us', rfl, rfl, l2, r⟩ := r.cons
      obtain ⟨rfl, rfl⟩ := r.nil
      split at e
      · rename_i i
        cases e
        simp only [Bool.and_eq_true] at i
        exact hasattr_low H (l.low i.1) (l2.low i.2)
      · cases e
    · cases e
  rw [if_neg q] at e
  by_cases q : same f "pack>I" = true
  · rw [if_pos q] at e
    rw [same_iff.mp q]
    split at e
    · obtain ⟨v, us, v', us', rfl, rfl, l, r⟩ := L.cons
      obtain ⟨rfl, rfl⟩ := r.nil
      split at e
      · rename_i i
        cases e
        exact pack_bits H i l
      · cases e
    · cases e
  rw [if_neg q] at e
  by_cases q : same f "os.urandom" = true
  · rw [if_pos q] at e
    rw [same_iff.mp q]
    split at e
    · obtain ⟨v, us, v', us', rfl, rfl, l, r⟩ := L.cons
      obtain ⟨rfl, rfl⟩ := r.nil
      split at e
      · rename_i i
        cases e
        exact urandom_low H (l.low i)
      · cases e
    · cases e
  rw [if_neg q] at e
  cases e

/-! ### Methods of built-in types -/

/-- The type of the result of a method of a built-in type. -/
def tyMeth (t : Ty) (m : String) (ts : List Ty) : Option Ty :=
  if same m "get" then
    match t, ts with
    | .dict, [.str, d] => if d.isLow then some .low else none
    | _, _ => none
  else if same m "append" then
    match t, ts with
    | .seq, [x] => if x.isLow then some .low else none
    | _, _ => none
  else if same m "to_bytes" then
    match t, ts with
    | .bits k, [.lit n, .str] => if k ≤ 8 * n then some .arr else none
    | .lint, [a, b] => if a.isLow && b.isLow then some .arr else none
    | .lit _, [a, b] => if a.isLow && b.isLow then some .arr else none
    | _, _ => none
  else if same m "bit_length" then
    match t, ts with
    | .lint, [] => some .lint
    | _, _ => none
  else if same m "split" then
    match t, ts with
    | .str, [.str] => some .seq
    | _, _ => none
  else if same m "hex" then
    match t, ts with
    | .arr, [] => some .text
    | _, _ => none
  else none

theorem getD_low {k : String} {l m : List (String × Val)} (e : LowD l m) {d d' : Val} (q : Low d d') :
    Low ((findAttr k l).getD d) ((findAttr k m).getD d') := by
  induction l generalizing m with
  | nil => cases e; exact q
  | cons p l ih =>
    cases e with
    | cons a t =>
      simp only [findAttr]
      split
      · exact a
      · exact ih t

theorem findAttr_mem {k : String} {x : Val} : ∀ {l : List (String × Val)}, findAttr k l = some x → (k, x) ∈ l
  | [], e => by cases e
  | (a, y) :: l, e => by
    simp only [findAttr] at e
    split at e
    · rename_i q
      cases e
      rw [q]
      exact List.mem_cons_self
    · exact List.mem_cons_of_mem _ (findAttr_mem e)

/-- A keyword argument which is a byte string. -/
theorem get_bytes (H : HRel A w h h') {k : String} (i : byteKey k = true) {v v' d d' : Val} (hv : Holds w .dict v v')
    (hd : Holds w .arr d d') : SameEnd A w (fun w => Holds w .arr) (builtinMeth v "get" [.str k, d] h)
      (builtinMeth v' "get" [.str k, d'] h') := by
  obtain ⟨lv, l, rfl, q⟩ := hv
  cases lv with
  | dict e =>
    refine SameEnd.ok H ⟨getD_low e hd.1, ?_⟩
    cases f : findAttr k l with
    | none => exact hd.2
    | some x => exact q k x (findAttr_mem f) i

theorem pyHex_length (b : Bytes) : (pyHex b).length = 2 * b.length := by
  unfold pyHex
  induction b with
  | nil => rfl
  | cons x b ih =>
    simp only [List.flatMap_cons, List.length_append, ih, List.length_cons]
    simp only [List.length_nil]
    omega

/-- The value of a built-in type. -/
def builtinVal (w : World) : Val → Prop
  | .ref r => ∀ c, w[r]? ≠ some (.inst c)
  | _ => True

theorem split_other {y s : String} (z : s ≠ ".") (h : Heap) : builtinMeth (.str y) "split" [.str s] h = fail .stuck h := by
  unfold builtinMeth
  split <;> simp_all

theorem meth_ty (H : HRel A w h h') {t u : Ty} {m : String} {ts : List Ty} {v v' : Val} {vs vs' : List Val}
    (hv : Holds w t v v') (L : HoldsL w ts vs vs') (e : tyMeth t m ts = some u) :
    (builtinVal w v ∧ builtinVal w v') ∧
      SameEnd A w (fun w => Holds w u) (builtinMeth v m vs h) (builtinMeth v' m vs' h') := by
  unfold tyMeth at e
  split at e
  · rename_i q
    rw [same_iff.mp q]
    split at e
    · obtain ⟨x, us, x', us', rfl, rfl, l, r⟩ := L.cons
      obtain ⟨x2, us, x2', us', rfl, rfl, l2, r⟩ := r.cons
      obtain ⟨rfl, rfl⟩ := r.nil
      obtain ⟨s, rfl, rfl⟩ := l
      split at e
      · rename_i i
        cases e
        obtain ⟨lv, d, rfl, _⟩ := hv
        cases lv with
        | dict q => exact ⟨⟨trivial, trivial⟩, SameEnd.ok H (getD_low q (l2.low i))⟩
      · cases e
    · cases e
  split at e
  · rename_i q
    rw [same_iff.mp q]
    split at e
    · obtain ⟨x, us, x', us', rfl, rfl, l, r⟩ := L.cons
      obtain ⟨rfl, rfl⟩ := r.nil
      split at e
      · rename_i i
        cases e
        obtain ⟨lv, k⟩ := hv
        cases lv with
        | ref r =>
          have k : w[r]? = some .list := k
          refine ⟨⟨fun c z => (by rw [k] at z; cases z), fun c z => (by rw [k] at z; cases z)⟩, ?_⟩
          obtain ⟨o, o', f, f', q⟩ := H.cell r _ k
          cases q with
          | list q =>
            simp only [builtinMeth, f, f']
            exact SameEnd.ok (H.set k (.list (q.append (.cons (l.low i) .nil)))) .none
        | tuple q => exact ⟨⟨trivial, trivial⟩, SameEnd.fail H _⟩
        | _ => cases k
      · cases e
    · cases e
  split at e
  · rename_i q
    rw [same_iff.mp q]
    have low : ∀ (i : Int) {ta tb : Ty}, HoldsL w [ta, tb] vs vs' → ta.isLow = true → tb.isLow = true →
        SameEnd A w (fun w => Holds w .arr) (builtinMeth (.int i) "to_bytes" vs h)
          (builtinMeth (.int i) "to_bytes" vs' h') := by
      intro i ta tb L ea eb
      obtain ⟨x, us, x', us', rfl, rfl, l, r⟩ := L.cons
      obtain ⟨x2, us, x2', us', rfl, rfl, l2, r⟩ := r.cons
      obtain ⟨rfl, rfl⟩ := r.nil
      have l := l.low ea
      have l2 := l2.low eb
      cases l <;> cases l2 <;> first | exact toBytes_same H _ _ _ | exact SameEnd.fail H _
    split at e
    · rename_i k n
      obtain ⟨x, us, x', us', rfl, rfl, l, r⟩ := L.cons
      obtain ⟨x2, us, x2', us', rfl, rfl, l2, r⟩ := r.cons
      obtain ⟨rfl, rfl⟩ := r.nil
      obtain ⟨rfl, rfl⟩ := l
      obtain ⟨s, rfl, rfl⟩ := l2
      split at e
      · rename_i le
        cases e
        obtain ⟨y, y', ly, ly', rfl, rfl⟩ := hv
        obtain ⟨b, eb, qb⟩ := toBytes_ok y n s h (pow_mono ly le)
        obtain ⟨c, ec, qc⟩ := toBytes_ok y' n s h' (pow_mono ly' le)
        refine ⟨⟨trivial, trivial⟩, ?_⟩
        simp only [builtinMeth, qb, qc]
        exact SameEnd.ok H ⟨.bytes (by rw [eb, ec]), trivial⟩
      · cases e
    · split at e
      · rename_i i
        cases e
        simp only [Bool.and_eq_true] at i
        obtain ⟨y, rfl, rfl⟩ := hv
        exact ⟨⟨trivial, trivial⟩, low _ L i.1 i.2⟩
      · cases e
    · split at e
      · rename_i i
        cases e
        simp only [Bool.and_eq_true] at i
        obtain ⟨rfl, rfl⟩ := hv
        exact ⟨⟨trivial, trivial⟩, low _ L i.1 i.2⟩
      · cases e
    · cases e
  split at e
  · rename_i q
    rw [same_iff.mp q]
    split at e
    · cases e
      obtain ⟨rfl, rfl⟩ := L.nil
      obtain ⟨y, rfl, rfl⟩ := hv
      exact ⟨⟨trivial, trivial⟩, SameEnd.ok H ⟨_, rfl, rfl⟩⟩
    · cases e
  split at e
  · rename_i q
    rw [same_iff.mp q]
    split at e
    · cases e
      obtain ⟨x, us, x', us', rfl, rfl, l, r⟩ := L.cons
      obtain ⟨rfl, rfl⟩ := r.nil
      obtain ⟨s, rfl, rfl⟩ := l
      obtain ⟨y, rfl, rfl⟩ := hv
      refine ⟨⟨trivial, trivial⟩, ?_⟩
      by_cases z : s = "."
      · subst z
        exact SameEnd.alloc H (.list (All2.refl Low.refl _)) ⟨.ref _, by simp [listLike]⟩
      · rw [split_other z, split_other z]
        exact SameEnd.fail H _
    · cases e
  split at e
  · rename_i q
    rw [same_iff.mp q]
    split at e
    · cases e
      obtain ⟨rfl, rfl⟩ := L.nil
      obtain ⟨b, c, f, f', g⟩ := bytesOf_like H hv.1 hv.2
      refine ⟨?_, ?_⟩
      · obtain ⟨lv, k⟩ := hv
        cases lv with
        | ref r =>
          have k : w[r]? = some .bytearray := k
          exact ⟨fun c z => (by rw [k] at z; cases z), fun c z => (by rw [k] at z; cases z)⟩
        | bytes _ => exact ⟨trivial, trivial⟩
        | _ => cases k
      · simp only [builtinMeth, f, f']
        exact SameEnd.ok H ⟨_, _, by rw [pyHex_length, pyHex_length, g], rfl, rfl⟩
    · cases e
  cases e

/-! ### Copies -/

theorem SameEnd.bind {α β : Type} {R : World → α → α → Prop} {S : World → β → β → Prop} {o o' : Out α}
    {f f' : α → Heap → Out β} (q : SameEnd A w R o o')
    (g : ∀ w' a a' h h', TyMore w w' → HRel A w' h h' → R w' a a' → SameEnd A w' S (f a h) (f' a' h')) :
    SameEnd A w S (andThen o f) (andThen o' f') := by
  obtain ⟨r, h⟩ := o
  obtain ⟨r', h'⟩ := o'
  obtain ⟨w', x, H, ⟨a, a', e, e', q⟩ | ⟨z, e, e'⟩⟩ := q
  · simp only at e e'
    subst e
    subst e'
    obtain ⟨w'', y, H', t⟩ := g w' a a' h h' x H q
    exact ⟨w'', x.trans y, H', t⟩
  · simp only at e e'
    subst e
    subst e'
    exact ⟨w', x, H, .inr ⟨z, rfl, rfl⟩⟩

theorem comp_agree {f f' : Val → Heap → Out Val}
    (g : ∀ (t : Ty) w v v' h h', HRel A w h h' → Holds w t v v' → SameEnd A w (fun w => Holds w t) (f v h) (f' v' h')) :
    ∀ {ts : List Ty} {w : World} {vs vs' : List Val} {h h' : Heap}, HRel A w h h' → HoldsL w ts vs vs' →
      SameEnd A w (fun w => HoldsL w ts) (evalComp f vs h) (evalComp f' vs' h')
  | [], _, [], [], _, _, H, _ => SameEnd.ok H trivial
  | t :: ts, _, v :: vs, v' :: vs', _, _, H, l => by
    refine (g t _ _ _ _ _ H l.1).bind fun w1 a a' h1 h1' x1 H1 r1 => ?_
    refine (comp_agree g H1 (l.2.mono x1)).bind fun w2 b b' h2 h2' x2 H2 r2 => ?_
    exact SameEnd.ok H2 ⟨r1.mono x2, r2⟩

theorem HoldsL.of_low {l m : List Val} (e : All2 Low l m) : HoldsL w (l.map fun _ => .low) l m := by
  induction e with
  | nil => trivial
  | cons a _ ih => exact ⟨a, ih⟩

theorem HoldsL.lows {α : Type} : ∀ {x : List α} {l m : List Val}, HoldsL w (x.map fun _ => .low) l m → All2 Low l m
  | [], [], [], _ => .nil
  | _ :: _, _ :: _, _ :: _, h => .cons h.1 (HoldsL.lows h.2)

theorem HoldsL.of_attrs {B : String → Ty} {l m : List (String × Val)} (e : Attrs B w l m) :
    l.map (·.1) = m.map (·.1) ∧ HoldsL w (l.map fun p => B p.1) (l.map (·.2)) (m.map (·.2)) := by
  induction e with
  | nil => exact ⟨rfl, trivial⟩
  | cons a _ ih => exact ⟨by simp [ih.1, a.1], a.2, ih.2⟩

theorem HoldsL.attrs {B : String → Ty} : ∀ {x : List (String × Val)} {l m : List Val},
    HoldsL w (x.map fun p => B p.1) l m → Attrs B w ((x.map (·.1)).zip l) ((x.map (·.1)).zip m)
  | [], [], [], _ => .nil
  | _ :: _, _ :: _, _ :: _, h => .cons ⟨rfl, h.1⟩ (HoldsL.attrs h.2)

/-- Another object of the same kind. -/
theorem Holds.move {w w' : World} {t : Ty} {r r' : Nat} {k : Kind} (a : w[r]? = some k) (b : w'[r']? = some k)
    (h : Holds w t (.ref r) (.ref r)) : Holds w' t (.ref r') (.ref r') := by
  cases t with
  | low => exact .ref _
  | arr =>
    refine ⟨.ref _, ?_⟩
    have : w[r]? = some .bytearray := h.2
    rw [a] at this
    cases this; exact b
  | seq =>
    refine ⟨.ref _, ?_⟩
    have : w[r]? = some .list := h.2
    rw [a] at this
    cases this; exact b
  | inst cs =>
    obtain ⟨_, c, e, _, q, m⟩ := h
    cases e
    rw [a] at q
    cases q
    exact ⟨r', c, rfl, rfl, b, m⟩
  | elem => exact .inr (.ref _)
  | dict => obtain ⟨_, _, e, _⟩ := h; cases e
  | lint => obtain ⟨_, e, _⟩ := h; cases e
  | lit n => obtain ⟨e, _⟩ := h; cases e
  | const n => obtain ⟨e, _⟩ := h; cases e
  | lbool => obtain ⟨_, e, _⟩ := h; cases e
  | str => obtain ⟨_, e, _⟩ := h; cases e
  | ints => obtain ⟨_, e, _⟩ := h; cases e
  | row m k => obtain ⟨_, _, _, e, _⟩ := h; cases e
  | rows m k => obtain ⟨_, _, e, _⟩ := h; cases e
  | scals => obtain ⟨_, _, e, _⟩ := h; cases e
  | pairs => obtain ⟨_, _, _, e, _⟩ := h; cases e
  | pair => obtain ⟨_, _, _, _, _, e, _⟩ := h; cases e
  | bits k => obtain ⟨_, _, _, _, e, _⟩ := h; cases e
  | int => obtain ⟨_, _, e, _⟩ := h; cases e
  | flag => obtain ⟨_, _, e, _⟩ := h; cases e
  | text => obtain ⟨_, _, _, e, _⟩ := h; cases e

/-- Only one of two values is a reference: never. -/
theorem Holds.ref {t : Ty} {v v' : Val} (h : Holds w t v v') : (∃ r, v = .ref r ∧ v' = .ref r) ∨
    ((∀ r, v ≠ .ref r) ∧ ∀ r, v' ≠ .ref r) := by
  have low : Low v v' → (∃ r, v = .ref r ∧ v' = .ref r) ∨ ((∀ r, v ≠ .ref r) ∧ ∀ r, v' ≠ .ref r) := by
    intro l
    cases l <;> first | exact .inl ⟨_, rfl, rfl⟩ | exact .inr ⟨nofun, nofun⟩
  cases t with
  | pairs => obtain ⟨_, _, _, rfl, rfl⟩ := h; exact .inr ⟨nofun, nofun⟩
  | pair => obtain ⟨_, _, _, _, _, rfl, rfl⟩ := h; exact .inr ⟨nofun, nofun⟩
  | bits k => obtain ⟨_, _, _, _, rfl, rfl⟩ := h; exact .inr ⟨nofun, nofun⟩
  | int => obtain ⟨_, _, rfl, rfl⟩ := h; exact .inr ⟨nofun, nofun⟩
  | flag => obtain ⟨_, _, rfl, rfl⟩ := h; exact .inr ⟨nofun, nofun⟩
  | text => obtain ⟨_, _, _, rfl, rfl⟩ := h; exact .inr ⟨nofun, nofun⟩
  | elem =>
    rcases h with ⟨⟨_, _, rfl⟩, ⟨_, _, rfl⟩⟩ | h
    · exact .inr ⟨nofun, nofun⟩
    · exact low h
  | _ => exact low (h.low rfl)

theorem copy_other {n : Nat} {v : Val} (q : ∀ r, v ≠ .ref r) (h : Heap) : copyVal (n + 1) v h = ok v h := by
  cases v <;> first | rfl | exact absurd rfl (q _)

theorem copy_ty : ∀ (n : Nat) (t : Ty) (w : World) (v v' : Val) (h h' : Heap), HRel A w h h' → Holds w t v v' →
    SameEnd A w (fun w => Holds w t) (copyVal n v h) (copyVal n v' h')
  | 0, _, _, _, _, _, _, H, _ => SameEnd.fail H _
  | n + 1, t, w, v, v', h, h', H, l => by
    rcases l.ref with ⟨r, rfl, rfl⟩ | ⟨q, q'⟩
    · simp only [copyVal]
      rcases H.at r with ⟨e, e'⟩ | ⟨k, o, o', ek, e, e', q⟩
      · rw [e, e']; exact SameEnd.fail H _
      · rw [e, e']
        cases q with
        | bytearray q => exact SameEnd.alloc H (.bytearray q) (l.move ek (by simp))
        | list q =>
          refine (comp_agree (copy_ty n) H (HoldsL.of_low q)).bind fun w' a a' h1 h1' x H1 r1 => ?_
          exact SameEnd.alloc H1 (.list r1.lows) ((l.mono x).move (x _ _ ek) (by simp))
        | inst q =>
          obtain ⟨e1, e2⟩ := HoldsL.of_attrs q
          refine (comp_agree (copy_ty n) H e2).bind fun w' a a' h1 h1' x H1 r1 => ?_
          rw [← e1]
          exact SameEnd.alloc H1 (.inst r1.attrs) ((l.mono x).move (x _ _ ek) (by simp))
    · rw [copy_other q, copy_other q']
      exact SameEnd.ok H l

end Gost.Src
