import Verif.Source.Paths

/-! The operations of the semantics on two memories of the same shape. -/

namespace Gost.Src

variable {A : String → String → Ty} {w : World} {h h' : Heap}

theorem truth_low {v v' : Val} (l : Low v v') : truth v = truth v' := by cases l <;> rfl

theorem bytesOf_low (H : HRel A w h h') {v v' : Val} (l : Low v v') :
    (bytesOf v h = none ∧ bytesOf v' h' = none) ∨
      ∃ b c, bytesOf v h = some b ∧ bytesOf v' h' = some c ∧ b.length = c.length := by
  cases l with
  | bytes e => exact .inr ⟨_, _, rfl, rfl, e⟩
  | ref r =>
    rcases H.at r with ⟨e, e'⟩ | ⟨k, o, o', _, e, e', q⟩
    · exact .inl ⟨by simp only [bytesOf, e], by simp only [bytesOf, e']⟩
    · cases q with
      | bytearray q => exact .inr ⟨_, _, by simp only [bytesOf, e], by simp only [bytesOf, e'], q⟩
      | list q => exact .inl ⟨by simp only [bytesOf, e], by simp only [bytesOf, e']⟩
      | inst q => exact .inl ⟨by simp only [bytesOf, e], by simp only [bytesOf, e']⟩
  | _ => exact .inl ⟨rfl, rfl⟩

theorem bytesOf_like (H : HRel A w h h') {v v' : Val} (l : Low v v') (k : bytesLike w v) :
    ∃ b c, bytesOf v h = some b ∧ bytesOf v' h' = some c ∧ b.length = c.length := by
  cases l with
  | bytes e => exact ⟨_, _, rfl, rfl, e⟩
  | ref r =>
    obtain ⟨o, o', e, e', q⟩ := H.cell r _ k
    cases q with
    | bytearray q => exact ⟨_, _, by simp only [bytesOf, e], by simp only [bytesOf, e'], q⟩
  | _ => cases k

theorem byte_ints {b c : Bytes} (e : b.length = c.length) : All2 (fun x y => isByte x ∧ isByte y)
    (b.map fun x : UInt8 => Val.int x.toNat) (c.map fun x : UInt8 => Val.int x.toNat) :=
  All2.map (R := fun _ _ => True) (All2.of_length (fun _ _ => trivial) e)
    fun a b _ => ⟨⟨a.toNat, a.toNat_lt, rfl⟩, ⟨b.toNat, b.toNat_lt, rfl⟩⟩

theorem byte_bits {w : World} {x y : Val} (h : isByte x ∧ isByte y) : Holds w (.bits 8) x y := by
  obtain ⟨⟨a, la, ea⟩, ⟨b, lb, eb⟩⟩ := h
  exact ⟨a, b, la, lb, ea, eb⟩

theorem elems_low (H : HRel A w h h') {v v' : Val} (l : Low v v') :
    (elems v h = none ∧ elems v' h' = none) ∨
      ∃ x y, elems v h = some x ∧ elems v' h' = some y ∧ All2 (Holds w .elem) x y := by
  cases l with
  | bytes e => exact .inr ⟨_, _, rfl, rfl, (byte_ints e).mono fun _ _ h => .inl h⟩
  | tuple e => exact .inr ⟨_, _, rfl, rfl, e.all2.mono fun _ _ h => .inr h⟩
  | ref r =>
    rcases H.at r with ⟨e, e'⟩ | ⟨k, o, o', _, e, e', q⟩
    · exact .inl ⟨by simp only [elems, e], by simp only [elems, e']⟩
    · cases q with
      | bytearray q => exact .inr ⟨_, _, by simp only [elems, e], by simp only [elems, e'],
          (byte_ints q).mono fun _ _ h => .inl h⟩
      | list q => exact .inr ⟨_, _, by simp only [elems, e], by simp only [elems, e'],
          q.mono fun _ _ h => .inr h⟩
      | inst q => exact .inl ⟨by simp only [elems, e], by simp only [elems, e']⟩
  | _ => exact .inl ⟨rfl, rfl⟩

theorem enumerated_pairs {w : World} {l m : List Val} (e : All2 (fun x y => isByte x ∧ isByte y) l m) : ∀ k : Nat,
    All2 (Holds w .pair) (enumerated k l) (enumerated k m) := by
  induction e with
  | nil => exact fun _ => .nil
  | cons a _ ih => exact fun k => .cons ⟨k, _, _, a.1, a.2, rfl, rfl⟩ (ih (k + 1))

theorem elems_item (H : HRel A w h h') {s t : Ty} (i : t.item = some s) {v v' : Val} (l : Holds w t v v') :
    (elems v h = none ∧ elems v' h' = none) ∨
      ∃ x y, elems v h = some x ∧ elems v' h' = some y ∧ All2 (Holds w s) x y := by
  cases t with
  | low => cases i; exact elems_low H l
  | arr =>
    cases i
    obtain ⟨l, k⟩ := l
    cases l with
    | bytes e => exact .inr ⟨_, _, rfl, rfl, (byte_ints e).mono fun _ _ h => byte_bits h⟩
    | ref r =>
      obtain ⟨o, o', e, e', q⟩ := H.cell r _ k
      cases q with
      | bytearray q => exact .inr ⟨_, _, by simp only [elems, e], by simp only [elems, e'],
          (byte_ints q).mono fun _ _ h => byte_bits h⟩
    | _ => cases k
  | seq =>
    cases i
    obtain ⟨l, k⟩ := l
    cases l with
    | tuple e => exact .inr ⟨_, _, rfl, rfl, e.all2⟩
    | ref r =>
      obtain ⟨o, o', e, e', q⟩ := H.cell r _ k
      cases q with
      | list q => exact .inr ⟨_, _, by simp only [elems, e], by simp only [elems, e'], q⟩
    | _ => cases k
  | scals => cases i; obtain ⟨l, _, rfl, rfl⟩ := l; exact .inr ⟨_, _, rfl, rfl, All2.refl Low.refl _⟩
  | ints =>
    cases i
    obtain ⟨l, rfl, rfl⟩ := l
    exact .inr ⟨_, _, rfl, rfl, All2.map (All2.refl (R := fun a b => a = b) (fun _ => rfl) l)
      fun a b e => ⟨a, rfl, by rw [e]⟩⟩
  | row m k =>
    cases i
    obtain ⟨l, _, _, rfl, rfl⟩ := l
    exact .inr ⟨_, _, rfl, rfl, All2.map (All2.refl (R := fun a b => a = b) (fun _ => rfl) l)
      fun a b e => ⟨a, rfl, by rw [e]⟩⟩
  | rows m k =>
    cases i
    obtain ⟨ls, q, rfl, rfl⟩ := l
    refine .inr ⟨_, _, rfl, rfl, ?_⟩
    clear H
    induction ls with
    | nil => exact .nil
    | cons a ls ih =>
      refine .cons ⟨a, (q a List.mem_cons_self).1, (q a List.mem_cons_self).2, rfl, rfl⟩ ?_
      exact ih fun l hl => q l (List.mem_cons_of_mem _ hl)
  | pairs =>
    cases i
    obtain ⟨l, l', e, rfl, rfl⟩ := l
    exact .inr ⟨_, _, rfl, rfl, enumerated_pairs e 0⟩
  | _ => cases i

/-! ### Comparisons -/

theorem plain_bytesOf {v : Val} (p : plainVal v) (h : Heap) : bytesOf v h = none := by
  cases v <;> first | rfl | exact p.elim

theorem valEq_low (H : HRel A w h h') {a a' b b' : Val} (la : Low a a') (lb : Low b b')
    (p : plainVal a ∨ plainVal b) : valEq a b h = valEq a' b' h' := by
  have key : ∀ r, (bytesOf (.ref r) h = none ∧ bytesOf (.ref r) h' = none) ∨
      ∃ b c, bytesOf (.ref r) h = some b ∧ bytesOf (.ref r) h' = some c ∧ b.length = c.length :=
    fun r => bytesOf_low H (.ref r)
  cases la with
  | ref r =>
    rcases p with p | p
    · exact p.elim
    · cases lb <;> first | exact p.elim | skip
      all_goals
        rcases key r with ⟨e, e'⟩ | ⟨x, y, e, e', _⟩
        · unfold valEq; simp only [e, e']; rfl
        · unfold valEq; simp only [e, e']; rfl
  | bytes q =>
    rcases p with p | p
    · exact p.elim
    · cases lb <;> first | exact p.elim | rfl
  | tuple q =>
    rcases p with p | p
    · exact p.elim
    · cases lb <;> first | exact p.elim | rfl
  | dict q =>
    rcases p with p | p
    · exact p.elim
    · cases lb <;> first | exact p.elim | rfl
  | _ =>
    cases lb with
    | ref r =>
      rcases key r with ⟨e, e'⟩ | ⟨x, y, e, e', _⟩
      · unfold valEq; simp only [e, e']; rfl
      · unfold valEq; simp only [e, e']; rfl
    | _ => rfl

theorem valIn_low (H : HRel A w h h') {a a' : Val} (la : Low a a') : ∀ l : List Val, (∀ x ∈ l, plainVal x) →
    valIn a h l = valIn a' h' l
  | [], _ => rfl
  | x :: l, p => by
    have e := valEq_low H la (Low.refl x) (.inr (p x List.mem_cons_self))
    have ih := valIn_low H la l fun y hy => p y (List.mem_cons_of_mem _ hy)
    simp only [valIn, e, ih]

/-- The type of a comparison. -/
def tyCmp (op : CmpOp) (s t : Ty) : Option Ty :=
  match op with
  | .eq =>
    match s, t with
    | .lit n, .lit m => some (.const (n == m))
    | s, t => if (s.isScalar && t.isLow) || (s.isLow && t.isScalar) then some .lbool else none
  | .ne =>
    if (s.isScalar && t.isLow) || (s.isLow && t.isScalar) then some .lbool else none
  | .isIn | .notIn => if s.isLow && decide (t = .scals) then some .lbool else none
  | _ => if s.isLow && t.isLow then some .lbool else none

theorem valEq_ty (H : HRel A w h h') {s t : Ty} {a a' b b' : Val} (ha : Holds w s a a') (hb : Holds w t b b')
    (e : ((s.isScalar && t.isLow) || (s.isLow && t.isScalar)) = true) : valEq a b h = valEq a' b' h' := by
  simp only [Bool.or_eq_true, Bool.and_eq_true] at e
  rcases e with ⟨i, j⟩ | ⟨i, j⟩
  · exact valEq_low H (ha.low (Ty.isScalar_low i)) (hb.low j) (.inl (ha.scalar i).2)
  · exact valEq_low H (ha.low i) (hb.low (Ty.isScalar_low j)) (.inr (hb.scalar j).2)

theorem cmp_order (H : HRel A w h h') {op : CmpOp} {a a' b b' : Val} (la : Low a a') (lb : Low b b')
    (ne : op = .lt ∨ op = .le ∨ op = .gt ∨ op = .ge) :
    SameEnd A w (fun w => Holds w .lbool) (cmpop op a b h) (cmpop op a' b' h') := by
  rcases ne with rfl | rfl | rfl | rfl <;> cases la <;> cases lb <;> first | exact SameEnd.fail H _ | exact SameEnd.ok H ⟨_, rfl, rfl⟩

theorem cmpop_ty (H : HRel A w h h') {op : CmpOp} {s t u : Ty} {a a' b b' : Val} (ha : Holds w s a a')
    (hb : Holds w t b b') (e : tyCmp op s t = some u) :
    SameEnd A w (fun w => Holds w u) (cmpop op a b h) (cmpop op a' b' h') := by
  have key : ∀ (o : Option Bool) (f : Bool → Bool), SameEnd A w (fun w => Holds w .lbool)
      (match o with | some r => ok (.bool (f r)) h | none => fail .stuck h)
      (match o with | some r => ok (.bool (f r)) h' | none => fail .stuck h') := by
    intro o f
    cases o with
    | none => exact SameEnd.fail H _
    | some r => exact SameEnd.ok H ⟨f r, rfl, rfl⟩
  have isin : ∀ (f : Bool → Bool) (l : List Val), (∀ x ∈ l, plainVal x) → Low a a' → SameEnd A w (fun w => Holds w .lbool)
      (match valIn a h l with | some r => ok (.bool (f r)) h | none => fail .stuck h)
      (match valIn a' h' l with | some r => ok (.bool (f r)) h' | none => fail .stuck h') := by
    intro f l p la
    rw [valIn_low H la l p]
    exact key _ f
  cases op with
  | eq =>
    simp only [tyCmp] at e
    split at e
    · cases e
      obtain ⟨rfl, rfl⟩ := ha
      obtain ⟨rfl, rfl⟩ := hb
      rename_i n m
      refine SameEnd.ok H ?_
      have : ((n : Int) == (m : Int)) = (n == m) := by
        by_cases q : n = m
        · subst q; simp
        · rw [beq_eq_false_iff_ne.mpr q, beq_eq_false_iff_ne]; omega
      exact ⟨by rw [this], by rw [this]⟩
    · split at e
      · cases e
        rename_i q
        simp only [cmpop, valEq_ty H ha hb q]
        exact key _ id
      · cases e
  | ne =>
    simp only [tyCmp] at e
    split at e
    · cases e
      rename_i q
      simp only [cmpop, valEq_ty H ha hb q]
      exact key _ not
    · cases e
  | isIn =>
    simp only [tyCmp] at e
    split at e
    · cases e
      rename_i q
      simp only [Bool.and_eq_true, decide_eq_true_eq] at q
      obtain ⟨q, rfl⟩ := q
      obtain ⟨l, p, rfl, rfl⟩ := hb
      exact isin id l p (ha.low q)
    · cases e
  | notIn =>
    simp only [tyCmp] at e
    split at e
    · cases e
      rename_i q
      simp only [Bool.and_eq_true, decide_eq_true_eq] at q
      obtain ⟨q, rfl⟩ := q
      obtain ⟨l, p, rfl, rfl⟩ := hb
      exact isin not l p (ha.low q)
    · cases e
  | _ =>
    simp only [tyCmp] at e
    split at e
    · cases e
      rename_i q
      simp only [Bool.and_eq_true] at q
      exact cmp_order H (ha.low q.1) (hb.low q.2) (by simp)
    · cases e

/-- Comparison with an empty byte array tells whether a byte string is empty, and this is a matter of its length. -/
theorem cmp_empty (H : HRel A w h h') {op : CmpOp} (ne : op = .eq ∨ op = .ne) {a a' : Val} (la : Low a a') {r : Nat}
    (e : h[r]? = some (.bytearray [])) (e' : h'[r]? = some (.bytearray [])) :
    SameEnd A w (fun w => Holds w .lbool) (cmpop op a (.ref r) h) (cmpop op a' (.ref r) h') := by
  have key : valEq a (.ref r) h = valEq a' (.ref r) h' := by
    have b : bytesOf (.ref r) h = some [] := by simp only [bytesOf, e]
    have b' : bytesOf (.ref r) h' = some [] := by simp only [bytesOf, e']
    cases la with
    | bytes q =>
      rename_i x y
      unfold valEq
      simp only [bytesOf, e, e']
      cases x <;> cases y <;> first | rfl | cases q
    | ref s =>
      rcases bytesOf_low H (.ref s) with ⟨f, f'⟩ | ⟨x, y, f, f', q⟩
      · unfold valEq
        simp only [b, b', f, f']
      · unfold valEq
        simp only [b, b', f, f']
        cases x <;> cases y <;> first | rfl | cases q
    | _ => unfold valEq; simp only [b, b']; rfl
  rcases ne with rfl | rfl
  · simp only [cmpop, key]
    cases valEq a' (.ref r) h' with
    | none => exact SameEnd.fail H _
    | some r => exact SameEnd.ok H ⟨_, rfl, rfl⟩
  · simp only [cmpop, key]
    cases valEq a' (.ref r) h' with
    | none => exact SameEnd.fail H _
    | some r => exact SameEnd.ok H ⟨_, rfl, rfl⟩

/-! ### Operators -/

theorem add_bytes (x : Bytes) (v : Val) (h : Heap) : binop .add (.bytes x) v h =
    match bytesOf v h with
    | some y => ok (.bytes (x ++ y)) h
    | none => fail .stuck h := by
  unfold binop
  simp only []
  rw [show bytesOf (.bytes x) h = some x from rfl]
  generalize bytesOf v h = o
  cases o <;> rfl

theorem add_ref (r : Nat) (v : Val) (h : Heap) : binop .add (.ref r) v h =
    match bytesOf (.ref r) h, bytesOf v h with
    | some x, some y => alloc (.bytearray (x ++ y)) h
    | _, _ => fail .stuck h := by
  unfold binop
  simp only []
  generalize bytesOf (.ref r) h = o
  generalize bytesOf v h = o'
  cases o <;> cases o' <;> rfl

theorem arith_agree (H : HRel A w h h') (op : BinOp) (x y : Int) : SameEnd A w (fun w => Holds w .lint)
    (binop op (.int x) (.int y) h) (binop op (.int x) (.int y) h') := by
  unfold binop
  simp only []
  cases arith op x y with
  | ok z => exact SameEnd.ok H ⟨z, rfl, rfl⟩
  | error e => exact SameEnd.fail H e

theorem repeated_length {b c : Bytes} (e : b.length = c.length) (n : Int) :
    (repeated b n).length = (repeated c n).length := by
  simp only [repeated, List.length_flatten, List.map_replicate, e]

/-- What is known of a result of `+` or `*` which is not of two integers. -/
def Grown (a b : Val) (w : World) (v v' : Val) : Prop :=
  Low v v' ∧ (bytesLike w v ∨ (∃ i j, a = .int i ∧ b = .int j))

theorem binop_low (H : HRel A w h h') (op : BinOp) {a a' b b' : Val} (la : Low a a') (lb : Low b b') :
    SameEnd A w (Grown a b) (binop op a b h) (binop op a' b' h') := by
  have ii : ∀ (op : BinOp) (i j : Int), SameEnd A w (Grown (.int i) (.int j)) (binop op (.int i) (.int j) h)
      (binop op (.int i) (.int j) h') := fun op i j =>
    (arith_agree H op i j).mono fun w a a' q => ⟨q.low rfl, .inr ⟨_, _, rfl, rfl⟩⟩
  cases op with
  | add =>
    cases la with
    | bytes e =>
      rw [add_bytes, add_bytes]
      rcases bytesOf_low H lb with ⟨f, f'⟩ | ⟨x, y, f, f', q⟩
      · rw [f, f']; exact SameEnd.fail H _
      · rw [f, f']; exact SameEnd.ok H ⟨.bytes (by simp [e, q]), .inl trivial⟩
    | ref r =>
      rw [add_ref, add_ref]
      rcases bytesOf_low H (.ref r) with ⟨e, e'⟩ | ⟨x, y, e, e', p⟩
      · rw [e, e']; exact SameEnd.fail H _
      · rcases bytesOf_low H lb with ⟨f, f'⟩ | ⟨x', y', f, f', q⟩
        · rw [e, e', f, f']; exact SameEnd.fail H _
        · rw [e, e', f, f']
          exact SameEnd.alloc H (.bytearray (by simp [p, q])) ⟨.ref _, .inl (by simp [bytesLike])⟩
    | int i => cases lb <;> first | exact ii _ _ _ | exact SameEnd.fail H _
    | _ => cases lb <;> exact SameEnd.fail H _
  | mul =>
    cases la with
    | int i =>
      cases lb with
      | int j => exact ii _ _ _
      | bytes e => exact SameEnd.ok H ⟨.bytes (repeated_length e i), .inl trivial⟩
      | _ => exact SameEnd.fail H _
    | bytes e =>
      cases lb with
      | int j => exact SameEnd.ok H ⟨.bytes (repeated_length e j), .inl trivial⟩
      | _ => exact SameEnd.fail H _
    | _ => cases lb <;> exact SameEnd.fail H _
  | _ => cases la <;> cases lb <;> first | exact ii _ _ _ | exact SameEnd.fail H _

/-- The type of an operation. -/
def tyBin (op : BinOp) (s t : Ty) : Option Ty :=
  if s.isLint && t.isLint then some .lint
  else if s.isLow && t.isLow then
    match op with
    | .add => some (if s = .arr then .arr else .low)
    | .mul => some (if s = .arr ∨ t = .arr then .arr else .low)
    | _ => some .low
  else
    match op with
    | .shl =>
      match s, t with
      | .bits k, .lit n => some (.bits (k + n))
      | .int, .lit _ => some .int
      | _, _ => none
    | .shr =>
      match s, t with
      | .bits k, .lit n => some (.bits (k - n))
      | .int, .lit _ => some .int
      | _, _ => none
    | .band =>
      match s.size, t.size with
      | some j, some k => some (.bits (min j k))
      | some j, none => if t.isInt then some (.bits j) else none
      | none, some k => if s.isInt then some (.bits k) else none
      | none, none => none
    | .bor | .bxor =>
      match s.size, t.size with
      | some j, some k => some (.bits (max j k))
      | _, _ => none
    | .add =>
      match s.size, t.size with
      | some j, some k => some (.bits (max j k + 1))
      | _, _ => if s.isInt && t.isInt then some .int else none
    | .sub | .mul => if s.isInt && t.isInt then some .int else none
    | _ => none

theorem intAnd_nat_right (x : Int) (y k : Nat) (h : y < 2 ^ k) : ∃ z : Nat, z < 2 ^ k ∧ intAnd x y = z := by
  cases x with
  | ofNat m => exact ⟨m &&& y, Nat.and_lt_two_pow _ h, rfl⟩
  | negSucc m => exact ⟨y ^^^ (y &&& m), Nat.xor_lt_two_pow h (Nat.lt_of_le_of_lt Nat.and_le_left h), rfl⟩

theorem intAnd_nat_left (x k : Nat) (y : Int) (h : x < 2 ^ k) : ∃ z : Nat, z < 2 ^ k ∧ intAnd x y = z := by
  cases y with
  | ofNat m => exact ⟨x &&& m, Nat.lt_of_le_of_lt Nat.and_le_left h, rfl⟩
  | negSucc m => exact ⟨x ^^^ (x &&& m), Nat.xor_lt_two_pow h (Nat.lt_of_le_of_lt Nat.and_le_left h), rfl⟩

theorem pow_mono {j k x : Nat} (h : x < 2 ^ j) (le : j ≤ k) : x < 2 ^ k :=
  Nat.lt_of_lt_of_le h (Nat.pow_le_pow_right (by decide) le)

theorem shr_nat (x n : Nat) : Int.fdiv (x : Int) (2 ^ n) = ((x >>> n : Nat) : Int) := by
  rw [Nat.shiftRight_eq_div_pow, Int.fdiv_eq_ediv_of_nonneg _ (by exact_mod_cast Nat.zero_le (2 ^ n))]
  norm_cast

theorem ok_ok (H : HRel A w h h') {u : Ty} {v v' : Val} (q : Holds w u v v') :
    SameEnd A w (fun w => Holds w u) (ok v h) (ok v' h') := SameEnd.ok H q

theorem binop_ty (H : HRel A w h h') {op : BinOp} {s t u : Ty} {a a' b b' : Val} (ha : Holds w s a a')
    (hb : Holds w t b b') (e : tyBin op s t = some u) :
    SameEnd A w (fun w => Holds w u) (binop op a b h) (binop op a' b' h') := by
  unfold tyBin at e
  split at e
  · rename_i q
    cases e
    simp only [Bool.and_eq_true] at q
    obtain ⟨x, rfl, rfl⟩ := ha.isLint q.1
    obtain ⟨y, rfl, rfl⟩ := hb.isLint q.2
    exact arith_agree H op x y
  split at e
  · rename_i q
    simp only [Bool.and_eq_true] at q
    have key := binop_low H op (ha.low q.1) (hb.low q.2)
    have up : SameEnd A w (fun w => Holds w .low) (binop op a b h) (binop op a' b' h') := key.mono fun w v v' g => g.1
    have arrA : s = .arr → SameEnd A w (fun w => Holds w .arr) (binop op a b h) (binop op a' b' h') := fun es =>
      key.mono fun w' v v' g => ⟨g.1, by
        rcases g.2 with g | ⟨i, j, rfl, rfl⟩
        · exact g
        · subst es; exact ha.2.elim⟩
    have arrB : t = .arr → SameEnd A w (fun w => Holds w .arr) (binop op a b h) (binop op a' b' h') := fun es =>
      key.mono fun w' v v' g => ⟨g.1, by
        rcases g.2 with g | ⟨i, j, rfl, rfl⟩
        · exact g
        · subst es; exact hb.2.elim⟩
    split at e
    · cases e
      split
      · exact arrA ‹_›
      · exact up
    · cases e
      split
      · rename_i o
        rcases o with o | o
        · exact arrA o
        · exact arrB o
      · exact up
    · cases e; exact up
  split at e
  · -- shl
    split at e
    · cases e
      obtain ⟨x, x', l, l', rfl, rfl⟩ := ha
      obtain ⟨rfl, rfl⟩ := hb
      rename_i k n _ _
      have key : ∀ x : Nat, arith .shl (x : Int) (n : Int) = .ok (((x <<< n : Nat)) : Int) := by
        intro x
        simp only [arith]
        rw [if_neg (by omega), Int.toNat_natCast, Nat.shiftLeft_eq]
        push_cast
        rfl
      have lt : ∀ x : Nat, x < 2 ^ k → x <<< n < 2 ^ (k + n) := fun x l => by
        rw [Nat.shiftLeft_eq, Nat.pow_add]
        exact Nat.mul_lt_mul_of_pos_right l (Nat.two_pow_pos n)
      simp only [binop, key]
      exact SameEnd.ok H ⟨_, _, lt x l, lt x' l', rfl, rfl⟩
    · cases e
      obtain ⟨x, x', rfl, rfl⟩ := ha
      obtain ⟨rfl, rfl⟩ := hb
      simp only [binop, arith]
      rw [if_neg (by omega)]
      exact SameEnd.ok H ⟨_, _, rfl, rfl⟩
    · cases e
  · -- shr
    split at e
    · cases e
      obtain ⟨x, x', l, l', rfl, rfl⟩ := ha
      obtain ⟨rfl, rfl⟩ := hb
      rename_i k n _ _
      have key : ∀ x : Nat, arith .shr (x : Int) (n : Int) = .ok (((x >>> n : Nat)) : Int) := by
        intro x
        simp only [arith]
        rw [if_neg (by omega), Int.toNat_natCast, shr_nat]
      have lt : ∀ x : Nat, x < 2 ^ k → x >>> n < 2 ^ (k - n) := fun x l => by
        rw [Nat.shiftRight_eq_div_pow]
        by_cases le : n ≤ k
        · rw [Nat.div_lt_iff_lt_mul (Nat.two_pow_pos n), ← Nat.pow_add, Nat.sub_add_cancel le]
          exact l
        · have : 2 ^ k ≤ 2 ^ n := Nat.pow_le_pow_right (by decide) (by omega)
          rw [Nat.div_eq_of_lt (by omega)]
          exact Nat.two_pow_pos _
      simp only [binop, key]
      exact SameEnd.ok H ⟨_, _, lt x l, lt x' l', rfl, rfl⟩
    · cases e
      obtain ⟨x, x', rfl, rfl⟩ := ha
      obtain ⟨rfl, rfl⟩ := hb
      simp only [binop, arith]
      rw [if_neg (by omega)]
      exact SameEnd.ok H ⟨_, _, rfl, rfl⟩
    · cases e
  · -- and
    split at e
    · cases e
      rename_i es et
      obtain ⟨x, x', lx, lx', rfl, rfl⟩ := ha.size es
      obtain ⟨y, y', ly, ly', rfl, rfl⟩ := hb.size et
      simp only [binop, arith, intAnd]
      rename_i j k
      have lt : ∀ x y : Nat, x < 2 ^ j → y < 2 ^ k → x &&& y < 2 ^ min j k := fun x y lx ly => by
        rcases Nat.le_total j k with le | le
        · rw [Nat.min_eq_left le]; exact Nat.lt_of_le_of_lt Nat.and_le_left lx
        · rw [Nat.min_eq_right le]; exact Nat.lt_of_le_of_lt Nat.and_le_right ly
      exact SameEnd.ok H ⟨x &&& y, x' &&& y', lt _ _ lx ly, lt _ _ lx' ly', rfl, rfl⟩
    · split at e
      · cases e
        rename_i es et i
        obtain ⟨x, x', lx, lx', rfl, rfl⟩ := ha.size es
        obtain ⟨y, y', rfl, rfl⟩ := hb.isInt i
        obtain ⟨z, l, q⟩ := intAnd_nat_left x _ y lx
        obtain ⟨z', l', q'⟩ := intAnd_nat_left x' _ y' lx'
        simp only [binop, arith, q, q']
        exact SameEnd.ok H ⟨z, z', l, l', rfl, rfl⟩
      · cases e
    · split at e
      · cases e
        rename_i es et i
        obtain ⟨x, x', rfl, rfl⟩ := ha.isInt i
        obtain ⟨y, y', ly, ly', rfl, rfl⟩ := hb.size et
        obtain ⟨z, l, q⟩ := intAnd_nat_right x y _ ly
        obtain ⟨z', l', q'⟩ := intAnd_nat_right x' y' _ ly'
        simp only [binop, arith, q, q']
        exact SameEnd.ok H ⟨z, z', l, l', rfl, rfl⟩
      · cases e
    · cases e
  · -- or
    split at e
    · cases e
      rename_i es et
      obtain ⟨x, x', lx, lx', rfl, rfl⟩ := ha.size es
      obtain ⟨y, y', ly, ly', rfl, rfl⟩ := hb.size et
      simp only [binop, arith]
      rw [if_neg (by omega), if_neg (by omega)]
      exact SameEnd.ok H ⟨_, _, Nat.or_lt_two_pow (pow_mono lx (Nat.le_max_left ..)) (pow_mono ly (Nat.le_max_right ..)),
        Nat.or_lt_two_pow (pow_mono lx' (Nat.le_max_left ..)) (pow_mono ly' (Nat.le_max_right ..)), rfl, rfl⟩
    · cases e
  · -- xor
    split at e
    · cases e
      rename_i es et
      obtain ⟨x, x', lx, lx', rfl, rfl⟩ := ha.size es
      obtain ⟨y, y', ly, ly', rfl, rfl⟩ := hb.size et
      simp only [binop, arith]
      rw [if_neg (by omega), if_neg (by omega)]
      exact SameEnd.ok H ⟨_, _, Nat.xor_lt_two_pow (pow_mono lx (Nat.le_max_left ..)) (pow_mono ly (Nat.le_max_right ..)),
        Nat.xor_lt_two_pow (pow_mono lx' (Nat.le_max_left ..)) (pow_mono ly' (Nat.le_max_right ..)), rfl, rfl⟩
    · cases e
  · -- add
    split at e
    · cases e
      rename_i es et
      obtain ⟨x, x', lx, lx', rfl, rfl⟩ := ha.size es
      obtain ⟨y, y', ly, ly', rfl, rfl⟩ := hb.size et
      rename_i j k
      have lt : ∀ x y : Nat, x < 2 ^ j → y < 2 ^ k → x + y < 2 ^ (max j k + 1) := fun x y lx ly => by
        have a := pow_mono lx (Nat.le_max_left j k)
        have b := pow_mono ly (Nat.le_max_right j k)
        rw [Nat.pow_succ]
        omega
      exact SameEnd.ok H ⟨x + y, x' + y', lt _ _ lx ly, lt _ _ lx' ly', rfl, rfl⟩
    · split at e
      · cases e
        rename_i i
        simp only [Bool.and_eq_true] at i
        obtain ⟨x, x', rfl, rfl⟩ := ha.isInt i.1
        obtain ⟨y, y', rfl, rfl⟩ := hb.isInt i.2
        exact SameEnd.ok H ⟨_, _, rfl, rfl⟩
      · cases e
  · split at e
    · cases e
      rename_i i
      simp only [Bool.and_eq_true] at i
      obtain ⟨x, x', rfl, rfl⟩ := ha.isInt i.1
      obtain ⟨y, y', rfl, rfl⟩ := hb.isInt i.2
      exact SameEnd.ok H ⟨_, _, rfl, rfl⟩
    · cases e
  · split at e
    · cases e
      rename_i i
      simp only [Bool.and_eq_true] at i
      obtain ⟨x, x', rfl, rfl⟩ := ha.isInt i.1
      obtain ⟨y, y', rfl, rfl⟩ := hb.isInt i.2
      exact SameEnd.ok H ⟨_, _, rfl, rfl⟩
    · cases e
  · cases e

end Gost.Src
