import Verif.Source.Trace
import Verif.Source.Names

/-! Two runs of the same text which differ in the contents of byte strings only. Types say what two values have in
common; the operations of the semantics lead from values of given types to values of given types, or to the same exception
in both runs. -/

namespace Gost.Src

/-! ### Lists of the same length with related elements -/

inductive All2 {α : Type} (R : α → α → Prop) : List α → List α → Prop
  | nil : All2 R [] []
  | cons {a b l m} : R a b → All2 R l m → All2 R (a :: l) (b :: m)

section
variable {α : Type} {R S : α → α → Prop}

theorem All2.length {l m : List α} (h : All2 R l m) : l.length = m.length := by
  induction h with
  | nil => rfl
  | cons _ _ ih => simp [ih]

theorem All2.mono {l m : List α} (h : All2 R l m) (i : ∀ a b, R a b → S a b) : All2 S l m := by
  induction h with
  | nil => exact .nil
  | cons a _ ih => exact .cons (i _ _ a) ih

theorem All2.append {l m l' m' : List α} (h : All2 R l m) (h' : All2 R l' m') : All2 R (l ++ l') (m ++ m') := by
  induction h with
  | nil => exact h'
  | cons a _ ih => exact .cons a ih

theorem All2.take {l m : List α} (h : All2 R l m) : ∀ n, All2 R (l.take n) (m.take n) := by
  induction h with
  | nil => intro n; simp only [List.take_nil]; exact .nil
  | cons a _ ih =>
    intro n
    cases n with
    | zero => exact .nil
    | succ n => exact .cons a (ih n)

theorem All2.drop {l m : List α} (h : All2 R l m) : ∀ n, All2 R (l.drop n) (m.drop n) := by
  induction h with
  | nil => intro n; simp only [List.drop_nil]; exact .nil
  | cons a t ih =>
    intro n
    cases n with
    | zero => exact .cons a t
    | succ n => exact ih n

theorem All2.set {l m : List α} (h : All2 R l m) {a b : α} (r : R a b) : ∀ n, All2 R (l.set n a) (m.set n b) := by
  induction h with
  | nil => intro n; exact .nil
  | cons x t ih =>
    intro n
    cases n with
    | zero => exact .cons r t
    | succ n => exact .cons x (ih n)

theorem All2.get {l m : List α} (h : All2 R l m) : ∀ n : Nat,
    (l[n]? = none ∧ m[n]? = none) ∨ ∃ a b, l[n]? = some a ∧ m[n]? = some b ∧ R a b := by
  induction h with
  | nil => intro n; exact .inl ⟨rfl, rfl⟩
  | cons a t ih =>
    intro n
    cases n with
    | zero => exact .inr ⟨_, _, rfl, rfl, a⟩
    | succ n => exact ih n

theorem All2.refl (r : ∀ a, R a a) : ∀ l : List α, All2 R l l
  | [] => .nil
  | a :: l => .cons (r a) (All2.refl r l)

theorem All2.map {β : Type} {T : β → β → Prop} {f : α → β} {l m : List α} (h : All2 R l m)
    (i : ∀ a b, R a b → T (f a) (f b)) : All2 T (l.map f) (m.map f) := by
  induction h with
  | nil => exact .nil
  | cons a _ ih => exact .cons (i _ _ a) ih

theorem All2.of_length {l : List α} (r : ∀ a b, R a b) : ∀ {m : List α}, l.length = m.length → All2 R l m := by
  induction l with
  | nil => intro m h; cases m with
    | nil => exact .nil
    | cons _ _ => cases h
  | cons a l ih => intro m h; cases m with
    | nil => cases h
    | cons b m => exact .cons (r a b) (ih (by simpa using h))

end

/-! ### Values -/

mutual

/-- Values which differ in the contents of byte strings only. -/
inductive Low : Val → Val → Prop
  | none : Low .none .none
  | bool (b : Bool) : Low (.bool b) (.bool b)
  | int (i : Int) : Low (.int i) (.int i)
  | str (s : String) : Low (.str s) (.str s)
  | ref (r : Nat) : Low (.ref r) (.ref r)
  | bytes {b c : Bytes} : b.length = c.length → Low (.bytes b) (.bytes c)
  | tuple {l m : List Val} : LowL l m → Low (.tuple l) (.tuple m)
  | dict {l m : List (String × Val)} : LowD l m → Low (.dict l) (.dict m)

inductive LowL : List Val → List Val → Prop
  | nil : LowL [] []
  | cons {a b l m} : Low a b → LowL l m → LowL (a :: l) (b :: m)

inductive LowD : List (String × Val) → List (String × Val) → Prop
  | nil : LowD [] []
  | cons {k a b l m} : Low a b → LowD l m → LowD ((k, a) :: l) ((k, b) :: m)

end

theorem LowL.all2 : ∀ {l m : List Val}, LowL l m → All2 Low l m
  | [], [], .nil => .nil
  | _ :: _, _ :: _, .cons a h => .cons a h.all2

theorem LowL.of {l m : List Val} (h : All2 Low l m) : LowL l m := by
  induction h with
  | nil => exact .nil
  | cons a _ ih => exact .cons a ih

mutual

theorem Low.refl : ∀ v : Val, Low v v
  | .none => .none
  | .bool b => .bool b
  | .int i => .int i
  | .str s => .str s
  | .ref r => .ref r
  | .bytes _ => .bytes rfl
  | .tuple l => .tuple (LowL.refl l)
  | .dict l => .dict (LowD.refl l)

theorem LowL.refl : ∀ l : List Val, LowL l l
  | [] => .nil
  | a :: l => .cons (Low.refl a) (LowL.refl l)

theorem LowD.refl : ∀ l : List (String × Val), LowD l l
  | [] => .nil
  | (_, a) :: l => .cons (Low.refl a) (LowD.refl l)

end

/-- What a cell of the memory holds. -/
inductive Kind where
  | bytearray
  | list
  | inst (c : String)

abbrev World := List Kind

/-- Later worlds. -/
def TyMore (w w' : World) : Prop := ∀ (r : Nat) k, w[r]? = some k → w'[r]? = some k

theorem TyMore.refl (w : World) : TyMore w w := fun _ _ h => h

theorem TyMore.trans {u v w : World} (a : TyMore u v) (b : TyMore v w) : TyMore u w := fun r k h => b r k (a r k h)

theorem TyMore.append (w x : World) : TyMore w (w ++ x) := fun r k h => by
  rw [List.getElem?_append_left ((List.getElem?_eq_some_iff.mp h).1)]
  exact h

/-- What is known about a pair of values. -/
inductive Ty where
  /-- They differ in the contents of byte strings only. -/
  | low
  /-- The same integer. -/
  | lint
  /-- This integer. -/
  | lit (n : Nat)
  /-- This truth value. -/
  | const (b : Bool)
  /-- The same truth value. -/
  | lbool
  /-- The same string. -/
  | str
  /-- Byte strings or the same byte array. -/
  | arr
  /-- Tuples, or the same list, with elements of the type `low`. -/
  | seq
  /-- The same tuple of integers. -/
  | ints
  /-- The same tuple of `m` numbers of `k` bits. -/
  | row (m k : Nat)
  /-- The same tuple of such tuples. -/
  | rows (m k : Nat)
  /-- The same tuple of numbers, truth values and strings. -/
  | scals
  /-- Dictionaries with the same keys, and byte strings under the keys `init_vect`, `data` and `salt`. -/
  | dict
  /-- The same object of one of these classes. -/
  | inst (cs : List String)
  /-- Tuples of pairs of a position and a byte. -/
  | pairs
  /-- A pair of a position and a byte. -/
  | pair
  /-- Numbers of `k` bits. -/
  | bits (k : Nat)
  /-- Integers. -/
  | int
  /-- Truth values. -/
  | flag
  /-- Strings of the same length. -/
  | text
  /-- Bytes, or `low`. -/
  | elem
deriving DecidableEq

/-- Numbers, truth values, strings and `None`. -/
def plainVal : Val → Prop
  | .none | .bool _ | .int _ | .str _ => True
  | _ => False

def bytesLike (w : World) : Val → Prop
  | .bytes _ => True
  | .ref r => w[r]? = some .bytearray
  | _ => False

def listLike (w : World) : Val → Prop
  | .tuple _ => True
  | .ref r => w[r]? = some .list
  | _ => False

def isByte (v : Val) : Prop := ∃ x : Nat, x < 256 ∧ v = .int x

/-- The keyword arguments which are byte strings. -/
def byteKey (k : String) : Bool := same k "init_vect" || same k "data" || same k "salt"

/-- Two values are as the type says. -/
def Holds (w : World) : Ty → Val → Val → Prop
  | .low, v, v' => Low v v'
  | .lint, v, v' => ∃ i, v = .int i ∧ v' = .int i
  | .lit n, v, v' => v = .int n ∧ v' = .int n
  | .const b, v, v' => v = .bool b ∧ v' = .bool b
  | .lbool, v, v' => ∃ b, v = .bool b ∧ v' = .bool b
  | .str, v, v' => ∃ s, v = .str s ∧ v' = .str s
  | .arr, v, v' => Low v v' ∧ bytesLike w v
  | .seq, v, v' => Low v v' ∧ listLike w v
  | .ints, v, v' => ∃ l : List Int, v = .tuple (l.map .int) ∧ v' = v
  | .row m k, v, v' => ∃ l : List Nat, l.length = m ∧ (∀ x ∈ l, x < 2 ^ k) ∧ v = Src.ints l ∧ v' = v
  | .rows m k, v, v' => ∃ ls : List (List Nat), (∀ l ∈ ls, l.length = m ∧ ∀ x ∈ l, x < 2 ^ k) ∧
      v = .tuple (ls.map Src.ints) ∧ v' = v
  | .scals, v, v' => ∃ l : List Val, (∀ x ∈ l, plainVal x) ∧ v = .tuple l ∧ v' = v
  | .dict, v, v' => Low v v' ∧ ∃ l, v = .dict l ∧ ∀ k x, (k, x) ∈ l → byteKey k = true → bytesLike w x
  | .inst cs, v, v' => ∃ r c, v = .ref r ∧ v' = .ref r ∧ w[r]? = some (.inst c) ∧ c ∈ cs
  | .pairs, v, v' => ∃ l l' : List Val, All2 (fun x y => isByte x ∧ isByte y) l l' ∧
      v = .tuple (enumerated 0 l) ∧ v' = .tuple (enumerated 0 l')
  | .pair, v, v' => ∃ (k : Nat) (x x' : Val), isByte x ∧ isByte x' ∧ v = .tuple [.int k, x] ∧ v' = .tuple [.int k, x']
  | .bits k, v, v' => ∃ x x' : Nat, x < 2 ^ k ∧ x' < 2 ^ k ∧ v = .int x ∧ v' = .int x'
  | .int, v, v' => ∃ x x' : Int, v = .int x ∧ v' = .int x'
  | .flag, v, v' => ∃ b b', v = .bool b ∧ v' = .bool b'
  | .text, v, v' => ∃ s s' : List Char, s.length = s'.length ∧ v = .str (String.ofList s) ∧ v' = .str (String.ofList s')
  | .elem, v, v' => (isByte v ∧ isByte v') ∨ Low v v'

/-- Types which say that the values are `low`. -/
def Ty.isLow : Ty → Bool
  | .low | .lint | .lit _ | .const _ | .lbool | .str | .arr | .seq | .ints | .row .. | .rows .. | .scals | .dict
  | .inst _ => true
  | _ => false

theorem Holds.low {w : World} {t : Ty} {v v' : Val} (h : Holds w t v v') (i : t.isLow = true) : Low v v' := by
  cases t with
  | low => exact h
  | lint => obtain ⟨i, rfl, rfl⟩ := h; exact .int i
  | lit n => obtain ⟨rfl, rfl⟩ := h; exact .int _
  | const b => obtain ⟨rfl, rfl⟩ := h; exact .bool _
  | lbool => obtain ⟨b, rfl, rfl⟩ := h; exact .bool _
  | str => obtain ⟨s, rfl, rfl⟩ := h; exact .str _
  | arr => exact h.1
  | seq => exact h.1
  | ints => obtain ⟨l, rfl, rfl⟩ := h; exact Low.refl _
  | row m k => obtain ⟨l, _, _, rfl, rfl⟩ := h; exact Low.refl _
  | rows m k => obtain ⟨l, _, rfl, rfl⟩ := h; exact Low.refl _
  | scals => obtain ⟨l, _, rfl, rfl⟩ := h; exact Low.refl _
  | dict => exact h.1
  | inst cs => obtain ⟨r, c, rfl, rfl, _, _⟩ := h; exact .ref _
  | _ => cases i

theorem bytesLike.mono {w w' : World} (x : TyMore w w') : ∀ {v : Val}, bytesLike w v → bytesLike w' v
  | .bytes _, _ => trivial
  | .ref r, h => x r _ h

theorem listLike.mono {w w' : World} (x : TyMore w w') : ∀ {v : Val}, listLike w v → listLike w' v
  | .tuple _, _ => trivial
  | .ref r, h => x r _ h

theorem Holds.mono {w w' : World} (x : TyMore w w') {t : Ty} {v v' : Val} (h : Holds w t v v') : Holds w' t v v' := by
  cases t with
  | arr => exact ⟨h.1, h.2.mono x⟩
  | seq => exact ⟨h.1, h.2.mono x⟩
  | dict =>
    obtain ⟨a, l, e, q⟩ := h
    exact ⟨a, l, e, fun k y m i => (q k y m i).mono x⟩
  | inst cs => obtain ⟨r, c, e, e', k, m⟩ := h; exact ⟨r, c, e, e', x r _ k, m⟩
  | _ => exact h

/-- The types of the elements of tuples, lists and byte strings. -/
def Ty.item : Ty → Option Ty
  | .low => some .elem
  | .arr => some (.bits 8)
  | .seq | .scals => some .low
  | .ints | .row .. => some .lint
  | .rows m k => some (.row m k)
  | .pairs => some .pair
  | _ => none

/-- Numbers of how many bits. -/
def Ty.size : Ty → Option Nat
  | .lit n => some (n.log2 + 1)
  | .bits k => some k
  | _ => none

/-- The same number, truth value or string. -/
def Ty.isScalar : Ty → Bool
  | .lint | .lit _ | .const _ | .lbool | .str => true
  | _ => false

/-- Integers, the same or not. -/
def Ty.isInt : Ty → Bool
  | .lint | .lit _ | .bits _ | .int => true
  | _ => false

/-- The same integer. -/
def Ty.isLint : Ty → Bool
  | .lint | .lit _ => true
  | _ => false

theorem Ty.isScalar_low : ∀ {t : Ty}, t.isScalar = true → t.isLow = true := by
  intro t h; cases t <;> first | rfl | cases h

theorem Ty.isLint_low : ∀ {t : Ty}, t.isLint = true → t.isLow = true := by
  intro t h; cases t <;> first | rfl | cases h

theorem Holds.scalar {w : World} {t : Ty} {v v' : Val} (h : Holds w t v v') (i : t.isScalar = true) :
    v' = v ∧ plainVal v := by
  cases t with
  | lint => obtain ⟨i, rfl, rfl⟩ := h; exact ⟨rfl, trivial⟩
  | lit n => obtain ⟨rfl, rfl⟩ := h; exact ⟨rfl, trivial⟩
  | const b => obtain ⟨rfl, rfl⟩ := h; exact ⟨rfl, trivial⟩
  | lbool => obtain ⟨b, rfl, rfl⟩ := h; exact ⟨rfl, trivial⟩
  | str => obtain ⟨s, rfl, rfl⟩ := h; exact ⟨rfl, trivial⟩
  | _ => cases i

theorem Holds.isInt {w : World} {t : Ty} {v v' : Val} (h : Holds w t v v') (i : t.isInt = true) :
    ∃ x x' : Int, v = .int x ∧ v' = .int x' := by
  cases t with
  | lint => obtain ⟨i, rfl, rfl⟩ := h; exact ⟨_, _, rfl, rfl⟩
  | lit n => obtain ⟨rfl, rfl⟩ := h; exact ⟨_, _, rfl, rfl⟩
  | bits k => obtain ⟨x, x', _, _, rfl, rfl⟩ := h; exact ⟨_, _, rfl, rfl⟩
  | int => exact h
  | _ => cases i

theorem Holds.isLint {w : World} {t : Ty} {v v' : Val} (h : Holds w t v v') (i : t.isLint = true) :
    ∃ x : Int, v = .int x ∧ v' = .int x := by
  cases t with
  | lint => exact h
  | lit n => obtain ⟨rfl, rfl⟩ := h; exact ⟨_, rfl, rfl⟩
  | _ => cases i

theorem Holds.size {w : World} {t : Ty} {v v' : Val} {k : Nat} (h : Holds w t v v') (i : t.size = some k) :
    ∃ x x' : Nat, x < 2 ^ k ∧ x' < 2 ^ k ∧ v = .int x ∧ v' = .int x' := by
  cases t with
  | lit n =>
    obtain ⟨rfl, rfl⟩ := h
    cases i
    exact ⟨n, n, Nat.lt_log2_self, Nat.lt_log2_self, rfl, rfl⟩
  | bits k => cases i; exact h
  | _ => cases i

/-- One type says more than another. -/
def Ty.sub (s t : Ty) : Bool :=
  decide (s = t) ||
  match t with
  | .low => s.isLow
  | .lint => s.isLint
  | .int => s.isInt
  | .bits k =>
    match s with
    | .lit n => decide (n < 2 ^ k)
    | .bits j => decide (j ≤ k)
    | _ => false
  | .lbool =>
    match s with
    | .const _ => true
    | _ => false
  | .flag =>
    match s with
    | .const _ | .lbool => true
    | _ => false
  | .seq =>
    match s with
    | .ints | .row .. | .rows .. | .scals => true
    | _ => false
  | .inst cs =>
    match s with
    | .inst ds => ds.all fun d => cs.any (same d)
    | _ => false
  | .elem => s.isLow ||
    match s with
    | .bits j => decide (j ≤ 8)
    | _ => false
  | _ => false

theorem Holds.sub {w : World} {s t : Ty} {v v' : Val} (h : Holds w s v v') (i : s.sub t = true) : Holds w t v v' := by
  unfold Ty.sub at i
  rw [Bool.or_eq_true] at i
  rcases i with i | i
  · rw [← of_decide_eq_true i]; exact h
  · cases t with
    | low => exact h.low i
    | lint => exact h.isLint i
    | int => exact h.isInt i
    | bits k =>
      cases s with
      | lit n =>
        obtain ⟨rfl, rfl⟩ := h
        exact ⟨n, n, of_decide_eq_true i, of_decide_eq_true i, rfl, rfl⟩
      | bits j =>
        obtain ⟨x, x', a, b, e, e'⟩ := h
        have le : 2 ^ j ≤ 2 ^ k := Nat.pow_le_pow_right (by decide) (of_decide_eq_true i)
        exact ⟨x, x', Nat.lt_of_lt_of_le a le, Nat.lt_of_lt_of_le b le, e, e'⟩
      | _ => cases i
    | lbool =>
      cases s with
      | const b => obtain ⟨rfl, rfl⟩ := h; exact ⟨b, rfl, rfl⟩
      | _ => cases i
    | flag =>
      cases s with
      | const b => obtain ⟨rfl, rfl⟩ := h; exact ⟨b, b, rfl, rfl⟩
      | lbool => obtain ⟨b, rfl, rfl⟩ := h; exact ⟨b, b, rfl, rfl⟩
      | _ => cases i
    | seq =>
      cases s with
      | ints => obtain ⟨l, rfl, rfl⟩ := h; exact ⟨Low.refl _, trivial⟩
      | row m k => obtain ⟨l, _, _, rfl, rfl⟩ := h; exact ⟨Low.refl _, trivial⟩
      | rows m k => obtain ⟨l, _, rfl, rfl⟩ := h; exact ⟨Low.refl _, trivial⟩
      | scals => obtain ⟨l, _, rfl, rfl⟩ := h; exact ⟨Low.refl _, trivial⟩
      | _ => cases i
    | inst cs =>
      cases s with
      | inst ds =>
        obtain ⟨r, c, e, e', k, m⟩ := h
        obtain ⟨d, dm, de⟩ := List.any_eq_true.mp (List.all_eq_true.mp i c m)
        rw [same_iff.mp de] at k
        exact ⟨r, d, e, e', k, dm⟩
      | _ => cases i
    | elem =>
      simp only [Bool.or_eq_true] at i
      rcases i with i | i
      · exact .inr (h.low i)
      · cases s with
        | bits j =>
          obtain ⟨x, x', a, b, e, e'⟩ := h
          have le : 2 ^ j ≤ 2 ^ 8 := Nat.pow_le_pow_right (by decide) (of_decide_eq_true i)
          exact .inl ⟨⟨x, Nat.lt_of_lt_of_le a le, e⟩, ⟨x', Nat.lt_of_lt_of_le b le, e'⟩⟩
        | _ => cases i
    | _ => cases i

/-- A type which says what both say. -/
def Ty.join (s t : Ty) : Option Ty :=
  ([s, t, .lint, .lbool, .bits (max (s.size.getD 0) (t.size.getD 0)), .int, .flag, .seq, .low, .elem] ++
    (match s, t with
    | .inst cs, .inst ds => [.inst (cs ++ ds)]
    | _, _ => [])).find? fun u => s.sub u && t.sub u

theorem Ty.join_sub {s t u : Ty} (h : s.join t = some u) : s.sub u = true ∧ t.sub u = true := by
  have := List.find?_some h
  simpa using this

/-! ### Memories -/

/-- Attributes with the same names and values as the types say. -/
def Attrs (A : String → Ty) (w : World) : List (String × Val) → List (String × Val) → Prop :=
  All2 fun p q => p.1 = q.1 ∧ Holds w (A p.1) p.2 q.2

inductive ORel (A : String → String → Ty) (w : World) : Kind → Obj → Obj → Prop
  | bytearray {b c : Bytes} : b.length = c.length → ORel A w .bytearray (.bytearray b) (.bytearray c)
  | list {l m : List Val} : All2 Low l m → ORel A w .list (.list l) (.list m)
  | inst {c : String} {l m : List (String × Val)} : Attrs (A c) w l m → ORel A w (.inst c) (.inst c l) (.inst c m)

theorem ORel.mono {A : String → String → Ty} {w w' : World} (x : TyMore w w') {k : Kind} {o o' : Obj}
    (h : ORel A w k o o') : ORel A w' k o o' := by
  cases h with
  | bytearray e => exact .bytearray e
  | list e => exact .list e
  | inst e => exact .inst (All2.mono e fun _ _ h => ⟨h.1, h.2.mono x⟩)

/-- Two memories of the same shape. -/
structure HRel (A : String → String → Ty) (w : World) (h h' : Heap) : Prop where
  len : h.length = w.length
  len' : h'.length = w.length
  cell : ∀ (r : Nat) k, w[r]? = some k → ∃ o o', h[r]? = some o ∧ h'[r]? = some o' ∧ ORel A w k o o'

section
variable {A : String → String → Ty} {w : World} {h h' : Heap}

theorem HRel.at (H : HRel A w h h') (r : Nat) : (h[r]? = none ∧ h'[r]? = none) ∨
    ∃ k o o', w[r]? = some k ∧ h[r]? = some o ∧ h'[r]? = some o' ∧ ORel A w k o o' := by
  cases e : w[r]? with
  | none =>
    have := List.getElem?_eq_none_iff.mp e
    exact .inl ⟨List.getElem?_eq_none_iff.mpr (by have := H.len; omega),
      List.getElem?_eq_none_iff.mpr (by have := H.len'; omega)⟩
  | some k =>
    obtain ⟨o, o', a, b, c⟩ := H.cell r k e
    exact .inr ⟨k, o, o', rfl, a, b, c⟩

theorem HRel.alloc (H : HRel A w h h') {k : Kind} {o o' : Obj} (q : ORel A w k o o') :
    HRel A (w ++ [k]) (h ++ [o]) (h' ++ [o']) where
  len := by simp [H.len]
  len' := by simp [H.len']
  cell r j e := by
    by_cases lt : r < w.length
    · rw [List.getElem?_append_left lt] at e
      obtain ⟨p, p', a, b, c⟩ := H.cell r j e
      exact ⟨p, p', by rw [List.getElem?_append_left (by rw [H.len]; exact lt)]; exact a,
        by rw [List.getElem?_append_left (by rw [H.len']; exact lt)]; exact b, c.mono (TyMore.append _ _)⟩
    · have : r = w.length := by
        have := (List.getElem?_eq_some_iff.mp e).1
        simp at this
        omega
      subst this
      have ek : k = j := by simpa using e
      subst ek
      exact ⟨o, o', by rw [← H.len]; simp, by rw [← H.len']; simp, q.mono (TyMore.append _ _)⟩

theorem HRel.set (H : HRel A w h h') {r : Nat} {k : Kind} {o o' : Obj} (e : w[r]? = some k) (q : ORel A w k o o') :
    HRel A w (h.set r o) (h'.set r o') where
  len := by simp [H.len]
  len' := by simp [H.len']
  cell s j e' := by
    by_cases rs : r = s
    · subst rs
      rw [e] at e'
      cases e'
      have := (List.getElem?_eq_some_iff.mp e).1
      refine ⟨o, o', ?_, ?_, q⟩
      · rw [List.getElem?_set_self (by rw [H.len]; exact this)]
      · rw [List.getElem?_set_self (by rw [H.len']; exact this)]
    · rw [List.getElem?_set_ne rs, List.getElem?_set_ne rs]
      exact H.cell s j e'

theorem HRel.same_len (H : HRel A w h h') : h'.length = h.length := by rw [H.len, H.len']

end

/-- Outcomes which correspond: the same exception, or values as the relation says; the memories have the same shape. -/
def SameEnd (A : String → String → Ty) (w : World) {α : Type} (R : World → α → α → Prop) (o o' : Out α) : Prop :=
  ∃ w', TyMore w w' ∧ HRel A w' o.2 o'.2 ∧
    ((∃ a a', o.1 = .ok a ∧ o'.1 = .ok a' ∧ R w' a a') ∨ ∃ e, o.1 = .error e ∧ o'.1 = .error e)

/-- The same path, and outcomes which correspond. -/
def Match (A : String → String → Ty) (w : World) {α : Type} (R : World → α → α → Prop) (o o' : Path α) : Prop :=
  SameEnd A w R o.1 o'.1 ∧ o.2 = o'.2

section
variable {A : String → String → Ty} {w : World} {α β : Type} {R : World → α → α → Prop} {S : World → β → β → Prop}

theorem SameEnd.ok {h h' : Heap} {a a' : α} (H : HRel A w h h') (r : R w a a') : SameEnd A w R (ok a h) (ok a' h') :=
  ⟨w, TyMore.refl w, H, .inl ⟨a, a', rfl, rfl, r⟩⟩

theorem SameEnd.fail {h h' : Heap} (H : HRel A w h h') (e : Exc) : SameEnd A w R (fail e h) (fail e h') :=
  ⟨w, TyMore.refl w, H, .inr ⟨e, rfl, rfl⟩⟩

theorem SameEnd.mono {R' : World → α → α → Prop} {o o' : Out α} (h : SameEnd A w R o o') (i : ∀ w a a', R w a a' → R' w a a') :
    SameEnd A w R' o o' := by
  obtain ⟨w', x, H, r⟩ := h
  refine ⟨w', x, H, ?_⟩
  rcases r with ⟨a, a', e, e', r⟩ | r
  · exact .inl ⟨a, a', e, e', i _ _ _ r⟩
  · exact .inr r

theorem SameEnd.alloc {h h' : Heap} (H : HRel A w h h') {k : Kind} {o o' : Obj} (q : ORel A w k o o')
    {R : World → Val → Val → Prop} (r : R (w ++ [k]) (.ref w.length) (.ref w.length)) :
    SameEnd A w R (alloc o h) (alloc o' h') := by
  refine ⟨w ++ [k], TyMore.append _ _, H.alloc q, .inl ⟨.ref w.length, .ref w.length, ?_, ?_, r⟩⟩
  · show Except.ok (Val.ref h.length) = _
    rw [H.len]
  · show Except.ok (Val.ref h'.length) = _
    rw [H.len']

theorem Match.quiet {o o' : Out α} (h : SameEnd A w R o o') : Match A w R (quiet o) (quiet o') := ⟨h, rfl⟩

theorem Match.note {o o' : Path α} (e : Event) (h : Match A w R o o') : Match A w R (note e o) (note e o') :=
  ⟨h.1, by show e :: o.2 = e :: o'.2; rw [h.2]⟩

theorem Match.mono {R' : World → α → α → Prop} {o o' : Path α} (h : Match A w R o o')
    (i : ∀ w a a', R w a a' → R' w a a') : Match A w R' o o' := ⟨h.1.mono i, h.2⟩

theorem Match.later {w₀ : World} (x : TyMore w₀ w) {o o' : Path α} (h : Match A w R o o') : Match A w₀ R o o' := by
  obtain ⟨⟨w', x', H, r⟩, e⟩ := h
  exact ⟨⟨w', x.trans x', H, r⟩, e⟩

theorem Match.pThen {o o' : Path α} (m : Match A w R o o') {f f' : α → Heap → Path β}
    (k : ∀ w' a a' h h', TyMore w w' → HRel A w' h h' → R w' a a' → Match A w' S (f a h) (f' a' h')) :
    Match A w S (pThen o f) (pThen o' f') := by
  obtain ⟨⟨r, h⟩, l⟩ := o
  obtain ⟨⟨r', h'⟩, l'⟩ := o'
  obtain ⟨⟨w', x, H, q⟩, e⟩ := m
  simp only at e H q
  subst e
  rcases q with ⟨a, a', rfl, rfl, q⟩ | ⟨e, rfl, rfl⟩
  · obtain ⟨⟨w'', x', H', q'⟩, e'⟩ := k w' a a' h h' x H q
    refine ⟨⟨w'', x.trans x', H', q'⟩, ?_⟩
    show l ++ (f a h).2 = l ++ (f' a' h').2
    rw [e']
  · exact ⟨⟨w', x, H, .inr ⟨e, rfl, rfl⟩⟩, rfl⟩

end

end Gost.Src
