import Verif.Source.Isolation

/-! Corresponding runs of the operations of the fragment. -/

namespace Gost.Src

variable {π : Pairs} {h k : Heap}

theorem VRs.length {l m : List Val} (r : VRs π l m) : l.length = m.length := by
  induction l generalizing m with
  | nil => cases r; rfl
  | cons v l ih =>
    cases r with
    | cons _ t => simp [ih t]

theorem VRs.get {l m : List Val} (r : VRs π l m) (i : Nat) :
    (l[i]? = none ∧ m[i]? = none) ∨ ∃ v w, l[i]? = some v ∧ m[i]? = some w ∧ VR π v w := by
  induction l generalizing m i with
  | nil => cases r; exact Or.inl ⟨rfl, rfl⟩
  | cons v l ih =>
    cases r with
    | cons vw t =>
      cases i with
      | zero => exact Or.inr ⟨_, _, rfl, rfl, vw⟩
      | succ i => simpa using ih t i

theorem VRs.drop {l m : List Val} (r : VRs π l m) (n : Nat) : VRs π (l.drop n) (m.drop n) := by
  induction l generalizing m n with
  | nil => cases r; simpa using VRs.nil
  | cons v l ih =>
    cases r with
    | cons vw t =>
      cases n with
      | zero => exact .cons vw t
      | succ n => exact ih t n

theorem VRs.take {l m : List Val} (r : VRs π l m) (n : Nat) : VRs π (l.take n) (m.take n) := by
  induction l generalizing m n with
  | nil => cases r; simpa using VRs.nil
  | cons v l ih =>
    cases r with
    | cons vw t =>
      cases n with
      | zero => exact .nil
      | succ n => exact .cons vw (ih t n)

theorem VRs.append {l m l' m' : List Val} (r : VRs π l m) (r' : VRs π l' m') : VRs π (l ++ l') (m ++ m') := by
  induction l generalizing m with
  | nil => cases r; exact r'
  | cons v l ih =>
    cases r with
    | cons vw t => exact .cons vw (ih t)

theorem VRs.set {l m : List Val} (r : VRs π l m) (n : Nat) {v w : Val} (e : VR π v w) : VRs π (l.set n v) (m.set n w) := by
  induction l generalizing m n with
  | nil => cases r; exact .nil
  | cons v l ih =>
    cases r with
    | cons vw t =>
      cases n with
      | zero => exact .cons e t
      | succ n => exact .cons vw (ih t n)

theorem VRs.ints {α : Type} (f : α → Int) (l : List α) : VRs π (l.map fun x => .int (f x)) (l.map fun x => .int (f x)) := by
  induction l with
  | nil => exact .nil
  | cons x l ih => exact .cons (.int _) ih

theorem VRs.strs {α : Type} (f : α → String) (l : List α) :
    VRs π (l.map fun x => .str (f x)) (l.map fun x => .str (f x)) := by
  induction l with
  | nil => exact .nil
  | cons x l ih => exact .cons (.str _) ih

theorem VRa.find {l m : List (String × Val)} (r : VRa π l m) (a : String) :
    (findAttr a l = none ∧ findAttr a m = none) ∨ ∃ v w, findAttr a l = some v ∧ findAttr a m = some w ∧ VR π v w := by
  induction l generalizing m with
  | nil => cases r; exact Or.inl ⟨rfl, rfl⟩
  | cons p l ih =>
    cases r with
    | @cons b v w _ m vw t =>
      unfold findAttr
      by_cases hb : b = a
      · simp only [hb, if_true]
        exact Or.inr ⟨_, _, rfl, rfl, vw⟩
      · simp only [hb, if_false]
        exact ih t

theorem VRa.set {l m : List (String × Val)} (r : VRa π l m) (a : String) {x y : Val} (e : VR π x y) :
    VRa π (setAttrList a x l) (setAttrList a y m) := by
  induction l generalizing m with
  | nil => cases r; exact .cons e .nil
  | cons p l ih =>
    cases r with
    | @cons b v w _ m vw t =>
      unfold setAttrList
      by_cases hb : b = a
      · simp only [hb, if_true]
        exact .cons e t
      · simp only [hb, if_false]
        exact .cons vw (ih t)

theorem VRa.names {l m : List (String × Val)} (r : VRa π l m) : l.map (·.1) = m.map (·.1) := by
  induction l generalizing m with
  | nil => cases r; rfl
  | cons p l ih =>
    cases r with
    | cons vw t => simp [ih t]

theorem VRa.values {l m : List (String × Val)} (r : VRa π l m) : VRs π (l.map (·.2)) (m.map (·.2)) := by
  induction l generalizing m with
  | nil => cases r; exact .nil
  | cons p l ih =>
    cases r with
    | cons vw t => exact .cons vw (ih t)

theorem VRs.zip {l m : List Val} (r : VRs π l m) (ns : List String) : VRa π (ns.zip l) (ns.zip m) := by
  induction ns generalizing l m with
  | nil => exact .nil
  | cons a ns ih =>
    cases r with
    | nil => exact .nil
    | cons vw t => exact .cons vw (ih t)

theorem bytesOf_rel (r : HR π h k) {v w : Val} (e : VR π v w) : bytesOf v h = bytesOf w k := by
  cases e with
  | ref m =>
    obtain ⟨o, p, e1, e2, e3⟩ := r.get m
    simp only [bytesOf, e1, e2]
    cases e3 <;> rfl
  | _ => rfl

theorem elems_rel (r : HR π h k) {v w : Val} (e : VR π v w) :
    (elems v h = none ∧ elems w k = none) ∨ ∃ l m, elems v h = some l ∧ elems w k = some m ∧ VRs π l m := by
  cases e with
  | ref m =>
    obtain ⟨o, p, e1, e2, e3⟩ := r.get m
    simp only [elems, e1, e2]
    cases e3 with
    | bytearray b => exact Or.inr ⟨_, _, rfl, rfl, VRs.ints _ b⟩
    | list t => exact Or.inr ⟨_, _, rfl, rfl, t⟩
    | inst => exact Or.inl ⟨rfl, rfl⟩
  | tuple t => exact Or.inr ⟨_, _, rfl, rfl, t⟩
  | bytes b => exact Or.inr ⟨_, _, rfl, rfl, VRs.ints _ b⟩
  | _ => exact Or.inl ⟨rfl, rfl⟩

theorem truth_rel {v w : Val} (e : VR π v w) : truth v = truth w := by
  cases e <;> rfl

theorem valEq_rel (r : HR π h k) {v w x y : Val} (e : VR π v w) (e' : VR π x y) : valEq v x h = valEq w y k := by
  have b1 := bytesOf_rel r e
  have b2 := bytesOf_rel r e'
  cases e <;> cases e' <;> simp only [valEq, b1, b2] <;> rfl

theorem valIn_rel (r : HR π h k) {v w : Val} (e : VR π v w) {l m : List Val} (e' : VRs π l m) :
    valIn v h l = valIn w k m := by
  induction l generalizing m with
  | nil => cases e'; rfl
  | cons x l ih =>
    cases e' with
    | cons vw t =>
      unfold valIn
      rw [valEq_rel r e vw, ih t]

theorem binop_rel (r : HR π h k) (op : BinOp) {v w x y : Val} (e : VR π v w) (e' : VR π x y) :
    Rel VR π h k (binop op v x h) (binop op w y k) := by
  have b1 := bytesOf_rel r e
  have b2 := bytesOf_rel r e'
  have stuck : Rel VR π h k (fail .stuck h) (fail .stuck k) := .fail _ r
  have ints : ∀ i j : Int, Rel VR π h k (binop op (.int i) (.int j) h) (binop op (.int i) (.int j) k) := by
    intro i j
    simp only [binop]
    cases arith op i j with
    | ok z => exact .ok r (.int z)
    | error e => exact .fail e r
  cases e <;> cases e' <;> try exact ints _ _
  all_goals
    simp only [binop, b1, b2]
    cases op <;> try exact stuck
  all_goals
    first
    | exact .ok r (.bytes _)
    | (generalize bytesOf _ k = x; generalize bytesOf _ k = y; cases x <;> cases y <;> first
        | exact stuck
        | exact .ok r (.bytes _)
        | exact .alloc r (.bytearray _))
    | (generalize bytesOf _ k = x; cases x <;> first
        | exact stuck
        | exact .ok r (.bytes _)
        | exact .alloc r (.bytearray _))

theorem cmpop_rel (r : HR π h k) (op : CmpOp) {v w x y : Val} (e : VR π v w) (e' : VR π x y) :
    Rel VR π h k (cmpop op v x h) (cmpop op w y k) := by
  have stuck : Rel VR π h k (fail .stuck h) (fail .stuck k) := .fail _ r
  have b := valEq_rel r e e'
  cases op with
  | eq =>
    simp only [cmpop, b]
    cases valEq w y k with
    | none => exact stuck
    | some x => exact .ok r (.bool _)
  | ne =>
    simp only [cmpop, b]
    cases valEq w y k with
    | none => exact stuck
    | some x => exact .ok r (.bool _)
  | isIn =>
    cases e' <;> try exact stuck
    rename_i t
    simp only [cmpop, valIn_rel r e t]
    split
    · exact .ok r (.bool _)
    · exact stuck
  | notIn =>
    cases e' <;> try exact stuck
    rename_i t
    simp only [cmpop, valIn_rel r e t]
    split
    · exact .ok r (.bool _)
    · exact stuck
  | lt => cases e <;> cases e' <;> first | exact stuck | exact .ok r (.bool _)
  | le => cases e <;> cases e' <;> first | exact stuck | exact .ok r (.bool _)
  | gt => cases e <;> cases e' <;> first | exact stuck | exact .ok r (.bool _)
  | ge => cases e <;> cases e' <;> first | exact stuck | exact .ok r (.bool _)

theorem pyGet_rel {l m : List Val} (t : VRs π l m) (i : Int) :
    (∃ e e', pyGet l i = .error e ∧ pyGet m i = .error e') ∨ ∃ v w, pyGet l i = .ok v ∧ pyGet m i = .ok w ∧ VR π v w := by
  unfold pyGet
  rw [t.length]
  generalize (if i < 0 then i + (m.length : Int) else i) = j
  by_cases hj : j < 0
  · simp only [hj, if_true]
    exact Or.inl ⟨_, _, rfl, rfl⟩
  · simp only [hj, if_false]
    rcases t.get j.toNat with ⟨e1, e2⟩ | ⟨v, w, e1, e2, vw⟩
    · rw [e1, e2]
      exact Or.inl ⟨_, _, rfl, rfl⟩
    · rw [e1, e2]
      exact Or.inr ⟨v, w, rfl, rfl, vw⟩

theorem getItem_rel (r : HR π h k) {v w x y : Val} (e : VR π v w) (e' : VR π x y) :
    Rel VR π h k (getItem v x h) (getItem w y k) := by
  cases e' <;> try exact .fail _ r
  rename_i i
  unfold getItem
  rcases elems_rel r e with ⟨e1, e2⟩ | ⟨l, m, e1, e2, t⟩
  · simp only [e1, e2]
    exact .fail _ r
  · simp only [e1, e2]
    rcases pyGet_rel t i with ⟨x, y, e1, e2⟩ | ⟨x, y, e1, e2, vw⟩
    · rw [e1, e2]
      exact .fail _ r
    · rw [e1, e2]
      exact .ok r vw

theorem cut_rel {l m : List Val} (t : VRs π l m) (lo hi : Option Int) :
    VRs π (match lo, hi with
      | some i, some j => pySlice l i j
      | some i, none => pyFrom l i
      | none, some j => pyUpto l j
      | none, none => l) (match lo, hi with
      | some i, some j => pySlice m i j
      | some i, none => pyFrom m i
      | none, some j => pyUpto m j
      | none, none => m) := by
  cases lo <;> cases hi <;> simp only [pySlice, pyFrom, pyUpto, t.length]
  · exact t
  · exact t.take _
  · exact t.drop _
  · exact (t.drop _).take _

theorem getSlice_rel (r : HR π h k) {v w : Val} (e : VR π v w) (lo hi : Option Int) :
    Rel VR π h k (getSlice v lo hi h) (getSlice w lo hi k) := by
  cases e with
  | bytes b => exact .ok r (.bytes _)
  | tuple t => exact .ok r (.tuple (cut_rel t lo hi))
  | ref m =>
    obtain ⟨o, p, e1, e2, e3⟩ := r.get m
    simp only [getSlice, e1, e2]
    cases e3 with
    | bytearray b => exact .alloc r (.bytearray _)
    | list t => exact .alloc r (.list (cut_rel t lo hi))
    | inst => exact .fail _ r
  | _ => exact .fail _ r

/-- Nothing to compare. -/
def UR (_ : Pairs) (_ _ : Unit) : Prop := True

theorem setItem_rel (r : HR π h k) {v w x y i j : Val} (e : VR π v w) (ei : VR π i j) (e' : VR π x y) :
    Rel UR π h k (setItem v i x h) (setItem w j y k) := by
  cases e <;> try exact .fail _ r
  rename_i m
  cases ei <;> try exact .fail _ r
  rename_i i
  obtain ⟨o, p, e1, e2, e3⟩ := r.get m
  simp only [setItem, e1, e2]
  cases e3 with
  | bytearray b =>
    cases e' <;> try exact .fail _ r
    simp only
    split
    · split
      · exact .set r m (.bytearray _) trivial
      · exact .fail _ r
    · exact .fail _ r
  | list t =>
    simp only [t.length]
    split
    · exact .set r m (.list (t.set _ e')) trivial
    · exact .fail _ r
  | inst => exact .fail _ r

theorem setSlice_rel (r : HR π h k) {v w x y : Val} (e : VR π v w) (lo hi : Option Int) (e' : VR π x y) :
    Rel UR π h k (setSlice v lo hi x h) (setSlice w lo hi y k) := by
  cases e <;> try exact .fail _ r
  rename_i m
  obtain ⟨o, p, e1, e2, e3⟩ := r.get m
  simp only [setSlice, e1, e2, bytesOf_rel r e']
  cases e3 with
  | bytearray b =>
    cases bytesOf y k with
    | none => exact .fail _ r
    | some y => exact .set r m (.bytearray _) trivial
  | list => exact .fail _ r
  | inst => exact .fail _ r

theorem setAttr_rel (r : HR π h k) {v w x y : Val} (e : VR π v w) (a : String) (e' : VR π x y) :
    Rel UR π h k (setAttr v a x h) (setAttr w a y k) := by
  cases e <;> try exact .fail _ r
  rename_i m
  obtain ⟨o, p, e1, e2, e3⟩ := r.get m
  simp only [setAttr, e1, e2]
  cases e3 with
  | inst c t => exact .set r m (.inst c (t.set a e')) trivial
  | list => exact .fail _ r
  | bytearray => exact .fail _ r

theorem intsToBytes_rel {l m : List Val} (t : VRs π l m) : intsToBytes l = intsToBytes m := by
  induction l generalizing m with
  | nil => cases t; rfl
  | cons v l ih =>
    cases t with
    | cons vw t => cases vw <;> simp only [intsToBytes, ih t]

theorem isInt_rel {l m : List Val} (t : VRs π l m) : l.all isInt = m.all isInt := by
  induction l generalizing m with
  | nil => cases t; rfl
  | cons v l ih =>
    cases t with
    | cons vw t => cases vw <;> simp only [List.all_cons, isInt, ih t]

theorem listBytearray_rel (r : HR π h k) {l m : List Val} (t : VRs π l m) :
    Rel VR π h k (listBytearray l h) (listBytearray m k) := by
  simp only [listBytearray, intsToBytes_rel t, isInt_rel t]
  split
  · exact .alloc r (.bytearray _)
  · split <;> exact .fail _ r

theorem newBytearray_rel (r : HR π h k) {v w : Val} (e : VR π v w) :
    Rel VR π h k (newBytearray v h) (newBytearray w k) := by
  have b := bytesOf_rel r e
  cases e with
  | int n =>
    simp only [newBytearray]
    split
    · exact .fail _ r
    · exact .alloc r (.bytearray _)
  | bytes b => exact .alloc r (.bytearray _)
  | tuple t => exact listBytearray_rel r t
  | ref m =>
    obtain ⟨o, p, e1, e2, e3⟩ := r.get m
    simp only [newBytearray, bytesOf, e1, e2]
    cases e3 with
    | bytearray b => exact .alloc r (.bytearray _)
    | list t => exact listBytearray_rel r t
    | inst => exact .fail _ r
  | _ => exact .fail _ r

theorem toBytes_rel (r : HR π h k) (x n : Int) (order : String) :
    Rel VR π h k (toBytes x n order h) (toBytes x n order k) := by
  unfold toBytes
  split
  · exact .fail _ r
  · split
    · exact .fail _ r
    · exact .ok r (.bytes _)

theorem enumerated_rel {l m : List Val} (t : VRs π l m) (n : Nat) : VRs π (enumerated n l) (enumerated n m) := by
  induction l generalizing m n with
  | nil => cases t; exact .nil
  | cons v l ih =>
    cases t with
    | cons vw t => exact .cons (.tuple (.cons (.int _) (.cons vw .nil))) (ih t _)

theorem range_rel (a b c : Int) : VRs π (pyRange a b c) (pyRange a b c) := VRs.ints _ _

end Gost.Src
