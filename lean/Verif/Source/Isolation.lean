import Verif.Source.Memory

/-! A program of the fragment sees of the memory only what it can reach, and changes nothing else. This is stated as a
relation between two runs in two memories whose cells correspond to each other. -/

namespace Gost.Src

/-- Pairs of corresponding cells of two memories. -/
abbrev Pairs := List (Nat × Nat)

mutual

/-- The same value, up to corresponding cells. -/
inductive VR (π : Pairs) : Val → Val → Prop where
  | none : VR π .none .none
  | bool (b : Bool) : VR π (.bool b) (.bool b)
  | int (i : Int) : VR π (.int i) (.int i)
  | str (s : String) : VR π (.str s) (.str s)
  | bytes (b : Bytes) : VR π (.bytes b) (.bytes b)
  | tuple {l m : List Val} : VRs π l m → VR π (.tuple l) (.tuple m)
  | dict {l m : List (String × Val)} : VRa π l m → VR π (.dict l) (.dict m)
  | ref {a b : Nat} : (a, b) ∈ π → VR π (.ref a) (.ref b)

inductive VRs (π : Pairs) : List Val → List Val → Prop where
  | nil : VRs π [] []
  | cons {v w : Val} {l m : List Val} : VR π v w → VRs π l m → VRs π (v :: l) (w :: m)

inductive VRa (π : Pairs) : List (String × Val) → List (String × Val) → Prop where
  | nil : VRa π [] []
  | cons {k : String} {v w : Val} {l m : List (String × Val)} : VR π v w → VRa π l m → VRa π ((k, v) :: l) ((k, w) :: m)

end

mutual

theorem VR.mono {π π' : Pairs} (s : ∀ p ∈ π, p ∈ π') {v w : Val} : VR π v w → VR π' v w
  | .none => .none
  | .bool b => .bool b
  | .int i => .int i
  | .str s => .str s
  | .bytes b => .bytes b
  | .tuple h => .tuple (VRs.mono s h)
  | .dict h => .dict (VRa.mono s h)
  | .ref h => .ref (s _ h)

theorem VRs.mono {π π' : Pairs} (s : ∀ p ∈ π, p ∈ π') {v w : List Val} : VRs π v w → VRs π' v w
  | .nil => .nil
  | .cons h t => .cons (VR.mono s h) (VRs.mono s t)

theorem VRa.mono {π π' : Pairs} (s : ∀ p ∈ π, p ∈ π') {v w : List (String × Val)} : VRa π v w → VRa π' v w
  | .nil => .nil
  | .cons h t => .cons (VR.mono s h) (VRa.mono s t)

end

/-- The same object, up to corresponding cells. -/
inductive OR (π : Pairs) : Obj → Obj → Prop where
  | bytearray (b : Bytes) : OR π (.bytearray b) (.bytearray b)
  | list {l m : List Val} : VRs π l m → OR π (.list l) (.list m)
  | inst (c : String) {l m : List (String × Val)} : VRa π l m → OR π (.inst c l) (.inst c m)

theorem OR.mono {π π' : Pairs} (s : ∀ p ∈ π, p ∈ π') {o p : Obj} : OR π o p → OR π' o p
  | .bytearray b => .bytearray b
  | .list h => .list (h.mono s)
  | .inst c h => .inst c (h.mono s)

/-- There are no random bytes in the memory: `os.urandom` is outside the fragment. -/
def NoRandom (h : Heap) : Prop := ∃ o, h[0]? = some o ∧ ∀ b l, o ≠ .list (.bytes b :: l)

/-- Corresponding cells of the two memories have the same contents. The source of random bytes, which is cell 0, either
corresponds to that of the other memory or is empty in both. -/
structure HR (π : Pairs) (h k : Heap) : Prop where
  get : ∀ {a b}, (a, b) ∈ π → ∃ o p, h[a]? = some o ∧ k[b]? = some p ∧ OR π o p
  inj : ∀ {a b c d}, (a, b) ∈ π → (c, d) ∈ π → (a = c ↔ b = d)
  rnd : (0, 0) ∈ π ∨ (∀ a b, (a, b) ∈ π → a ≠ 0 ∧ b ≠ 0) ∧ NoRandom h ∧ NoRandom k

/-- New pairs are pairs of new cells. -/
def Grow (π π' : Pairs) (h k : Heap) : Prop :=
  (∀ p ∈ π, p ∈ π') ∧ ∀ p ∈ π', p ∈ π ∨ h.length ≤ p.1 ∧ k.length ≤ p.2

theorem Grow.refl (π : Pairs) (h k : Heap) : Grow π π h k := ⟨fun _ h => h, fun _ h => Or.inl h⟩

theorem Grow.trans {π π' π'' : Pairs} {h k h' k' : Heap} (a : Grow π π' h k) (b : Grow π' π'' h' k')
    (e : h.length ≤ h'.length) (e' : k.length ≤ k'.length) : Grow π π'' h k :=
  ⟨fun p hp => b.1 p (a.1 p hp), fun p hp => by
    rcases b.2 p hp with hp | ⟨h1, h2⟩
    · exact a.2 p hp
    · exact Or.inr ⟨by omega, by omega⟩⟩

/-- The results of two runs from corresponding memories. -/
structure Rel {α : Type} (A : Pairs → α → α → Prop) (π : Pairs) (h k : Heap) (o p : Out α) : Prop where
  intro ::
  out : ∃ π', Grow π π' h k ∧ HR π' o.2 p.2 ∧ Frame (π.map (·.1)) h o.2 ∧ Frame (π.map (·.2)) k p.2 ∧
    ((∃ a b, o.1 = .ok a ∧ p.1 = .ok b ∧ A π' a b) ∨ ∃ e, o.1 = .error e ∧ p.1 = .error e)

section

variable {α β : Type} {A : Pairs → α → α → Prop} {B : Pairs → β → β → Prop} {π : Pairs} {h k : Heap}

theorem Rel.ok {a b : α} (r : HR π h k) (ha : A π a b) : Rel A π h k (ok a h) (ok b k) :=
  ⟨π, .refl _ _ _, r, (Ext.refl h).frame _, (Ext.refl k).frame _, Or.inl ⟨a, b, rfl, rfl, ha⟩⟩

theorem Rel.fail (e : Exc) (r : HR π h k) : Rel A π h k (fail e h) (fail e k) :=
  ⟨π, .refl _ _ _, r, (Ext.refl h).frame _, (Ext.refl k).frame _, Or.inr ⟨e, rfl, rfl⟩⟩

theorem Grow.fst {π π' : Pairs} (g : Grow π π' h k) : ∀ r ∈ π'.map (·.1), r ∈ π.map (·.1) ∨ h.length ≤ r := by
  intro r hr
  obtain ⟨p, hp, rfl⟩ := List.mem_map.1 hr
  rcases g.2 p hp with hp | hp
  · exact Or.inl (List.mem_map.2 ⟨p, hp, rfl⟩)
  · exact Or.inr hp.1

theorem Grow.snd {π π' : Pairs} (g : Grow π π' h k) : ∀ r ∈ π'.map (·.2), r ∈ π.map (·.2) ∨ k.length ≤ r := by
  intro r hr
  obtain ⟨p, hp, rfl⟩ := List.mem_map.1 hr
  rcases g.2 p hp with hp | hp
  · exact Or.inl (List.mem_map.2 ⟨p, hp, rfl⟩)
  · exact Or.inr hp.2

theorem Rel.andThen {o p : Out α} {f g : α → Heap → Out β} (r : Rel A π h k o p)
    (n : ∀ π' a b h' k', (∀ q ∈ π, q ∈ π') → HR π' h' k' → A π' a b → Rel B π' h' k' (f a h') (g b k')) :
    Rel B π h k (andThen o f) (andThen p g) := by
  obtain ⟨⟨π', g1, r1, f1, f2, c⟩⟩ := r
  obtain ⟨o1, h'⟩ := o
  obtain ⟨p1, k'⟩ := p
  rcases c with ⟨a, b, e1, e2, ab⟩ | ⟨e, e1, e2⟩
  · cases e1
    cases e2
    obtain ⟨⟨π'', g2, r2, f3, f4, c⟩⟩ := n π' a b h' k' g1.1 r1 ab
    exact ⟨π'', g1.trans g2 f1.1 f2.1, r2, f1.then f3 g1.fst, f2.then f4 g1.snd, c⟩
  · cases e1
    cases e2
    exact ⟨π', g1, r1, f1, f2, Or.inr ⟨e, rfl, rfl⟩⟩

theorem NoRandom.append (r : NoRandom h) (l : Heap) : NoRandom (h ++ l) := by
  obtain ⟨o, e, n⟩ := r
  exact ⟨o, by rw [List.getElem?_append_left (get_lt e)]; exact e, n⟩

theorem NoRandom.set (r : NoRandom h) {a : Nat} (ha : a ≠ 0) (p : Obj) : NoRandom (h.set a p) := by
  obtain ⟨o, e, n⟩ := r
  exact ⟨o, by rw [List.getElem?_set_ne ha]; exact e, n⟩

theorem HR.lt (r : HR π h k) {a b : Nat} (m : (a, b) ∈ π) : a < h.length ∧ b < k.length := by
  obtain ⟨o, p, e1, e2, -⟩ := r.get m
  exact ⟨get_lt e1, get_lt e2⟩

theorem NoRandom.pos (r : NoRandom h) : h.length ≠ 0 := by
  obtain ⟨o, e, -⟩ := r
  have := get_lt e
  omega

theorem HR.pos (r : HR π h k) : h.length ≠ 0 ∧ k.length ≠ 0 := by
  rcases r.rnd with m | ⟨-, r1, r2⟩
  · have := r.lt m
    omega
  · exact ⟨r1.pos, r2.pos⟩

/-- A new object in both memories. -/
theorem HR.alloc (r : HR π h k) {o p : Obj} (e : OR π o p) : HR ((h.length, k.length) :: π) (h ++ [o]) (k ++ [p]) := by
  have s : ∀ q ∈ π, q ∈ (h.length, k.length) :: π := fun q hq => List.mem_cons_of_mem _ hq
  refine ⟨fun {a b} m => ?_, fun {a b c d} m m' => ?_, ?_⟩
  · rcases List.mem_cons.1 m with m | m
    · cases m
      exact ⟨o, p, by simp, by simp, e.mono s⟩
    · obtain ⟨o', p', e1, e2, e3⟩ := r.get m
      have := r.lt m
      exact ⟨o', p', by rw [List.getElem?_append_left this.1]; exact e1,
        by rw [List.getElem?_append_left this.2]; exact e2, e3.mono s⟩
  · rcases List.mem_cons.1 m with m | m <;> rcases List.mem_cons.1 m' with m' | m'
    · cases m
      cases m'
      simp
    · cases m
      have := r.lt m'
      omega
    · cases m'
      have := r.lt m
      omega
    · exact r.inj m m'
  · rcases r.rnd with m | ⟨nz, r1, r2⟩
    · exact Or.inl (s _ m)
    · refine Or.inr ⟨fun a b m => ?_, r1.append _, r2.append _⟩
      rcases List.mem_cons.1 m with m | m
      · cases m
        exact r.pos
      · exact nz a b m

/-- A change of corresponding cells. -/
theorem HR.set (r : HR π h k) {a b : Nat} (m : (a, b) ∈ π) {o p : Obj} (e : OR π o p) :
    HR π (h.set a o) (k.set b p) := by
  refine ⟨fun {c d} m' => ?_, r.inj, r.rnd.imp id fun ⟨nz, r1, r2⟩ =>
    ⟨nz, r1.set (nz a b m).1 _, r2.set (nz a b m).2 _⟩⟩
  by_cases hc : a = c
  · have hd := (r.inj m m').1 hc
    subst hc
    subst hd
    have := r.lt m
    exact ⟨o, p, by rw [List.getElem?_set_self this.1], by rw [List.getElem?_set_self this.2], e⟩
  · have hd : b ≠ d := fun hd => hc ((r.inj m m').2 hd)
    rw [List.getElem?_set_ne hc, List.getElem?_set_ne hd]
    exact r.get m'

theorem Rel.alloc (r : HR π h k) {o p : Obj} (e : OR π o p) : Rel VR π h k (alloc o h) (alloc p k) :=
  ⟨_, ⟨fun q hq => List.mem_cons_of_mem _ hq, fun q hq => by
    rcases List.mem_cons.1 hq with rfl | hq
    · exact Or.inr ⟨Nat.le_refl _, Nat.le_refl _⟩
    · exact Or.inl hq⟩, r.alloc e, ((Ext.refl h).add _).frame _, ((Ext.refl k).add _).frame _,
    Or.inl ⟨_, _, rfl, rfl, .ref List.mem_cons_self⟩⟩

theorem Rel.set (r : HR π h k) {a b : Nat} (m : (a, b) ∈ π) {o p : Obj} (e : OR π o p) {x y : α} (xy : A π x y) :
    Rel A π h k (Src.ok x (h.set a o)) (Src.ok y (k.set b p)) :=
  ⟨π, .refl _ _ _, r.set m e,
    ⟨by simp [Src.ok], fun c _ hc => List.getElem?_set_ne fun ha => hc (List.mem_map.2 ⟨_, m, ha⟩)⟩,
    ⟨by simp [Src.ok], fun c _ hc => List.getElem?_set_ne fun ha => hc (List.mem_map.2 ⟨_, m, ha⟩)⟩,
    Or.inl ⟨_, _, rfl, rfl, xy⟩⟩

end

end Gost.Src
