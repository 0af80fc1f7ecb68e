import Verif.Props.SourceIsolation

/-! C110: where the objects of a result come from. Whatever a function of the package is called with, the objects which
can be reached afterwards from its result and from its arguments are those which the arguments reached before, and new
ones. The package has no store of its own behind the calls, and no reference leaves the memory. -/

namespace Gost.Src

section

variable {π : Pairs}

mutual

theorem VR.refs : {v w : Val} → VR π v w → ∀ r ∈ v.refs, ∃ s, (r, s) ∈ π
  | _, _, .none, _, hr | _, _, .bool _, _, hr | _, _, .int _, _, hr | _, _, .str _, _, hr | _, _, .bytes _, _, hr => by
    simp [Val.refs] at hr
  | _, _, .tuple t, r, hr => VRs.refs t r (by simpa only [Val.refs] using hr)
  | _, _, .dict t, r, hr => VRa.refs t r (by simpa only [Val.refs] using hr)
  | _, _, .ref m, r, hr => by
    simp only [Val.refs, List.mem_singleton] at hr
    exact ⟨_, hr ▸ m⟩

theorem VRs.refs : {l m : List Val} → VRs π l m → ∀ r ∈ Val.refsList l, ∃ s, (r, s) ∈ π
  | _, _, .nil, _, hr => by simp [Val.refsList] at hr
  | _, _, .cons e t, r, hr => by
    simp only [Val.refsList, List.mem_append] at hr
    rcases hr with hr | hr
    · exact VR.refs e r hr
    · exact VRs.refs t r hr

theorem VRa.refs : {l m : List (String × Val)} → VRa π l m → ∀ r ∈ Val.refsDict l, ∃ s, (r, s) ∈ π
  | _, _, .nil, _, hr => by simp [Val.refsDict] at hr
  | _, _, .cons e t, r, hr => by
    simp only [Val.refsDict, List.mem_append] at hr
    rcases hr with hr | hr
    · exact VR.refs e r hr
    · exact VRa.refs t r hr

end

theorem OR.refs {o p : Obj} (e : OR π o p) : ∀ r ∈ o.refs, ∃ s, (r, s) ∈ π := by
  cases e with
  | bytearray b => simp [Obj.refs]
  | list t => exact t.refs
  | inst c t => exact t.refs

/-- What corresponding values reach corresponds. -/
theorem HR.reach {h k : Heap} (R : HR π h k) {vs : List Val} (t : ∀ r ∈ Val.refsList vs, ∃ s, (r, s) ∈ π) {r : Nat}
    (c : Reach h vs r) : ∃ s, (r, s) ∈ π := by
  induction c with
  | arg hr => exact t _ hr
  | step _ e hr ih =>
    obtain ⟨s, m⟩ := ih
    obtain ⟨o, p, e1, -, e3⟩ := R.get m
    cases e.symm.trans e1
    exact e3.refs _ hr

end

/-- The objects which the values `vs` reach in the memory `h'` were reached from `ws` in `h`, or are new. -/
def FromOrNew (h : Heap) (ws : List Val) (h' : Heap) (vs : List Val) : Prop :=
  ∀ r, Reach h' vs r → Reach h ws r ∨ h.length ≤ r

theorem fresh (L n : Nat) (f : String) {args vs : List Val} {h : Heap} (w : Sound h vs)
    (s : Reach h vs 0 ∨ NoRandom h ∧ ¬ Reach h vs 0) (sub : ∀ r ∈ Val.refsList args, Reach h vs r) {v : Val} {h' : Heap}
    (e : call package L n f args h = ok v h') : FromOrNew h vs h' (v :: vs) ∧ Sound h' (v :: vs) := by
  obtain ⟨⟨π', g, R, -, -, c⟩⟩ := reached_call L n f w s sub
  rw [e] at R c
  have t : ∀ r ∈ Val.refsList (v :: vs), ∃ s, (r, s) ∈ π' := by
    intro r hr
    rw [Val.refsList, List.mem_append] at hr
    rcases hr with hr | hr
    · rcases c with ⟨a, b, e1, e2, ab⟩ | ⟨_, e1, _⟩
      · cases e1
        exact ab.refs r hr
      · cases e1
    · exact ⟨r, g.1 _ (mem_reached.2 ⟨rfl, w r (.arg hr), .arg hr⟩)⟩
  refine ⟨fun r c => ?_, fun r c => ?_⟩ <;> obtain ⟨s, m⟩ := R.reach t c
  · rcases g.2 _ m with m | m
    · exact Or.inl (mem_reached.1 m).2.2
    · exact Or.inr m.1
  · exact (R.lt m).1

/-- C110: the result of a call, the arguments after it and the source of random bytes reach what the arguments and the
source reached before, and new objects; all of it is in the memory. -/
theorem C110_fresh (L n : Nat) (f : String) (args : List Val) (h : Heap) (w : Sound h (.ref 0 :: args)) (v : Val)
    (h' : Heap) (e : call package L n f args h = ok v h') :
    FromOrNew h (.ref 0 :: args) h' (v :: .ref 0 :: args) ∧ Sound h' (v :: .ref 0 :: args) :=
  fresh L n f w (Or.inl (reach_source h args)) (sub_source h args) e

/-- C110 without random bytes: nothing is reached afterwards but what the arguments reached, and new objects. -/
theorem C110_fresh_quiet (L n : Nat) (f : String) (args : List Val) (h : Heap) (nr : NoRandom h) (w : Sound h args)
    (z : ¬ Reach h args 0) (v : Val) (h' : Heap) (e : call package L n f args h = ok v h') :
    FromOrNew h args h' (v :: args) ∧ Sound h' (v :: args) :=
  fresh L n f w (Or.inr ⟨nr, z⟩) (fun _ hr => .arg hr) e

/-- C110 for a call which raises an exception: what the arguments reach after it. -/
theorem C110_fresh_error (L n : Nat) (f : String) (args : List Val) (h : Heap) (w : Sound h (.ref 0 :: args)) (x : Exc)
    (h' : Heap) (e : call package L n f args h = fail x h') :
    FromOrNew h (.ref 0 :: args) h' (.ref 0 :: args) ∧ Sound h' (.ref 0 :: args) := by
  obtain ⟨⟨π', g, R, -, -, -⟩⟩ := reached_call L n f w (Or.inl (reach_source h args)) (sub_source h args)
  rw [e] at R
  have t : ∀ r ∈ Val.refsList (.ref 0 :: args), ∃ s, (r, s) ∈ π' := fun r hr =>
    ⟨r, g.1 _ (mem_reached.2 ⟨rfl, w r (.arg hr), .arg hr⟩)⟩
  refine ⟨fun r c => ?_, fun r c => ?_⟩ <;> obtain ⟨s, m⟩ := R.reach t c
  · rcases g.2 _ m with m | m
    · exact Or.inl (mem_reached.1 m).2.2
    · exact Or.inr m.1
  · exact (R.lt m).1

theorem reach_back {h h' : Heap} {vs : List Val} (e : ∀ r, Reach h vs r → h'[r]? = h[r]?) {r : Nat}
    (c : Reach h' vs r) : Reach h vs r := by
  induction c with
  | arg hr => exact .arg hr
  | step _ e' hr ih => exact .step ih ((e _ ih).symm.trans e') hr

/-- C110, separation: two calls whose arguments share nothing. Their results share nothing, and the second call leaves
what the first one returned as it is. -/
theorem C110_apart (L n : Nat) (f g : String) (args args' : List Val) (h : Heap) (nr : NoRandom h)
    (w : Sound h args) (w' : Sound h args') (z : ¬ Reach h args 0) (z' : ¬ Reach h args' 0)
    (d : ∀ r, Reach h args r → ¬ Reach h args' r) (v v' : Val) (h' h'' : Heap)
    (e : call package L n f args h = ok v h') (e' : call package L n g args' h' = ok v' h'') :
    (∀ r, Reach h'' (v :: args) r → ¬ Reach h'' (v' :: args') r) ∧
    ∀ r, Reach h'' (v :: args) r → h''[r]? = h'[r]? := by
  have F := C108_frame_quiet L n f args h nr w z
  rw [e] at F
  have k1 : ∀ r, Reach h args' r → h'[r]? = h[r]? := fun r c => F r (w' r c) fun c' => d r c' c
  have b1 : ∀ r, Reach h' args' r → Reach h args' r := fun r c => reach_back k1 c
  have ln : h.length ≤ h'.length := by
    obtain ⟨⟨_, -, -, fr, -, -⟩⟩ := reached_call L n f w (Or.inr ⟨nr, z⟩) fun r hr => .arg hr
    rw [e] at fr
    exact fr.1
  have nr' : NoRandom h' := by
    obtain ⟨o, eo, no⟩ := nr
    exact ⟨o, (F 0 (get_lt eo) z).trans eo, no⟩
  have w1 : Sound h' args' := fun r c => Nat.lt_of_lt_of_le (w' r (b1 r c)) ln
  obtain ⟨A, A'⟩ := C110_fresh_quiet L n f args h nr w z v h' e
  have G := C108_frame_quiet L n g args' h' nr' w1 fun c => z' (b1 0 c)
  rw [e'] at G
  have out : ∀ r, Reach h' (v :: args) r → ¬ Reach h' args' r := by
    intro r c c'
    rcases A r c with c | c
    · exact d r c (b1 r c')
    · have := w' r (b1 r c')
      omega
  have k2 : ∀ r, Reach h' (v :: args) r → h''[r]? = h'[r]? := fun r c => G r (A' r c) (out r c)
  obtain ⟨B, -⟩ := C110_fresh_quiet L n g args' h' nr' w1 (fun c => z' (b1 0 c)) v' h'' e'
  refine ⟨fun r c c' => ?_, fun r c => k2 r (reach_back k2 c)⟩
  have c := reach_back k2 c
  rcases B r c' with c' | c'
  · exact out r c c'
  · have := A' r c
    omega

/-- C110, dependence: if another memory has in every cell which the arguments and the source of random bytes reach the
same object, the call has the same outcome there: the same exception, or values which look the same. -/
theorem C110_depends (L n : Nat) (f : String) (args : List Val) (h k : Heap) (w : Sound h (.ref 0 :: args))
    (same : ∀ r, Reach h (.ref 0 :: args) r → k[r]? = h[r]?) :
    (∃ v v', (call package L n f args h).1 = .ok v ∧ (call package L n f args k).1 = .ok v' ∧
      Same (call package L n f args h).2 (call package L n f args k).2 (some v) (some v')) ∨
    ∃ x, (call package L n f args h).1 = .error x ∧ (call package L n f args k).1 = .error x := by
  have R := reached_ok w (Or.inl (reach_source h args))
  have R' : HR (reached h (.ref 0 :: args)) h k := by
    refine ⟨fun {a b} m => ?_, R.inj, R.rnd.imp id fun q => ?_⟩
    · obtain ⟨o, p, e1, e2, e3⟩ := R.get m
      obtain ⟨rfl, -, c⟩ := mem_reached.1 m
      exact ⟨o, p, e1, (same _ c).trans e2, e3⟩
    · exact absurd rfl (q.1 0 0 (mem_reached.2 ⟨rfl, w 0 (reach_source h args), reach_source h args⟩)).1
  have t : VRs (reached h (.ref 0 :: args)) args args :=
    .diag _ fun r hr => mem_reached.2 ⟨rfl, w r (sub_source h args r hr), sub_source h args r hr⟩
  obtain ⟨⟨π', -, R'', -, -, c⟩⟩ := (ctx_local L n).call f R' t
  rcases c with ⟨v, v', e1, e2, e3⟩ | ⟨x, e1, e2⟩
  · exact Or.inl ⟨v, v', e1, e2, by
      have := same_of (env := fun _ => some v) (env' := fun _ => some v') R'' (fun _ => Or.inr ⟨v, v', rfl, rfl, e3⟩) ""
      exact this⟩
  · exact Or.inr ⟨x, e1, e2⟩

/-- A memory all of whose references are in it. -/
theorem sound_closed {h : Heap} {vs : List Val} (c : ∀ o ∈ h, ∀ r ∈ o.refs, r < h.length)
    (a : ∀ r ∈ Val.refsList vs, r < h.length) : Sound h vs := by
  intro r q
  induction q with
  | arg hr => exact a _ hr
  | step _ e hr _ => exact c _ (List.mem_of_getElem? e) _ hr

/-! An instance: a caller hashes the contents of their `bytearray`, which is in cell 1. What can be reached from the hash
object afterwards is that cell, the source of random bytes and new cells. -/

example (m : Bytes) : Sound [.list [], .bytearray m] [.ref 0, .str "streebog256", .dict [("data", .ref 1)]] :=
  sound_closed (by simp [Obj.refs, Val.refsList]) (by simp [Val.refsList, Val.refsDict, Val.refs])

example (L n : Nat) (m : Bytes) (v : Val) (h' : Heap) (e : call package L n "Hash.new"
    [.str "streebog256", .dict [("data", .ref 1)]] [.list [], .bytearray m] = ok v h') (r : Nat) (c : Reach h' [v] r) :
    r < h'.length := by
  refine (C110_fresh L n _ _ _ (sound_closed (by simp [Obj.refs, Val.refsList])
    (by simp [Val.refsList, Val.refsDict, Val.refs])) v h' e).2 r ?_
  induction c with
  | arg hr => exact .arg (by simp only [Val.refsList, List.mem_append, List.append_nil] at hr ⊢; exact Or.inl hr)
  | step _ e hr ih => exact .step ih e hr

/-- Such a call does return an object. -/
example (L n : Nat) (m : Bytes) (h : Heap) : ∃ v h', call package L (n + 7) "Hash.new"
    [.str "streebog256", .dict [("data", .bytes m)]] h = ok v h' := by
  obtain ⟨r, l, f, -, b⟩ := (C97_standard L n h "streebog256" (Or.inr rfl) (.bytes m) m rfl).elim
  have f : andThen (call package L (n + 7) "Hash.new" [.str "streebog256", .dict [("data", .bytes m)]] h)
    (fun v h => callMeth (ctx L (n + 7)) v "digest" [] h) = ok (.ref r) (h ++ l) := f
  generalize call package L (n + 7) "Hash.new" [.str "streebog256", .dict [("data", .bytes m)]] h = o at f ⊢
  obtain ⟨o | v, h'⟩ := o
  · cases f
  · exact ⟨v, h', rfl⟩

end Gost.Src
