import Verif.SourceProofs.Dialog

/-! Several objects in one memory, and the results of their methods: lemmas for C130 and C131. -/

namespace Gost.Src
open ModesSrc

/-- An argument: a value which existed before the program, or the result of the step with this number (`None` if that
step returned no bytes). -/
inductive Arg where
  | given (v : Val)
  | result (k : Nat)

def Arg.val (rs : List Val) : Arg → Val
  | .given v => v
  | .result k => rs.getD k .none

def Arg.py (h0 : Heap) (ms : List (Option Bytes)) : Arg → PyVal
  | .given v => pyVal v h0
  | .result k =>
    match ms.getD k none with
    | some b => .bytearray b
    | none => .other

/-- The given arguments exist in the memory `h0`. -/
def Arg.Known (h0 : Heap) : Arg → Prop
  | .given v => ∀ r ∈ v.refs, r < h0.length
  | .result _ => True

/-- Objects which depend only on what they reach, and reach what their methods change. -/
structure Depends {α : Type} (Is : α → Nat → List Nat → Heap → Prop) : Prop where
  kept : ∀ {c : α} {me : Nat} {P : List Nat} {h h' : Heap}, Is c me P h → Kept me h h' → Is c me P h'
  reaches : ∀ {c : α} {me : Nat} {P : List Nat} {h : Heap}, Is c me P h → ∀ p ∈ P, Reach h [.ref me] p
  inst : ∀ {c : α} {me : Nat} {P : List Nat} {h : Heap}, Is c me P h → ∃ cls l, h[me]? = some (.inst cls l)

/-- The memory holds the objects and the results; each object is apart from what the others change. -/
structure HoldsAll {α : Type} (Is : α → Nat → List Nat → Heap → Prop) (h0 h : Heap) (ps : List (Nat × List Nat))
    (cs : List α) (rs : List Val) (ms : List (Option Bytes)) :
    Prop where
  len : h0.length ≤ h.length
  base : ∀ r, r < h0.length → h[r]? = h0[r]?
  size : ps.length = cs.length
  obj : ∀ (i : Nat) (p : Nat × List Nat) (c : α), ps[i]? = some p → cs[i]? = some c → Is c p.1 p.2 h
  own : ∀ (i : Nat) (p : Nat × List Nat), ps[i]? = some p → (∀ x ∈ p.2, h0.length ≤ x ∧ x < h.length) ∧ Sound h [.ref p.1]
  apart : ∀ (i j : Nat) (p q : Nat × List Nat), i ≠ j → ps[i]? = some p → ps[j]? = some q → ∀ x ∈ p.2, ¬ Reach h [.ref q.1] x
  count : rs.length = ms.length
  res : ∀ (k : Nat) (v : Val) (m : Option Bytes), rs[k]? = some v → ms[k]? = some m →
    (m = none ∧ v.refs = [] ∧ bytesOf v h = none) ∨ ∃ b r, m = some b ∧ v = .ref r ∧ h[r]? = some (.bytearray b) ∧
      ∀ (i : Nat) (p : Nat × List Nat), ps[i]? = some p → r ∉ p.2

section
variable {α : Type} {Is : α → Nat → List Nat → Heap → Prop} {h0 h : Heap} {ps : List (Nat × List Nat)} {cs : List α}
  {rs : List Val} {ms : List (Option Bytes)}

/-- The memory before the program has only references to itself. -/
def Closed (h0 : Heap) : Prop := 0 < h0.length ∧ ∀ (r : Nat) (o : Obj), h0[r]? = some o → ∀ s ∈ o.refs, s < h0.length

/-- A value which is not a part of an object. -/
structure Loose (h : Heap) (ps : List (Nat × List Nat)) (v : Val) : Prop where
  known : ModesSrc.Known v h
  sound : Sound h [v]
  out : ∀ (i : Nat) (p : Nat × List Nat), ps[i]? = some p → ∀ x ∈ p.2, ¬ Reach h [v] x

theorem refsList_single (v : Val) : Val.refsList [v] = v.refs := by
  simp [Val.refsList]

theorem HoldsAll.given (H : HoldsAll Is h0 h ps cs rs ms) (cl : Closed h0) {v : Val} (hv : ∀ r ∈ v.refs, r < h0.length) :
    Loose h ps v ∧ pyVal v h = pyVal v h0 := by
  have w : ∀ r, Reach h [v] r → r < h0.length := fun r c =>
    reach_base cl.2 H.base (by rw [refsList_single]; exact hv) c
  refine ⟨⟨fun r e => ?_, fun r c => Nat.lt_of_lt_of_le (w r c) H.len, fun i p hp x hx c => ?_⟩, ?_⟩
  · subst e
    exact Nat.lt_of_lt_of_le (hv r (by simp [Val.refs])) H.len
  · have := ((H.own i p hp).1 x hx).1
    have := w x c
    omega
  · cases v with
    | ref r => simp only [pyVal, bytesOf, H.base r (hv r (by simp [Val.refs]))]
    | _ => rfl

theorem HoldsAll.arg (H : HoldsAll Is h0 h ps cs rs ms) (cl : Closed h0) {a : Arg} (ha : a.Known h0) :
    Loose h ps (a.val rs) ∧ pyVal (a.val rs) h = a.py h0 ms := by
  have empty : ∀ v : Val, v.refs = [] → bytesOf v h = none → Loose h ps v ∧ pyVal v h = .other := by
    intro v e e'
    have w : ∀ r, ¬ Reach h [v] r := fun r => reach_nil (by rw [refsList_single, e])
    refine ⟨⟨fun r e1 => by subst e1; simp [Val.refs] at e, fun r c => (w r c).elim, fun _ _ _ x _ => w x⟩, ?_⟩
    cases v with
    | bytes b => simp [bytesOf] at e'
    | _ => simp only [pyVal, e']
  cases a with
  | given v => exact H.given cl ha
  | result k =>
    simp only [Arg.val, Arg.py, List.getD_eq_getElem?_getD]
    cases e : rs[k]? with
    | none =>
      have : ms[k]? = none := by
        rw [List.getElem?_eq_none_iff] at e ⊢
        have := H.count; omega
      rw [this]
      exact empty _ rfl rfl
    | some v =>
      obtain ⟨m, em⟩ : ∃ m, ms[k]? = some m := by
        have : k < ms.length := by
          have := (List.getElem?_eq_some_iff.1 e).1
          have := H.count; omega
        exact ⟨_, List.getElem?_eq_getElem this⟩
      rw [em]
      rcases H.res k v m e em with ⟨rfl, h1, h2⟩ | ⟨b, r, rfl, rfl, h1, h2⟩
      · exact empty v h1 h2
      · have w : ∀ s, Reach h [.ref r] s → s = r := fun s c => reach_bytearray h1 c
        refine ⟨⟨fun s e => ?_, fun s c => ?_, fun i p hp x hx c => ?_⟩, ?_⟩
        · cases e; exact (List.getElem?_eq_some_iff.1 h1).1
        · rw [w s c]; exact (List.getElem?_eq_some_iff.1 h1).1
        · exact h2 i p hp (w x c ▸ hx)
        · simp only [Option.getD_some, pyVal, bytesOf, h1]

/-- The state after a step on the object `i` with the argument values `args`. -/
theorem HoldsAll.step (H : HoldsAll Is h0 h ps cs rs ms) (D : Depends Is) (cl : Closed h0) {i : Nat} {p : Nat × List Nat}
    (hp : ps[i]? = some p) {args : List Val} (ha : ∀ v ∈ args, Loose h ps v) {L n : Nat} {m : String} {h' : Heap}
    {c : α} (hc : cs[i]? = some c) (e : (callMeth (ctx L n) (.ref p.1) m args h).2 = h') (f : Frame p.2 h h')
    {c' : α} (r : Is c' p.1 p.2 h') {v : Val} {o : Option Bytes}
    (hv : (o = none ∧ v.refs = [] ∧ bytesOf v h' = none) ∨
      ∃ b r, o = some b ∧ v = .ref r ∧ h'[r]? = some (.bytearray b) ∧ h.length ≤ r) :
    HoldsAll Is h0 h' ps (cs.set i c') (rs ++ [v]) (ms ++ [o]) := by
  obtain ⟨cls, l, g⟩ := D.inst (H.obj i p c hp hc)
  have z : ∀ r, Reach h [.ref 0] r → r < h0.length := fun r c =>
    reach_base cl.2 H.base (by simp [Val.refsList, Val.refs, cl.1]) c
  have sa : ∀ r, Reach h args r → ∃ v ∈ args, Reach h [v] r := by
    intro r c
    clear hv e ha
    induction args with
    | nil => exact (reach_nil rfl c).elim
    | cons w args ih =>
      rcases reach_cons c with c | c
      · exact ⟨w, by simp, c⟩
      · obtain ⟨v, hv, c⟩ := ih c
        exact ⟨v, by simp [hv], c⟩
  have w : Sound h (.ref 0 :: .ref p.1 :: args) := by
    refine sound_cons (fun r c => Nat.lt_of_lt_of_le (z r c) H.len) (sound_cons (H.own i p hp).2 fun r c => ?_)
    obtain ⟨v, hv, c⟩ := sa r c
    exact (ha v hv).sound r c
  obtain ⟨F, S⟩ := fresh_meth L n m g w
  rw [e] at F S
  have kept : ∀ j q, j ≠ i → ps[j]? = some q → Kept q.1 h h' := fun j q hj hq r c =>
    f.2 r ((H.own j q hq).2 r c) fun hx => H.apart i j p q hj.symm hp hq r hx c
  have sub : ∀ r, Reach h' [.ref p.1] r → Reach h' (.ref 0 :: .ref p.1 :: args) r := fun r c =>
    reach_mono (fun s hs => .arg (by simp [Val.refsList, Val.refs] at hs ⊢; simp [hs])) c
  have own : ∀ r, Reach h' [.ref p.1] r → ∀ j q, j ≠ i → ps[j]? = some q → r ∉ q.2 := by
    intro r c j q hj hq hx
    rcases F r (sub r c) with c | c
    · rcases reach_cons c with c | c
      · have := z r c
        have := ((H.own j q hq).1 r hx).1
        omega
      · rcases reach_cons c with c | c
        · exact H.apart j i q p hj hq hp r hx c
        · obtain ⟨v, hv, c⟩ := sa r c
          exact (ha v hv).out j q hq r hx c
    · have := ((H.own j q hq).1 r hx).2
      omega
  refine ⟨Nat.le_trans H.len f.1, fun r hr => ?_, by simp [H.size], fun j q d hq hd => ?_, fun j q hq => ⟨fun x hx => ?_, ?_⟩,
    fun j k q q' hjk hq hq' x hx c => ?_, by simp [H.count], fun k u t hu ht => ?_⟩
  · rw [f.2 r (Nat.lt_of_lt_of_le hr H.len) fun hx => ?_, H.base r hr]
    have := ((H.own i p hp).1 r hx).1
    omega
  · by_cases hj : j = i
    · subst hj
      rw [hp] at hq
      cases hq
      rw [List.getElem?_set_self (List.getElem?_eq_some_iff.1 hc).1] at hd
      cases hd
      exact r
    · rw [List.getElem?_set_ne (Ne.symm hj)] at hd
      exact D.kept (H.obj j q d hq hd) (kept j q hj hq)
  · exact ⟨((H.own j q hq).1 x hx).1, Nat.lt_of_lt_of_le ((H.own j q hq).1 x hx).2 f.1⟩
  · by_cases hj : j = i
    · subst hj
      rw [hp] at hq
      cases hq
      exact fun r c => S r (sub r c)
    · exact fun r c => Nat.lt_of_lt_of_le ((H.own j q hq).2 r (reach_back (kept j q hj hq) c)) f.1
  · by_cases hk : k = i
    · subst hk
      rw [hp] at hq'
      cases hq'
      exact own x c j q hjk hq hx
    · exact H.apart j k q q' hjk hq hq' x hx (reach_back (kept k q' hk hq') c)
  · by_cases hk : k < rs.length
    · rw [List.getElem?_append_left hk] at hu
      rw [List.getElem?_append_left (H.count ▸ hk)] at ht
      rcases H.res k u t hu ht with ⟨rfl, h1, h2⟩ | ⟨b, r, rfl, rfl, h1, h2⟩
      · refine .inl ⟨rfl, h1, ?_⟩
        cases u with
        | ref r => simp [Val.refs] at h1
        | _ => exact h2
      · exact .inr ⟨b, r, rfl, rfl, (f.2 r (List.getElem?_eq_some_iff.1 h1).1 (h2 i p hp)).trans h1, h2⟩
    · rw [List.getElem?_append_right (by omega), List.getElem?_singleton] at hu
      rw [List.getElem?_append_right (by have := H.count; omega), List.getElem?_singleton] at ht
      split at hu <;> cases hu
      split at ht <;> cases ht
      rcases hv with hv | ⟨b, r, h1, h2, h3, h4⟩
      · exact .inl hv
      · refine .inr ⟨b, r, h1, h2, h3, fun j q hq hx => ?_⟩
        have := ((H.own j q hq).1 r hx).2
        omega

/-- A step which changes nothing that existed. -/
theorem HoldsAll.ext (H : HoldsAll Is h0 h ps cs rs ms) (D : Depends Is) {h' : Heap} (x : Ext h h') :
    HoldsAll Is h0 h' ps cs (rs ++ [.none]) (ms ++ [none]) := by
  have f := x.frame []
  have kept : ∀ (j : Nat) (q : Nat × List Nat), ps[j]? = some q → Kept q.1 h h' := fun j q hq r c =>
    f.2 r ((H.own j q hq).2 r c) (by simp)
  refine ⟨Nat.le_trans H.len f.1, fun r hr => ?_, H.size, fun j q d hq hd => ?_, fun j q hq => ⟨fun x hx => ?_, ?_⟩,
    fun j k q q' hjk hq hq' x hx c => ?_, by simp [H.count], fun k u t hu ht => ?_⟩
  · rw [f.2 r (Nat.lt_of_lt_of_le hr H.len) (by simp), H.base r hr]
  · exact D.kept (H.obj j q d hq hd) (kept j q hq)
  · exact ⟨((H.own j q hq).1 x hx).1, Nat.lt_of_lt_of_le ((H.own j q hq).1 x hx).2 f.1⟩
  · exact fun r c => Nat.lt_of_lt_of_le ((H.own j q hq).2 r (reach_back (kept j q hq) c)) f.1
  · exact H.apart j k q q' hjk hq hq' x hx (reach_back (kept k q' hq') c)
  · by_cases hk : k < rs.length
    · rw [List.getElem?_append_left hk] at hu
      rw [List.getElem?_append_left (H.count ▸ hk)] at ht
      rcases H.res k u t hu ht with ⟨rfl, h1, h2⟩ | ⟨b, r, rfl, rfl, h1, h2⟩
      · refine .inl ⟨rfl, h1, ?_⟩
        cases u with
        | ref r => simp [Val.refs] at h1
        | _ => exact h2
      · exact .inr ⟨b, r, rfl, rfl, x.get h1, h2⟩
    · rw [List.getElem?_append_right (by omega), List.getElem?_singleton] at hu
      rw [List.getElem?_append_right (by have := H.count; omega), List.getElem?_singleton] at ht
      split at hu <;> cases hu
      split at ht <;> cases ht
      exact .inl ⟨rfl, rfl, rfl⟩

/-- A new object. -/
theorem HoldsAll.make (H : HoldsAll Is h0 h ps cs rs ms) (D : Depends Is) {h' : Heap} (x : Ext h h') {me : Nat} {P : List Nat} {c : α}
    (r : Is c me P h') (hP : ∀ q ∈ P, h.length ≤ q) (S : Sound h' [.ref me])
    (out : ∀ (i : Nat) (p : Nat × List Nat), ps[i]? = some p → ∀ q ∈ p.2, ¬ Reach h' [.ref me] q) :
    HoldsAll Is h0 h' (ps ++ [(me, P)]) (cs ++ [c]) (rs ++ [.none]) (ms ++ [none]) := by
  have N := H.ext D x
  have last : ∀ (j : Nat) (q : Nat × List Nat), (ps ++ [(me, P)])[j]? = some q →
      ps[j]? = some q ∨ j = ps.length ∧ q = (me, P) := by
    intro j q hq
    by_cases hj : j < ps.length
    · rw [List.getElem?_append_left hj] at hq
      exact .inl hq
    · rw [List.getElem?_append_right (by omega), List.getElem?_singleton] at hq
      split at hq <;> cases hq
      exact .inr ⟨by omega, rfl⟩
  refine ⟨N.len, N.base, by simp [H.size], fun j q d hq hd => ?_, fun j q hq => ?_, fun j k q q' hjk hq hq' y hy c => ?_,
    N.count, fun k u t hu ht => ?_⟩
  · rcases last j q hq with h1 | ⟨rfl, rfl⟩
    · rw [List.getElem?_append_left (H.size ▸ (List.getElem?_eq_some_iff.1 h1).1)] at hd
      exact N.obj j q d h1 hd
    · rw [H.size, List.getElem?_concat_length] at hd
      cases hd
      exact r
  · rcases last j q hq with h1 | ⟨rfl, rfl⟩
    · exact N.own j q h1
    · exact ⟨fun y hy => ⟨Nat.le_trans H.len (hP y hy), S y (D.reaches r y hy)⟩, S⟩
  · rcases last j q hq with h1 | ⟨rfl, rfl⟩
    · rcases last k q' hq' with h2 | ⟨rfl, rfl⟩
      · exact N.apart j k q q' hjk h1 h2 y hy c
      · exact out j q h1 y hy c
    · rcases last k q' hq' with h2 | ⟨rfl, rfl⟩
      · have e : ∀ r, Reach h [.ref q'.1] r → h'[r]? = h[r]? := fun r c =>
          (x.frame []).2 r ((H.own k q' h2).2 r c) (by simp)
        have := (H.own k q' h2).2 y (reach_back e c)
        have := hP y hy
        omega
      · exact hjk rfl
  · rcases N.res k u t hu ht with h1 | ⟨b, s, rfl, rfl, h1, h2⟩
    · exact .inl h1
    · refine .inr ⟨b, s, rfl, rfl, h1, fun j q hq hs => ?_⟩
      rcases last j q hq with h3 | ⟨rfl, rfl⟩
      · exact h2 j q h3 hs
      · have hk : k < rs.length := by
          by_cases hk : k < rs.length
          · exact hk
          · rw [List.getElem?_append_right (by omega), List.getElem?_singleton] at hu
            split at hu <;> cases hu
        rw [List.getElem?_append_left hk] at hu
        rw [List.getElem?_append_left (H.count ▸ hk)] at ht
        rcases H.res k _ _ hu ht with ⟨h5, -⟩ | ⟨b', s', -, h5, h6, -⟩
        · cases h5
        · cases h5
          have := (List.getElem?_eq_some_iff.1 h6).1
          have := hP s hs
          omega


theorem HoldsAll.source (H : HoldsAll Is h0 h ps cs rs ms) (cl : Closed h0) : Loose h ps (.ref 0) :=
  (H.given cl (v := .ref 0) (by simp [Val.refs, cl.1])).1

theorem loose_plain {v : Val} (e : v.refs = []) : Loose h ps v := by
  have w : ∀ r, ¬ Reach h [v] r := fun r => reach_nil (by rw [refsList_single, e])
  exact ⟨fun r e1 => by subst e1; simp [Val.refs] at e, fun r c => (w r c).elim, fun _ _ _ x _ => w x⟩

theorem refsDict_mem {l : List (String × Val)} {r : Nat} (hr : r ∈ Val.refsDict l) : ∃ p ∈ l, r ∈ p.2.refs := by
  induction l with
  | nil => cases hr
  | cons p l ih =>
    obtain ⟨x, v⟩ := p
    simp only [Val.refsDict, List.mem_append] at hr
    rcases hr with hr | hr
    · exact ⟨_, List.mem_cons_self, hr⟩
    · obtain ⟨q, h1, h2⟩ := ih hr
      exact ⟨q, List.mem_cons_of_mem _ h1, h2⟩

theorem refsList_mem' {vs : List Val} {r : Nat} (hr : r ∈ Val.refsList vs) : ∃ v ∈ vs, r ∈ v.refs := by
  induction vs with
  | nil => cases hr
  | cons v vs ih =>
    rw [Val.refsList, List.mem_append] at hr
    rcases hr with hr | hr
    · exact ⟨v, List.mem_cons_self, hr⟩
    · obtain ⟨w, h1, h2⟩ := ih hr
      exact ⟨w, List.mem_cons_of_mem _ h1, h2⟩

/-- What several values reach is reached by one of them. -/
theorem reach_one {vs : List Val} {r : Nat} (c : Reach h vs r) : ∃ v ∈ vs, Reach h [v] r := by
  induction c with
  | arg hr =>
    obtain ⟨v, h1, h2⟩ := refsList_mem' hr
    exact ⟨v, h1, .arg (by rw [refsList_single]; exact h2)⟩
  | step _ e hr ih =>
    obtain ⟨v, h1, h2⟩ := ih
    exact ⟨v, h1, h2.step e hr⟩

theorem loose_dict {l : List (String × Val)} (hl : ∀ p ∈ l, Loose h ps p.2) : Loose h ps (.dict l) := by
  have w : ∀ r, Reach h [.dict l] r → ∃ p ∈ l, Reach h [p.2] r := by
    intro r c
    induction c with
    | arg hr =>
      rw [refsList_single, Val.refs] at hr
      obtain ⟨p, h1, h2⟩ := refsDict_mem hr
      exact ⟨p, h1, .arg (by rw [refsList_single]; exact h2)⟩
    | step _ e hr ih =>
      obtain ⟨p, h1, h2⟩ := ih
      exact ⟨p, h1, h2.step e hr⟩
  refine ⟨fun r e => Val.noConfusion e, fun r c => ?_, fun i p hp x hx c => ?_⟩
  · obtain ⟨q, h1, h2⟩ := w r c
    exact (hl q h1).sound r h2
  · obtain ⟨q, h1, h2⟩ := w x c
    exact (hl q h1).out i p hp x hx h2

theorem loose_reach {vs : List Val} (hv : ∀ v ∈ vs, Loose h ps v) :
    Sound h vs ∧ ∀ (i : Nat) (p : Nat × List Nat), ps[i]? = some p → ∀ x ∈ p.2, ¬ Reach h vs x := by
  refine ⟨fun r c => ?_, fun i p hp x hx c => ?_⟩
  · obtain ⟨v, h1, h2⟩ := reach_one c
    exact (hv v h1).sound r h2
  · obtain ⟨v, h1, h2⟩ := reach_one c
    exact (hv v h1).out i p hp x hx h2

/-- The result of a call with such arguments is apart from what the objects change. -/
theorem HoldsAll.called (H : HoldsAll Is h0 h ps cs rs ms) (cl : Closed h0) {L n : Nat} {f : String} {args : List Val}
    (ha : ∀ v ∈ args, Loose h ps v) {v : Val} {h' : Heap} (e : call package L n f args h = ok v h') :
    Sound h' [v] ∧ ∀ (i : Nat) (p : Nat × List Nat), ps[i]? = some p → ∀ q ∈ p.2, ¬ Reach h' [v] q := by
  obtain ⟨S, O⟩ := loose_reach (vs := .ref 0 :: args) (ps := ps) (h := h) fun v hv => by
    rcases List.mem_cons.1 hv with rfl | hv
    · exact H.source cl
    · exact ha v hv
  obtain ⟨F, T⟩ := C110_fresh L n f args h S v h' e
  have sub : ∀ r, Reach h' [v] r → Reach h' (v :: .ref 0 :: args) r := fun r c =>
    reach_mono (fun s hs => .arg (by rw [refsList_single] at hs; rw [Val.refsList, List.mem_append]; exact .inl hs)) c
  refine ⟨fun r c => T r (sub r c), fun i p hp q hq c => ?_⟩
  rcases F q (sub q c) with c | c
  · exact O i p hp q hq c
  · have := ((H.own i p hp).1 q hq).2
    omega

end

end Gost.Src
