import Verif.Props.SourceThings

/-! C131: programs which use objects of all kinds - ciphers, MAC, hash functions, HMAC, key derivation, generators and
signatures - and pass the results of one to another, as they are written. -/

namespace Gost.Src
open Spec ModesSrc

/-- A step of a program: `o_i = new(…)`, where `i` is the number of the objects made before, `o_i.m(…)`, or
`o_j = o_i.copy()`. An exception is caught, a call of an object which was not made is left out. -/
inductive Act where
  | make (mk : Make Arg)
  | use (i : Nat) (m : Meth Arg)
  | copy (i : Nat)

/-- What a step is seen to do; `refused` are the exceptions of Python itself for a method which does not exist or takes
other arguments; `beyond` ends the run of the model: the system is asked for random bytes, or a loop of a signature object
does not end in the turns which are followed. -/
inductive Sight where
  | object
  | nothing
  | bytes (b : Bytes)
  | text (t : List Char)
  | truth (b : Bool)
  | raised (e : Err)
  | refused
  | beyond
  | odd
deriving DecidableEq

/-! ### The package as it is written -/

def sight (v : Val) (h : Heap) : Sight :=
  match bytesOf v h, v with
  | some b, _ => .bytes b
  | none, .none => .nothing
  | none, .ref _ => .object
  | none, .str t => .text t.toList
  | none, .bool b => .truth b
  | none, _ => .odd

def sightExc (x : Exc) : Sight :=
  match excOf x with
  | some e => .raised e
  | none => .refused

/-- The steps, with the objects made so far, the results so far and the memory. -/
def actText (C : Ctx) : List Act → List Val → List Val → Heap → List Sight
  | [], _, _, _ => []
  | .make mk :: σ, os, rs, h =>
    match C.call (mk.map (·.val rs)).text.1 (mk.map (·.val rs)).text.2 h with
    | (.ok v, h') => sight v h' :: actText C σ (os ++ [v]) (rs ++ [.none]) h'
    | (.error x, h') => sightExc x :: actText C σ os (rs ++ [.none]) h'
  | .use i m :: σ, os, rs, h =>
    match os[i]? with
    | none => .nothing :: actText C σ os (rs ++ [.none]) h
    | some o =>
      match callMeth C o (m.map (·.val rs)).text.1 (m.map (·.val rs)).text.2 h with
      | (.ok v, h') => sight v h' :: actText C σ os (rs ++ [v]) h'
      | (.error x, h') => sightExc x :: actText C σ os (rs ++ [.none]) h'
  | .copy i :: σ, os, rs, h =>
    match os[i]? with
    | none => .nothing :: actText C σ os (rs ++ [.none]) h
    | some o =>
      match callMeth C o "copy" [] h with
      | (.ok v, h') => sight v h' :: actText C σ (os ++ [v]) (rs ++ [.none]) h'
      | (.error x, h') => sightExc x :: actText C σ os (rs ++ [.none]) h'

/-! ### The model: objects without a memory -/

def Answer.sight : Answer → Sight
  | .nothing => .nothing
  | .bytes b => .bytes b
  | .text t => .text t
  | .truth b => .truth b
  | .raised e => .raised e

/-- The bytes of the answer, for later steps. -/
def Answer.result : Answer → Option Bytes
  | .bytes b => some b
  | _ => none

/-- The steps, with the objects made so far and the results so far. `h0` is the memory before the program, from which
the given arguments come; a loop makes fewer than `L` turns. -/
def actModel (L : Nat) (h0 : Heap) : List Act → List Thing → List (Option Bytes) → List Sight
  | [], _, _ => []
  | .make mk :: σ, ts, ms =>
    if (mk.map (·.py h0 ms)).beyond then [.beyond] else
    match (mk.map (·.py h0 ms)).model with
    | .ok t => .object :: actModel L h0 σ (ts ++ [t]) (ms ++ [none])
    | .error e => .raised e :: actModel L h0 σ ts (ms ++ [none])
  | .use i m :: σ, ts, ms =>
    match ts[i]? with
    | none => .nothing :: actModel L h0 σ ts (ms ++ [none])
    | some t =>
      if t.beyond L (m.map (·.py h0 ms)) then [.beyond] else
      match t.use L (m.map (·.py h0 ms)) with
      | some (t', a) => a.sight :: actModel L h0 σ (ts.set i t') (ms ++ [a.result])
      | none => .refused :: actModel L h0 σ ts (ms ++ [none])
  | .copy i :: σ, ts, ms =>
    match ts[i]? with
    | none => .nothing :: actModel L h0 σ ts (ms ++ [none])
    | some t =>
      match t.copy with
      | some t' => .object :: actModel L h0 σ (ts ++ [t']) (ms ++ [none])
      | none => .refused :: actModel L h0 σ ts (ms ++ [none])

/-- Arguments which exist; a generator has a seed of at most 64 bytes, and its outputs have fewer blocks than the turns
`L` which a loop is followed; a signature object has a positive modulus of at most 512 bits, and `n` is enough for its
nested calls. -/
def Act.Fits (L n : Nat) (h0 : Heap) : Act → Prop
  | .make mk => (∀ a ∈ mk.args, a.Known h0) ∧ mk.Small L n
  | .use _ m => ∀ a ∈ m.args, a.Known h0
  | .copy _ => True

/-! ### The proof -/

theorem Meth.map_args {α β : Type} (f : α → β) (m : Meth α) : (m.map f).args = m.args.map f := by
  cases m <;> rfl

theorem Make.map_args {α β : Type} (f : α → β) (m : Make α) : (m.map f).args = m.args.map f := by
  cases m with
  | cipher _ _ _ _ iv data => cases iv <;> cases data <;> rfl
  | hash _ data => cases data <;> rfl
  | hmac _ _ data => cases data <;> rfl
  | pbkdf => rfl
  | rand => rfl
  | sig => rfl

theorem Meth.map_map {α β γ : Type} (f : α → β) (g : β → γ) (k : α → γ) (m : Meth α) (e : ∀ a ∈ m.args, g (f a) = k a) :
    (m.map f).map g = m.map k := by
  cases m <;> simp_all [Meth.map, Meth.args]

theorem Make.map_map {α β γ : Type} (f : α → β) (g : β → γ) (k : α → γ) (m : Make α) (e : ∀ a ∈ m.args, g (f a) = k a) :
    (m.map f).map g = m.map k := by
  cases m with
  | cipher _ _ _ _ iv data => cases iv <;> cases data <;> simp_all [Make.map, Make.args]
  | hash _ data => cases data <;> simp_all [Make.map, Make.args]
  | hmac _ _ data => cases data <;> simp_all [Make.map, Make.args]
  | pbkdf => simp_all [Make.map, Make.args]
  | rand => simp_all [Make.map, Make.args]
  | sig => rfl

section
variable {h0 h : Heap} {ps : List (Nat × List Nat)}

theorem kwGiven_mem {l : List (String × Option Val)} {p : String × Val} (hp : p ∈ kwGiven l) : ∃ x, (x, some p.2) ∈ l := by
  induction l with
  | nil => cases hp
  | cons q l ih =>
    obtain ⟨x, v⟩ := q
    cases v with
    | none =>
      obtain ⟨y, hy⟩ := ih hp
      exact ⟨y, by simp [hy]⟩
    | some v =>
      rcases List.mem_cons.1 hp with rfl | hp
      · exact ⟨x, by simp⟩
      · obtain ⟨y, hy⟩ := ih hp
        exact ⟨y, by simp [hy]⟩

theorem loose_kw {l : List (String × Option Val)} (hl : ∀ x v, (x, some v) ∈ l → Loose h ps v) :
    Loose h ps (.dict (kwGiven l)) :=
  loose_dict fun p hp => by
    obtain ⟨x, hx⟩ := kwGiven_mem hp
    exact hl x p.2 hx

theorem Make.loose {mk : Make Val} (hm : ∀ v ∈ mk.args, Loose h ps v) : ∀ v ∈ mk.text.2, Loose h ps v := by
  intro v hv
  cases mk with
  | cipher alg key mode pad iv data =>
    simp only [Make.text, List.mem_cons, List.not_mem_nil, or_false] at hv
    rcases hv with rfl | rfl | rfl | rfl
    · exact loose_plain rfl
    · exact hm _ (by simp [Make.args])
    · exact loose_plain rfl
    · refine loose_kw fun x v hx => ?_
      simp only [List.mem_cons, Prod.mk.injEq, List.not_mem_nil, or_false] at hx
      rcases hx with ⟨-, e⟩ | ⟨-, e⟩ | ⟨-, e⟩
      · cases pad <;> cases e
        exact loose_plain rfl
      · exact hm v (by simp [Make.args, ← e])
      · exact hm v (by simp [Make.args, ← e])
  | hash name data =>
    simp only [Make.text, List.mem_cons, List.not_mem_nil, or_false] at hv
    rcases hv with rfl | rfl
    · exact loose_plain rfl
    · refine loose_kw fun x v hx => ?_
      simp only [List.mem_cons, Prod.mk.injEq, List.not_mem_nil, or_false] at hx
      exact hm v (by simp [Make.args, ← hx.2])
  | hmac name key data =>
    simp only [Make.text, List.mem_cons, List.not_mem_nil, or_false] at hv
    rcases hv with rfl | rfl | rfl
    · exact loose_plain rfl
    · exact hm _ (by simp [Make.args])
    · refine loose_kw fun x v hx => ?_
      simp only [List.mem_cons, Prod.mk.injEq, List.not_mem_nil, or_false] at hx
      exact hm v (by simp [Make.args, ← hx.2])
  | pbkdf pw salt it =>
    simp only [Make.text, List.mem_cons, List.not_mem_nil, or_false] at hv
    rcases hv with rfl | rfl
    · exact hm _ (by simp [Make.args])
    · refine loose_kw fun x v hx => ?_
      simp only [List.mem_cons, Prod.mk.injEq, List.not_mem_nil, or_false, Option.some.injEq] at hx
      rcases hx with ⟨-, rfl⟩ | ⟨-, rfl⟩
      · exact hm _ (by simp [Make.args])
      · exact loose_plain rfl
  | rand z seed sizeS =>
    simp only [Make.text, List.mem_cons, List.not_mem_nil, or_false] at hv
    rcases hv with rfl | rfl
    · exact loose_plain rfl
    · refine loose_kw fun x v hx => ?_
      simp only [List.mem_cons, Prod.mk.injEq, List.not_mem_nil, or_false, Option.some.injEq] at hx
      rcases hx with ⟨-, rfl⟩ | ⟨-, e⟩
      · exact hm _ (by simp [Make.args])
      · cases sizeS <;> cases e
        exact loose_plain rfl
  | sig mode c =>
    simp only [Make.text, List.mem_cons, List.not_mem_nil, or_false] at hv
    rcases hv with rfl | rfl
    · exact loose_plain rfl
    · refine loose_dict fun p hp => ?_
      obtain ⟨x, -, rfl⟩ := List.mem_map.1 hp
      exact loose_plain rfl

theorem Meth.loose {m : Meth Val} (hm : ∀ v ∈ m.args, Loose h ps v) : ∀ v ∈ m.text.2, Loose h ps v := by
  intro v hv
  cases m with
  | digest i =>
    cases i <;> simp [Meth.text] at hv
    subst hv; exact loose_plain rfl
  | hexdigest i =>
    cases i <;> simp [Meth.text] at hv
    subst hv; exact loose_plain rfl
  | derive i => simp [Meth.text] at hv; subst hv; exact loose_plain rfl
  | hexderive i => simp [Meth.text] at hv; subst hv; exact loose_plain rfl
  | reset => simp [Meth.text] at hv
  | clear => simp [Meth.text] at hv
  | random => simp [Meth.text] at hv
  | macFinal => simp [Meth.text] at hv
  | hashFinal => simp [Meth.text] at hv
  | getHash => simp [Meth.text] at hv
  | _ => exact hm v hv

/-- A copy of an object, or another new object which a method returns. -/
theorem HoldsAll.copied {L n : Nat} {cs : List Thing} {rs : List Val} {ms : List (Option Bytes)}
    (H : HoldsAll (IsThing L n) h0 h ps cs rs ms)
    (cl : Closed h0) {i : Nat} {p : Nat × List Nat} (hp : ps[i]? = some p) {c : Thing} (hc : cs[i]? = some c) {k : Nat}
    {m : String} {v : Val} {h' : Heap} (e : callMeth (ctx L k) (.ref p.1) m [] h = ok v h') :
    Sound h' [v] ∧ ∀ (j : Nat) (q : Nat × List Nat), j ≠ i → ps[j]? = some q → ∀ x ∈ q.2, ¬ Reach h' [v] x := by
  obtain ⟨cls, l, g⟩ := isThing_depends.inst (H.obj i p c hp hc)
  have z := H.source cl
  have w : Sound h (.ref 0 :: [.ref p.1]) := sound_cons z.sound (H.own i p hp).2
  obtain ⟨F, S⟩ := fresh_meth_ok L k m g w e
  have sub : ∀ r, Reach h' [v] r → Reach h' (v :: .ref 0 :: [.ref p.1]) r := fun r c =>
    reach_mono (fun s hs => .arg (by rw [refsList_single] at hs; rw [Val.refsList, List.mem_append]; exact .inl hs)) c
  refine ⟨fun r c => S r (sub r c), fun j q hj hq x hx c => ?_⟩
  rcases F x (sub x c) with c | c
  · rcases reach_cons c with c | c
    · exact z.out j q hq x hx c
    · exact H.apart j i q p hj hq hp x hx c
  · have := ((H.own j q hq).1 x hx).2
    omega

theorem act_ok (L n : Nat) (cl : Closed h0) (σ : List Act) (hσ : ∀ s ∈ σ, s.Fits L n h0) :
    ∀ {h : Heap} {ps : List (Nat × List Nat)} {ts : List Thing} {rs : List Val} {ms : List (Option Bytes)},
      HoldsAll (IsThing L n) h0 h ps ts rs ms →
      Sight.beyond ∉ actModel L h0 σ ts ms →
      actText (ctx L (n + 11)) σ (ps.map fun p => .ref p.1) rs h = actModel L h0 σ ts ms := by
  induction σ with
  | nil => intros; rfl
  | cons s σ ih =>
    intro h ps ts rs ms H
    have ih := @ih fun s hs => hσ s (List.mem_cons_of_mem _ hs)
    have fit := hσ s List.mem_cons_self
    have find : ∀ i : Nat, (ts[i]? = none ∧ ps[i]? = none) ∨ ∃ p t, ts[i]? = some t ∧ ps[i]? = some p := by
      intro i
      by_cases hi : i < ts.length
      · exact .inr ⟨_, _, List.getElem?_eq_getElem hi, List.getElem?_eq_getElem (H.size ▸ hi)⟩
      · exact .inl ⟨List.getElem?_eq_none_iff.2 (by omega), List.getElem?_eq_none_iff.2 (by have := H.size; omega)⟩
    have skip : HoldsAll (IsThing L n) h0 h ps ts (rs ++ [.none]) (ms ++ [none]) := H.ext isThing_depends (.refl h)
    cases s with
    | make mk =>
      obtain ⟨hk, hz⟩ := fit
      have lo : ∀ v ∈ (mk.map (·.val rs)).args, Loose h ps v := by
        intro v hv
        rw [Make.map_args] at hv
        obtain ⟨a, ha, rfl⟩ := List.mem_map.1 hv
        exact (H.arg cl (hk a ha)).1
      have hz : (mk.map (·.val rs)).Small L n := by cases mk <;> exact hz
      have N := make_ok (h := h) L n (mk.map (·.val rs)) (fun v hv => (lo v hv).known)
      rw [Make.map_map (·.val rs) (pyVal · h) (·.py h0 ms) mk fun a ha => (H.arg cl (hk a ha)).2] at N
      simp only [actText, actModel, ctx_call]
      by_cases ha : (mk.map (·.py h0 ms)).beyond = true
      · rw [if_pos ha]
        exact fun hn => (hn (by simp)).elim
      rw [if_neg ha]
      have N := N (by simpa using ha) hz
      generalize (mk.map (·.py h0 ms)).model = R at N ⊢
      cases R with
      | error x =>
        obtain ⟨h', f, x⟩ := N
        rw [f]
        simp only [fail, sightExc, excOf_exc]
        exact fun hn => congrArg _ (ih (H.ext isThing_depends x) fun q => hn (List.mem_cons_of_mem _ q))
      | ok t =>
        obtain ⟨me, P, h', f, x, h2, r⟩ := N
        obtain ⟨S, O⟩ := H.called cl (Make.loose lo) f
        have hb : bytesOf (.ref me) h' = none := by
          obtain ⟨cls, l, g⟩ := isThing_depends.inst r
          simp only [bytesOf, g]
        rw [f]
        simp only [ok, sight, hb]
        refine fun hn => congrArg _ ?_
        have := ih (H.make isThing_depends x r h2 S O) fun q => hn (List.mem_cons_of_mem _ q)
        rw [List.map_append] at this
        exact this
    | use i m =>
      rcases find i with ⟨e1, e2⟩ | ⟨p, t, e1, e2⟩
      · simp only [actText, actModel, e1, List.getElem?_map, e2, Option.map_none]
        exact fun hn => congrArg _ (ih skip fun q => hn (List.mem_cons_of_mem _ q))
      · have r := H.obj i p t e2 e1
        have lo : ∀ v ∈ (m.map (·.val rs)).args, Loose h ps v := by
          intro v hv
          rw [Meth.map_args] at hv
          obtain ⟨a, ha, rfl⟩ := List.mem_map.1 hv
          exact (H.arg cl (fit a ha)).1
        have N := use_ok L n r (m.map (·.val rs)) fun v hv => ⟨(lo v hv).known, fun q hq e =>
          (lo v hv).out i p e2 q hq (by rw [e]; exact reach_me)⟩
        rw [Meth.map_map (·.val rs) (pyVal · h) (·.py h0 ms) m fun a ha => (H.arg cl (fit a ha)).2] at N
        have lt := Meth.loose lo
        simp only [actText, actModel, e1, List.getElem?_map, e2, Option.map_some]
        by_cases ha : t.beyond L (m.map (·.py h0 ms)) = true
        · rw [if_pos ha]
          exact fun hn => (hn (by simp)).elim
        rw [if_neg ha]
        have N := N (by simpa using ha)
        generalize (m.map (·.val rs)).text = T at N lt ⊢
        obtain ⟨T1, T2⟩ := T
        generalize t.use L (m.map (·.py h0 ms)) = R at N ⊢
        cases R with
        | none =>
          obtain ⟨x, f, e⟩ := N
          simp only at f
          rw [f]
          simp only [fail, sightExc, e]
          exact fun hn => congrArg _ (ih skip fun q => hn (List.mem_cons_of_mem _ q))
        | some R =>
          obtain ⟨t', a⟩ := R
          cases a with
          | nothing =>
            obtain ⟨h', f, k, r'⟩ := N
            simp only at f
            rw [f]
            simp only [ok, sight, bytesOf, Answer.sight, Answer.result]
            exact fun hn => congrArg _ (ih (H.step isThing_depends cl e2 lt e1 (by rw [f]; rfl) k r' (.inl ⟨rfl, rfl, rfl⟩)) fun q => hn (List.mem_cons_of_mem _ q))
          | bytes b =>
            obtain ⟨v, h', f, k, hv, hb, r'⟩ := N
            simp only at f
            rw [f]
            simp only [ok, sight, hb, Answer.sight, Answer.result]
            exact fun hn => congrArg _ (ih (H.step isThing_depends cl e2 lt e1 (by rw [f]; rfl) k r'
              (.inr ⟨b, v, rfl, rfl, Streebog.get_of_bytes hb, hv⟩)) fun q => hn (List.mem_cons_of_mem _ q))
          | text u =>
            obtain ⟨h', f, k, r'⟩ := N
            simp only at f
            rw [f]
            simp only [ok, sight, bytesOf, Answer.sight, Answer.result, String.toList_ofList]
            exact fun hn => congrArg _ (ih (H.step isThing_depends cl e2 lt e1 (by rw [f]; rfl) k r' (.inl ⟨rfl, rfl, rfl⟩)) fun q => hn (List.mem_cons_of_mem _ q))
          | truth u =>
            obtain ⟨h', f, k, r'⟩ := N
            simp only at f
            rw [f]
            simp only [ok, sight, bytesOf, Answer.sight, Answer.result]
            exact fun hn => congrArg _ (ih (H.step isThing_depends cl e2 lt e1 (by rw [f]; rfl) k r' (.inl ⟨rfl, rfl, rfl⟩)) fun q => hn (List.mem_cons_of_mem _ q))
          | raised e =>
            obtain ⟨h', f, k, r'⟩ := N
            simp only at f
            rw [f]
            simp only [fail, sightExc, excOf_exc, Answer.sight, Answer.result]
            exact fun hn => congrArg _ (ih (H.step isThing_depends cl e2 lt e1 (by rw [f]; rfl) k r' (.inl ⟨rfl, rfl, rfl⟩)) fun q => hn (List.mem_cons_of_mem _ q))
    | copy i =>
      rcases find i with ⟨e1, e2⟩ | ⟨p, t, e1, e2⟩
      · simp only [actText, actModel, e1, List.getElem?_map, e2, Option.map_none]
        exact fun hn => congrArg _ (ih skip fun q => hn (List.mem_cons_of_mem _ q))
      · have r := H.obj i p t e2 e1
        have N := copy_ok L n r
        simp only [actText, actModel, e1, List.getElem?_map, e2, Option.map_some]
        generalize t.copy = R at N ⊢
        cases R with
        | none =>
          obtain ⟨x, f, e⟩ := N
          rw [f]
          simp only [fail, sightExc, e]
          exact fun hn => congrArg _ (ih skip fun q => hn (List.mem_cons_of_mem _ q))
        | some t' =>
          obtain ⟨me, P, h', f, x, h2, r', own⟩ := N
          obtain ⟨S, O⟩ := H.copied cl e2 e1 f
          have hb : bytesOf (.ref me) h' = none := by
            obtain ⟨cls, l, g⟩ := isThing_depends.inst r'
            simp only [bytesOf, g]
          rw [f]
          simp only [ok, sight, hb]
          refine fun hn => congrArg _ ?_
          have := ih (H.make isThing_depends x r' h2 S fun j q hq y hy => by
            by_cases hj : j = i
            · subst hj
              rw [e2] at hq
              cases hq
              exact own y hy
            · exact O j q hj hq y hy) fun q => hn (List.mem_cons_of_mem _ q)
          rw [List.map_append] at this
          exact this

end

/-- C131: a program which makes any number of objects of any kind - ciphers of all modes, MAC, hash functions, HMAC, key
derivation, generators, signatures -, copies them and calls their methods in any order, with arguments which existed before or are
results of its own earlier calls (as data, keys, vectors, passwords, salts, seeds, digests, random numbers and
signatures). No call asks the system for random bytes, and no loop of a signature object makes more than `L` turns. What it shows is what objects show which have nothing in common: no object is changed by a call of another
one or of its copy, and no result is changed later. -/
theorem C131_program (L n : Nat) (h0 : Heap) (cl : Closed h0) (σ : List Act) (hσ : ∀ s ∈ σ, s.Fits L n h0)
    (hn : Sight.beyond ∉ actModel L h0 σ [] []) :
    actText (ctx L (n + 11)) σ [] [] h0 = actModel L h0 σ [] [] :=
  act_ok L n cl σ hσ (ps := []) ⟨Nat.le_refl _, fun _ _ => rfl, rfl, by simp, by simp, by simp, rfl, by simp⟩ hn

end Gost.Src
