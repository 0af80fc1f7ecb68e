import Verif.SourceProofs.Several

/-! C130: programs which use several cipher objects and pass the results of one to another, as they are written. -/

namespace Gost.Src
open Spec ModesSrc

/-- A step of a program: `o_i = gostcipher.new(alg, key, mode, pad_mode=…, init_vect=…)`, where `i` is the number of the
objects made before, `o_i.encrypt(a)`, `o_i.decrypt(a)` and `o_i.clear()`. An exception is caught, a call of an object
which was not made is left out. -/
inductive Step where
  | make (alg : String) (key : Arg) (mode : Int) (pad : Option Int) (iv : Option Arg)
  | encrypt (i : Nat) (a : Arg)
  | decrypt (i : Nat) (a : Arg)
  | clear (i : Nat)

/-- What a step is seen to do. -/
inductive Shown where
  | object
  | nothing
  | bytes (b : Bytes)
  | raised (e : Err)
  | odd
deriving DecidableEq

/-! ### The package as it is written -/

/-- The keyword arguments. -/
def kwOf (pad : Option Int) (iv : Option Val) : List (String × Val) :=
  (match pad with | some p => [("pad_mode", Val.int p)] | none => []) ++
  (match iv with | some v => [("init_vect", v)] | none => [])

def shown (v : Val) (h : Heap) : Shown :=
  match bytesOf v h, v with
  | some b, _ => .bytes b
  | none, .none => .nothing
  | none, .ref _ => .object
  | none, _ => .odd

def shownExc (x : Exc) : Shown :=
  match excOf x with
  | some e => .raised e
  | none => .odd

/-- The call of a method. -/
def useText (C : Ctx) (m : String) (o : Val) (args : List Val) (h : Heap) : Shown × Val × Heap :=
  match callMeth C o m args h with
  | (.ok v, h') => (shown v h', v, h')
  | (.error x, h') => (shownExc x, .none, h')

/-- The steps, with the objects made so far, the results so far and the memory. -/
def runText (C : Ctx) : List Step → List Val → List Val → Heap → List Shown
  | [], _, _, _ => []
  | .make alg key mode pad iv :: σ, os, rs, h =>
    match C.call "Modes.new" [.str alg, key.val rs, .int mode, .dict (kwOf pad (iv.map (·.val rs)))] h with
    | (.ok v, h') => shown v h' :: runText C σ (os ++ [v]) (rs ++ [.none]) h'
    | (.error x, h') => shownExc x :: runText C σ os (rs ++ [.none]) h'
  | .encrypt i a :: σ, os, rs, h =>
    match os[i]? with
    | none => .nothing :: runText C σ os (rs ++ [.none]) h
    | some o =>
      (useText C "encrypt" o [a.val rs] h).1 ::
        runText C σ os (rs ++ [(useText C "encrypt" o [a.val rs] h).2.1]) (useText C "encrypt" o [a.val rs] h).2.2
  | .decrypt i a :: σ, os, rs, h =>
    match os[i]? with
    | none => .nothing :: runText C σ os (rs ++ [.none]) h
    | some o =>
      (useText C "decrypt" o [a.val rs] h).1 ::
        runText C σ os (rs ++ [(useText C "decrypt" o [a.val rs] h).2.1]) (useText C "decrypt" o [a.val rs] h).2.2
  | .clear i :: σ, os, rs, h =>
    match os[i]? with
    | none => .nothing :: runText C σ os (rs ++ [.none]) h
    | some o =>
      (useText C "clear" o [] h).1 ::
        runText C σ os (rs ++ [(useText C "clear" o [] h).2.1]) (useText C "clear" o [] h).2.2

/-! ### The model: objects without a memory -/

def shownRes : Res Bytes → Shown
  | .ok b => .bytes b
  | .error e => .raised e

def keptRes : Res Bytes → Option Bytes
  | .ok b => some b
  | .error _ => none

/-- The steps, with the objects made so far and the results so far. `h0` is the memory before the program, from which
the given arguments come. -/
def runModel (h0 : Heap) : List Step → List Cipher → List (Option Bytes) → List Shown
  | [], _, _ => []
  | .make alg key mode pad iv :: σ, cs, ms =>
    match newCipher alg (key.py h0 ms) mode pad (iv.map (·.py h0 ms)) none with
    | .ok c => .object :: runModel h0 σ (cs ++ [c]) (ms ++ [none])
    | .error e => .raised e :: runModel h0 σ cs (ms ++ [none])
  | .encrypt i a :: σ, cs, ms =>
    match cs[i]? with
    | none => .nothing :: runModel h0 σ cs (ms ++ [none])
    | some c =>
      shownRes (encryptOf c (a.py h0 ms)).2 ::
        runModel h0 σ (cs.set i (encryptOf c (a.py h0 ms)).1) (ms ++ [keptRes (encryptOf c (a.py h0 ms)).2])
  | .decrypt i a :: σ, cs, ms =>
    match cs[i]? with
    | none => .nothing :: runModel h0 σ cs (ms ++ [none])
    | some c =>
      shownRes (decryptOf c (a.py h0 ms)).2 ::
        runModel h0 σ (cs.set i (decryptOf c (a.py h0 ms)).1) (ms ++ [keptRes (decryptOf c (a.py h0 ms)).2])
  | .clear i :: σ, cs, ms =>
    match cs[i]? with
    | none => .nothing :: runModel h0 σ cs (ms ++ [none])
    | some c => .nothing :: runModel h0 σ (cs.set i c.clear) (ms ++ [none])

/-- No object of the MAC mode, which has other methods; arguments which exist. -/
def Step.Fits (h0 : Heap) : Step → Prop
  | .make _ key mode _ iv => key.Known h0 ∧ mode ≠ modeMac ∧ ∀ a, iv = some a → a.Known h0
  | .encrypt _ a | .decrypt _ a => a.Known h0
  | .clear _ => True

/-! ### The proof -/

/-- The cell `me` is the object `c` of one of the five modes. -/
def IsMode (c : Cipher) (me : Nat) (P : List Nat) (h : Heap) : Prop := Enciphers c ∧ IsCipher c me P h

theorem isMode_depends : Depends IsMode :=
  ⟨fun a k => ⟨a.1, (a.2.kept k).1⟩, fun a => a.2.reaches, fun a => a.2.inst⟩

section
variable {h0 h : Heap}

/-- The keyword arguments, as the model sees them. -/
theorem kwOf_args {pad : Option Int} {iv : Option Val} (k : ∀ v, iv = some v → ModesSrc.Known v h) :
    KwArgs (kwOf pad iv) h pad (iv.map (pyVal · h)) none := by
  cases pad <;> cases iv <;> refine ⟨rfl, rfl, rfl, fun x w hw => ?_⟩
  · cases hw
  all_goals simp only [kwOf, List.nil_append, List.cons_append, List.append_nil, findAttr] at hw
  · split at hw <;> cases hw
    exact k _ rfl
  · split at hw <;> cases hw
    exact fun r e => by cases e
  · split at hw
    · cases hw
      exact fun r e => by cases e
    · split at hw <;> cases hw
      exact k _ rfl

theorem kwOf_mem {pad : Option Int} {iv : Option Val} {p : String × Val} (hp : p ∈ kwOf pad iv) :
    p.2.refs = [] ∨ ∃ v, iv = some v ∧ p.2 = v := by
  cases pad <;> cases iv <;> simp only [kwOf, List.nil_append, List.append_nil, List.cons_append, List.mem_cons,
    List.not_mem_nil, or_false] at hp
  · subst hp; exact .inr ⟨_, rfl, rfl⟩
  · subst hp; exact .inl rfl
  · rcases hp with rfl | rfl
    · exact .inl rfl
    · exact .inr ⟨_, rfl, rfl⟩

theorem newCipher_enciphers {alg : String} {k : PyVal} {mode : Int} {pad : Option Int} {iv dat : Option PyVal}
    {c : Cipher} (hm : mode ≠ modeMac) (e : newCipher alg k mode pad iv dat = .ok c) : Enciphers c := by
  cases c with
  | mac s =>
    exfalso
    have bind : ∀ {α : Type} {r : Res α} {f : α → Cipher}, (∀ a, f a ≠ .mac s) →
        (r >>= fun a => pure (f a)) ≠ .ok (.mac s) := by
      intro α r f hf e
      cases r with
      | error x => cases e
      | ok a => exact hf a (Except.ok.inj e)
    unfold newCipher at e
    rw [if_neg hm] at e
    split at e
    · exact bind (by simp) e
    split at e
    · exact bind (by simp) e
    split at e
    · exact bind (by simp) e
    split at e
    · exact bind (by simp) e
    split at e
    · exact bind (by simp) e
    cases e
  | _ => trivial

/-- The steps of a program, from any state of the objects. -/
theorem run_ok (L n : Nat) (cl : Closed h0) (σ : List Step) (hσ : ∀ s ∈ σ, s.Fits h0) :
    ∀ {h : Heap} {ps : List (Nat × List Nat)} {cs : List Cipher} {rs : List Val} {ms : List (Option Bytes)},
      HoldsAll IsMode h0 h ps cs rs ms →
      runText (ctx L (n + 9)) σ (ps.map fun p => .ref p.1) rs h = runModel h0 σ cs ms := by
  induction σ with
  | nil => intros; rfl
  | cons s σ ih =>
    intro h ps cs rs ms H
    have ih := @ih fun s hs => hσ s (List.mem_cons_of_mem _ hs)
    have fit := hσ s List.mem_cons_self
    have find : ∀ i : Nat, (cs[i]? = none ∧ ps[i]? = none) ∨ ∃ p c, cs[i]? = some c ∧ ps[i]? = some p := by
      intro i
      by_cases hi : i < cs.length
      · exact .inr ⟨_, _, List.getElem?_eq_getElem hi, List.getElem?_eq_getElem (H.size ▸ hi)⟩
      · exact .inl ⟨List.getElem?_eq_none_iff.2 (by omega), List.getElem?_eq_none_iff.2 (by have := H.size; omega)⟩
    have meth : ∀ (m : String) (f : Cipher → PyVal → Cipher × Res Bytes) (i : Nat) (a : Arg) (p : Nat × List Nat)
        (c : Cipher), a.Known h0 → cs[i]? = some c → ps[i]? = some p →
        (∀ v, ModesSrc.Known v h → (∀ q ∈ p.2, v ≠ .ref q) →
          Method (callMeth (ctx L (n + 9)) (.ref p.1) m [v] h) h p.2 (fun c h => IsCipher c p.1 p.2 h) (f c (pyVal v h))) →
        (∀ v, Enciphers (f c v).1) →
        (useText (ctx L (n + 9)) m (.ref p.1) [a.val rs] h).1 ::
          runText (ctx L (n + 9)) σ (ps.map fun p => .ref p.1)
            (rs ++ [(useText (ctx L (n + 9)) m (.ref p.1) [a.val rs] h).2.1])
            (useText (ctx L (n + 9)) m (.ref p.1) [a.val rs] h).2.2 =
        shownRes (f c (a.py h0 ms)).2 ::
          runModel h0 σ (cs.set i (f c (a.py h0 ms)).1) (ms ++ [keptRes (f c (a.py h0 ms)).2]) := by
      intro m f i a p c ha hc hp hm he
      obtain ⟨lo, py⟩ := H.arg cl ha
      have M := hm (a.val rs) lo.known fun q hq e =>
        lo.out i p hp q hq (by rw [e]; exact reach_me)
      rw [py] at M
      have he := he (a.py h0 ms)
      generalize f c (a.py h0 ms) = R at M he
      obtain ⟨c', R⟩ := R
      have ha : ∀ v ∈ [a.val rs], Loose h ps v := by simpa using lo
      cases R with
      | ok b =>
        obtain ⟨v, h', e, k, hv, hb, r⟩ := M
        have hb' : h'[v]? = some (.bytearray b) := Streebog.get_of_bytes hb
        simp only [useText, e, ok, shown, hb, shownRes, keptRes]
        exact congrArg _ (ih (H.step isMode_depends cl hp ha hc (by rw [e]; rfl) k ⟨he, r⟩ (.inr ⟨b, v, rfl, rfl, hb', hv⟩)))
      | error x =>
        obtain ⟨h', e, k, r⟩ := M
        simp only [useText, e, fail, shownExc, excOf_exc, shownRes, keptRes]
        exact congrArg _ (ih (H.step isMode_depends cl hp ha hc (by rw [e]; rfl) k ⟨he, r⟩ (.inl ⟨rfl, rfl, rfl⟩)))
    have skip : HoldsAll IsMode h0 h ps cs (rs ++ [.none]) (ms ++ [none]) := H.ext isMode_depends (.refl h)
    cases s with
    | make alg key mode pad iv =>
      obtain ⟨hk, hm, hi⟩ := fit
      obtain ⟨lo, py⟩ := H.arg cl hk
      have kw : ∀ v, iv.map (·.val rs) = some v → Loose h ps v := by
        intro v e
        cases iv with
        | none => cases e
        | some a => cases e; exact (H.arg cl (hi a rfl)).1
      have pyi : (iv.map (·.val rs)).map (pyVal · h) = iv.map (·.py h0 ms) := by
        cases iv with
        | none => rfl
        | some a => exact congrArg some (H.arg cl (hi a rfl)).2
      have N := C101_new L (n + 1) h alg (key.val rs) lo.known mode _ pad _ none (kwOf_args (pad := pad) fun v e => (kw v e).known)
      rw [py, pyi] at N
      simp only [runText, runModel, ctx_call]
      cases e : newCipher alg (key.py h0 ms) mode pad (iv.map (·.py h0 ms)) none with
      | error x =>
        rw [e] at N
        obtain ⟨h', f, x⟩ := N
        rw [f]
        simp only [fail, shownExc, excOf_exc]
        exact congrArg _ (ih (H.ext isMode_depends x))
      | ok c =>
        rw [e] at N
        obtain ⟨me, P, h', f, x, h1, h2, r⟩ := N
        obtain ⟨S, O⟩ := H.called cl (fun v hv => by
          simp only [List.mem_cons, List.not_mem_nil, or_false] at hv
          rcases hv with rfl | rfl | rfl | rfl
          · exact loose_plain rfl
          · exact lo
          · exact loose_plain rfl
          · refine loose_dict fun q hq => ?_
            rcases kwOf_mem hq with e | ⟨v, e, rfl⟩
            · exact loose_plain e
            · exact kw _ e) f
        have hb : bytesOf (.ref me) h' = none := by
          obtain ⟨cls, l, g⟩ := r.inst
          simp only [bytesOf, g]
        rw [f]
        simp only [ok, shown, hb]
        refine congrArg _ ?_
        have := ih (H.make isMode_depends x ⟨newCipher_enciphers hm e, r⟩ h2 S O)
        rw [List.map_append] at this
        exact this
    | encrypt i a =>
      rcases find i with ⟨e1, e2⟩ | ⟨p, c, e1, e2⟩
      · simp only [runText, runModel, e1, List.getElem?_map, e2, Option.map_none]
        exact congrArg _ (ih skip)
      · obtain ⟨hc, r⟩ := H.obj i p c e2 e1
        simp only [runText, runModel, e1, List.getElem?_map, e2, Option.map_some]
        exact meth "encrypt" encryptOf i a p c fit e1 e2 (fun v hv hP => (C101_methods L n h c hc p.1 p.2 r v hv hP).1)
          (enciphers_encrypt hc)
    | decrypt i a =>
      rcases find i with ⟨e1, e2⟩ | ⟨p, c, e1, e2⟩
      · simp only [runText, runModel, e1, List.getElem?_map, e2, Option.map_none]
        exact congrArg _ (ih skip)
      · obtain ⟨hc, r⟩ := H.obj i p c e2 e1
        simp only [runText, runModel, e1, List.getElem?_map, e2, Option.map_some]
        exact meth "decrypt" decryptOf i a p c fit e1 e2 (fun v hv hP => (C101_methods L n h c hc p.1 p.2 r v hv hP).2)
          (enciphers_decrypt hc)
    | clear i =>
      rcases find i with ⟨e1, e2⟩ | ⟨p, c, e1, e2⟩
      · simp only [runText, runModel, e1, List.getElem?_map, e2, Option.map_none]
        exact congrArg _ (ih skip)
      · obtain ⟨hc, r⟩ := H.obj i p c e2 e1
        obtain ⟨h', f, k, r'⟩ := C101_clear L n h c p.1 p.2 r
        simp only [runText, runModel, e1, List.getElem?_map, e2, Option.map_some, useText, f, ok, shown, bytesOf]
        exact congrArg _ (ih (H.step isMode_depends cl e2 (args := []) (by simp) e1 (by rw [f]; rfl) k ⟨enciphers_clear hc, r'⟩
          (.inl ⟨rfl, rfl, rfl⟩)))

end

/-- C130: a program which makes any number of cipher objects of the modes ECB, CBC, CFB, OFB and CTR, and calls their
methods in any order, with arguments which existed before or are results of its own earlier calls, also as keys and
vectors of new objects. What it shows is what objects show which have nothing in common: no object is changed by a call
of another one, and no result is changed later. -/
theorem C130_program (L n : Nat) (h0 : Heap) (cl : Closed h0) (σ : List Step) (hσ : ∀ s ∈ σ, s.Fits h0) :
    runText (ctx L (n + 9)) σ [] [] h0 = runModel h0 σ [] [] :=
  run_ok L n cl σ hσ (ps := []) ⟨Nat.le_refl _, fun _ _ => rfl, rfl, by simp, by simp, by simp, rfl, by simp⟩

end Gost.Src
