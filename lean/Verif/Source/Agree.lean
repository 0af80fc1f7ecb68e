import Verif.Source.Lemmas

/-! Programs against functions of the model which may raise exceptions. -/

namespace Gost.Src

/-- The exceptions of the model. -/
def exc : Err → Exc
  | .cipherError m => .raised "GOSTCipherError" m
  | .hashError m => .raised "GOSTHashError" m
  | .hmacError m => .raised "GOSTHMACError" m
  | .pbkdfError m => .raised "GOSTPBKDFError" m
  | .randomError m => .raised "GOSTRandomError" m
  | .oidError m => .raised "GOSTOIDError" m
  | .signatureError m => .raised "GOSTSignatureError" m
  | .indexError => .index
  | .overflowError => .overflow
  | .valueError => .value
  | .zeroDivisionError => .zeroDiv

theorem ok_bind {α β : Type} (a : α) (f : α → Res β) : (Except.ok a >>= f) = f a := (rfl)

theorem error_bind {α β : Type} (e : Err) (f : α → Res β) :
    ((Except.error e : Res α) >>= f) = .error e := (rfl)

theorem pure_ok {α : Type} (a : α) : (pure a : Res α) = .ok a := (rfl)

/-- Run the model. -/
macro "mdl" "[" args:Lean.Parser.Tactic.simpLemma,* "]" : tactic =>
  `(tactic| simp only [ok_bind, error_bind, pure_ok, $args,*])

/-- The outcome `o` is the result `r` of the model: the values correspond by `I`, or the exceptions
are the same and the memory satisfies `E`. -/
def Agree {α β : Type} (o : Out α) (r : Res β) (I : β → α → Heap → Prop) (E : Heap → Prop) : Prop :=
  match r with
  | .ok s => ∃ a h', o = ok a h' ∧ I s a h'
  | .error e => ∃ h', o = fail (exc e) h' ∧ E h'

theorem Agree.mono {α β : Type} {o : Out α} {r : Res β} {I J : β → α → Heap → Prop}
    {E F : Heap → Prop} (a : Agree o r I E) (hI : ∀ s a h, r = .ok s → I s a h → J s a h)
    (hE : ∀ h, E h → F h) : Agree o r J F := by
  cases r with
  | ok s =>
    obtain ⟨x, h, e, i⟩ := a
    exact ⟨x, h, e, hI _ _ _ rfl i⟩
  | error e =>
    obtain ⟨h, e, i⟩ := a
    exact ⟨h, e, hE _ i⟩

/-- A new byte array, or an exception; what was in memory before is unchanged. -/
def Returns (o : Out Val) (h : Heap) (r : Res Bytes) : Prop :=
  match r with
  | .ok b => NewBytes o h b
  | .error e => ∃ l, o = fail (exc e) (h ++ l)

theorem NewBytes.elim {o : Out Val} {h : Heap} {b : Bytes} (n : NewBytes o h b) :
    ∃ r l, o = ok (.ref r) (h ++ l) ∧ h.length ≤ r ∧ bytesOf (.ref r) (h ++ l) = some b := by
  obtain ⟨r, h', e, ⟨l, rfl⟩, hr, hb⟩ := n
  exact ⟨r, l, e, hr, hb⟩

theorem NewBytes.intro {h h' : Heap} {r : Nat} {b : Bytes} (x : Ext h h') (hr : h.length ≤ r)
    (hb : bytesOf (.ref r) h' = some b) : NewBytes (ok (.ref r) h') h b :=
  ⟨r, h', rfl, x, hr, hb⟩

theorem Returns.cases {o : Out Val} {h : Heap} {r : Res Bytes} (n : Returns o h r) :
    (∃ b v l, r = .ok b ∧ o = ok (.ref v) (h ++ l) ∧ h.length ≤ v ∧
      bytesOf (.ref v) (h ++ l) = some b) ∨
    (∃ e l, r = .error e ∧ o = fail (exc e) (h ++ l)) := by
  cases r with
  | ok b =>
    obtain ⟨v, l, e, hr, hb⟩ := NewBytes.elim n
    exact Or.inl ⟨b, v, l, rfl, e, hr, hb⟩
  | error e =>
    obtain ⟨l, h1⟩ := n
    exact Or.inr ⟨e, l, rfl, h1⟩

/-- A loop against `foldlM` of the model. -/
theorem for_foldlM {σ κ : Type} (val : κ → Val) {x : String} {body : Env → Heap → Out Flow} {ks : List κ}
    {env : Env} {h : Heap} {o : Out Flow} (hl : forLoop x body (ks.map val) env h = o)
    (f : σ → κ → Res σ) (I : Nat → σ → Env → Heap → Prop) (E : Heap → Prop) {s : σ}
    (step : ∀ k a s env h, ks[k]? = some a → I k s env h →
      Agree (body (env.set x (val a)) h) (f s a)
        (fun s' fl h' => ∃ env', fl = .next env' ∧ I (k + 1) s' env' h') E)
    (start : I 0 s env h) :
    Agree o (ks.foldlM f s) (fun s' fl h' => ∃ env', fl = .next env' ∧ I ks.length s' env' h') E := by
  subst hl
  induction ks generalizing env h I s with
  | nil => exact ⟨_, _, rfl, _, rfl, start⟩
  | cons a ks ih =>
    have h1 := step 0 a s env h rfl start
    rw [List.foldlM_cons, List.map_cons, forLoop]
    cases e : f s a with
    | error e' =>
      rw [e] at h1
      obtain ⟨h', e1, i1⟩ := h1
      rw [e1]
      exact ⟨h', rfl, i1⟩
    | ok s' =>
      rw [e] at h1
      obtain ⟨_, h', e1, env', rfl, i1⟩ := h1
      rw [e1]
      exact ih (fun k => I (k + 1)) (fun k a s env h hk => step (k + 1) a s env h hk) i1

theorem mapM_foldlM {α β : Type} (g : α → Res β) (l : List α) : ∀ acc : List β,
    l.foldlM (fun acc x => do let y ← g x; pure (acc ++ [y])) acc = (do pure (acc ++ (← l.mapM g))) := by
  induction l with
  | nil => intro acc; simp
  | cons a l ih =>
    intro acc
    rw [List.foldlM_cons, List.mapM_cons]
    cases g a with
    | error e => rfl
    | ok y =>
      show List.foldlM _ (acc ++ [y]) l = _
      rw [ih]
      cases l.mapM g with
      | error e => rfl
      | ok ys => show Except.ok _ = Except.ok _; simp

theorem mapM_eq_foldlM {α β : Type} (g : α → Res β) (l : List α) :
    l.mapM g = l.foldlM (fun acc x => do let y ← g x; pure (acc ++ [y])) [] := by
  rw [mapM_foldlM]
  cases l.mapM g <;> rfl

/-- `v[i]` of a byte object, any index. -/
theorem getItem_pyGet {v : Val} {h : Heap} {b : Bytes} (e : bytesOf v h = some b) (i : Int) :
    getItem v (.int i) h =
      match pyGet b i with
      | .ok x => ok (.int x.toNat) h
      | .error _ => fail .index h := by
  simp only [getItem, elems_eq e, pyGet_map]
  cases pyGet b i <;> rfl

theorem getItem_ints (l : List Nat) (k : Nat) (h : Heap) :
    getItem (ints l) (.int k) h =
      match l[k]? with
      | some x => ok (.int (x : Nat)) h
      | none => fail .index h := by
  have h1 : ¬ ((k : Int) < 0) := by omega
  simp only [getItem, ints, elems, pyGet_map]
  simp only [pyGet, if_neg h1, Int.toNat_natCast]
  cases l[k]? <;> rfl

theorem getItem_tuple (l : List Val) (k : Nat) (h : Heap) :
    getItem (.tuple l) (.int k) h =
      match l[k]? with
      | some x => ok x h
      | none => fail .index h := by
  have h1 : ¬ ((k : Int) < 0) := by omega
  simp only [getItem, elems]
  simp only [pyGet, if_neg h1, Int.toNat_natCast]
  cases l[k]? <;> rfl

theorem pyGet_error {α : Type} {l : List α} {i : Int} {e : Err} (h : pyGet l i = .error e) :
    e = .indexError := by
  unfold pyGet at h
  simp only at h
  generalize (if i < 0 then i + (l.length : Int) else i) = j at h
  split at h
  · cases h; rfl
  · split at h
    · cases h
    · cases h; rfl

/-- `v[i]`, then `k`. -/
theorem getItem_cases {v : Val} {h : Heap} {b : Bytes} (e : bytesOf v h = some b) (i : Int) :
    (∃ x, pyGet b i = .ok x ∧ getItem v (.int i) h = ok (.int x.toNat) h) ∨
      (pyGet b i = .error .indexError ∧ getItem v (.int i) h = fail .index h) := by
  rw [getItem_pyGet e]
  cases h1 : pyGet b i with
  | ok x => exact Or.inl ⟨x, rfl, rfl⟩
  | error e => exact Or.inr ⟨by rw [pyGet_error h1], rfl⟩

/-- A byte array of `n` bytes which is filled from the left. -/
def partly (n : Nat) (acc : Bytes) : Bytes := acc ++ List.replicate (n - acc.length) 0

theorem partly_length {n : Nat} {acc : Bytes} (h : acc.length ≤ n) : (partly n acc).length = n := by
  simp [partly]
  omega

theorem partly_set {n : Nat} {acc : Bytes} (h : acc.length < n) (x : UInt8) :
    (partly n acc).set acc.length x = partly n (acc ++ [x]) := by
  unfold partly
  have e : n - acc.length = (n - (acc ++ [x]).length) + 1 := by simp; omega
  rw [e, List.replicate_succ]
  simp

theorem partly_full {n : Nat} {acc : Bytes} (h : acc.length = n) : partly n acc = acc := by
  simp [partly, h]

theorem setItem_partly {n : Nat} {acc : Bytes} (hn : acc.length < n) (x : UInt8) (h : Heap) :
    setItem (.ref h.length) (.int acc.length) (.int x.toNat) (h ++ [.bytearray (partly n acc)]) =
      ok () (h ++ [.bytearray (partly n (acc ++ [x]))]) := by
  rw [setItem_last, if_pos (by rw [partly_length (by omega)]; exact hn), partly_set hn]

theorem getItem_partly {n : Nat} {acc : Bytes} (x : UInt8) (h : Heap) :
    getItem (.ref h.length) (.int acc.length) (h ++ [.bytearray (partly n (acc ++ [x]))]) =
      ok (.int x.toNat) (h ++ [.bytearray (partly n (acc ++ [x]))]) := by
  rw [getItem_bytes (by rw [bytesOf_last]; rfl), bytesOf_last]
  simp [partly]

/-- `v[k] = x` on the newest byte array, any index. -/
theorem setItem_any (h : Heap) (b : Bytes) (i : Int) {k : Nat} (x : UInt8)
    (hk : position i b.length = some k) :
    setItem (.ref h.length) (.int i) (.int x.toNat) (h ++ [.bytearray b]) =
      ok () (h ++ [.bytearray (b.set k x)]) := by
  have h4 : (h ++ [Obj.bytearray b])[h.length]? = some (.bytearray b) := by simp
  have h3 : (0 : Int) ≤ x.toNat ∧ (x.toNat : Int) < 256 := by
    have := x.toNat_lt
    omega
  simp only [setItem, h4, hk, if_pos h3, Int.toNat_natCast, UInt8.ofNat_toNat]
  simp [ok]

/-- `for x in range(n): result[x] = g(x)`. -/
theorem fill_range {x : String} {body : Env → Heap → Out Flow} {n : Nat} {env : Env} {h : Heap}
    {o : Out Flow}
    (hl : forLoop x body (pyRange 0 n 1) env (h ++ [.bytearray (List.replicate n 0)]) = o)
    (g : Nat → Res UInt8) (I : Bytes → Env → Prop)
    (step : ∀ acc env, acc.length < n → I acc env →
      Agree (body (env.set x (.int acc.length)) (h ++ [.bytearray (partly n acc)])) (g acc.length)
        (fun y fl h' => ∃ env', fl = .next env' ∧ I (acc ++ [y]) env' ∧
          h' = h ++ [.bytearray (partly n (acc ++ [y]))]) (Ext h))
    (start : I [] env) :
    Agree o ((List.range n).mapM g) (fun r fl h' => ∃ env', fl = .next env' ∧ I r env' ∧ r.length = n ∧
      h' = h ++ [.bytearray r]) (Ext h) := by
  rw [pyRange_up] at hl
  have := for_foldlM (σ := Bytes) _ hl (fun acc i => do let y ← g i; pure (acc ++ [y]))
    (fun k acc env h' => I acc env ∧ acc.length = k ∧ h' = h ++ [.bytearray (partly n acc)])
    (Ext h) (s := [])
    (by
      rintro k i acc env _ hk ⟨i1, rfl, rfl⟩
      have hlt : acc.length < n := by
        rcases Nat.lt_or_ge acc.length n with h1 | h1
        · exact h1
        · rw [List.getElem?_eq_none (by simpa using h1)] at hk
          cases hk
      rw [List.getElem?_range hlt] at hk
      cases hk
      have := step acc env hlt i1
      cases hg : g acc.length with
      | error e =>
        rw [hg] at this
        exact this
      | ok y =>
        rw [hg] at this
        obtain ⟨_, _, e1, env', rfl, i2, rfl⟩ := this
        exact ⟨_, _, e1, env', rfl, i2, by simp, rfl⟩)
    ⟨start, rfl, by simp [partly]⟩
  rw [← mapM_eq_foldlM] at this
  refine this.mono ?_ fun h' a => a
  rintro r fl h' - ⟨env', rfl, i1, i2, rfl⟩
  rw [List.length_range] at i2
  exact ⟨env', rfl, i1, i2, by rw [partly_full i2]⟩

/-- `Returns` from `Agree`. -/
theorem Agree.returns {o : Out Val} {h : Heap} {r : Res Bytes} {I : Bytes → Val → Heap → Prop}
    {E : Heap → Prop} (a : Agree o r I E)
    (hI : ∀ b v h', r = .ok b → I b v h' → NewBytes (ok v h') h b) (hE : ∀ h', E h' → Ext h h') :
    Returns o h r := by
  cases r with
  | ok b =>
    obtain ⟨v, h', e, i⟩ := a
    subst e
    exact hI _ _ _ rfl i
  | error e =>
    obtain ⟨h', e, i⟩ := a
    subst e
    obtain ⟨l, rfl⟩ := hE _ i
    exact ⟨l, rfl⟩

/-! Objects. -/

theorem get_mono {h : Heap} {r : Nat} {o : Obj} (e : h[r]? = some o) (l : Heap) : (h ++ l)[r]? = some o := by
  have hr : r < h.length := by
    rcases Nat.lt_or_ge r h.length with hr | hr
    · exact hr
    · rw [List.getElem?_eq_none hr] at e
      cases e
  rw [List.getElem?_append_left hr, e]

theorem get_lt {h : Heap} {r : Nat} {o : Obj} (e : h[r]? = some o) : r < h.length := by
  rcases Nat.lt_or_ge r h.length with hr | hr
  · exact hr
  · rw [List.getElem?_eq_none hr] at e
    cases e

@[pysem] theorem get_append {h : Heap} {r : Nat} (l : Heap) (e : (h[r]?).isSome = true) :
    (h ++ l)[r]? = h[r]? := by
  obtain ⟨b, hb⟩ := Option.isSome_iff_exists.mp e
  rw [hb, get_mono hb]

@[pysem] theorem get_last (h : Heap) (o : Obj) : (h ++ [o])[h.length]? = some o := by simp

@[pysem] theorem getAttr_ref (C : Ctx) (r : Nat) (a : String) (h : Heap) :
    getAttr C (.ref r) a h =
      match h[r]? with
      | some (.inst c l) =>
        match C.property c a with
        | some f => C.call f [.ref r] h
        | none =>
          match findAttr a l with
          | some x => ok x h
          | none => fail .attribute h
      | _ => fail .stuck h := (rfl)

@[pysem] theorem callMeth_ref (C : Ctx) (r : Nat) (m : String) (args : List Val) (h : Heap) :
    callMeth C (.ref r) m args h =
      match h[r]? with
      | some (.inst c _) =>
        match C.method c m with
        | some (f, static) => C.call f (if static then args else .ref r :: args) h
        | none => fail .attribute h
      | _ => builtinMeth (.ref r) m args h := (rfl)

@[pysem] theorem setAttr_ref (r : Nat) (a : String) (x : Val) (h : Heap) :
    setAttr (.ref r) a x h =
      match h[r]? with
      | some (.inst c l) => ok () (h.set r (.inst c (setAttrList a x l)))
      | _ => fail .stuck h := (rfl)

@[pysem] theorem append_ref (r : Nat) (x : Val) (h : Heap) :
    builtinMeth (.ref r) "append" [x] h =
      match h[r]? with
      | some (.list l) => ok .none (h.set r (.list (l ++ [x])))
      | _ => fail .stuck h := (rfl)

attribute [pysem] findAttr setAttrList

/-- `v[i]` of a list. -/
theorem getItem_list {r : Nat} {h : Heap} {vs : List Val} (e : h[r]? = some (.list vs)) (i : Int) :
    getItem (.ref r) (.int i) h =
      match pyGet vs i with
      | .ok x => ok x h
      | .error _ => fail .index h := by
  simp only [getItem, elems, e]
  rfl

/-- The byte objects `vs` have the contents `ks`. -/
def BytesList (vs : List Val) (h : Heap) (ks : List Bytes) : Prop :=
  vs.map (fun v => bytesOf v h) = ks.map some

theorem BytesList.get {vs : List Val} {h : Heap} {ks : List Bytes} (b : BytesList vs h ks) (i : Int) :
    (∃ w x, pyGet vs i = .ok w ∧ pyGet ks i = .ok x ∧ bytesOf w h = some x) ∨
      (pyGet vs i = .error .indexError ∧ pyGet ks i = .error .indexError) := by
  have h1 := pyGet_map (fun v => bytesOf v h) vs i
  have h2 := pyGet_map some ks i
  rw [b] at h1
  rw [h1] at h2
  cases h3 : pyGet vs i with
  | ok w =>
    cases h4 : pyGet ks i with
    | ok x =>
      rw [h3, h4] at h2
      exact Or.inl ⟨w, x, rfl, rfl, by simpa [Except.map] using h2⟩
    | error e => rw [h3, h4] at h2; cases h2
  | error e =>
    cases h4 : pyGet ks i with
    | ok x => rw [h3, h4] at h2; cases h2
    | error e' => exact Or.inr ⟨by rw [pyGet_error h3], by rw [pyGet_error h4]⟩

theorem BytesList.mono {vs : List Val} {h : Heap} {ks : List Bytes} (b : BytesList vs h ks) (l : Heap) :
    BytesList vs (h ++ l) ks := by
  unfold BytesList at *
  apply List.ext_getElem?
  intro i
  have := congrArg (fun l => l[i]?) b
  simp only [List.getElem?_map] at *
  cases h1 : vs[i]? with
  | none => rw [h1] at this; simpa using this
  | some v =>
    cases h2 : ks[i]? with
    | none => rw [h1, h2] at this; cases this
    | some k =>
      rw [h1, h2] at this
      simp only [Option.map_some, Option.some.injEq] at *
      exact bytesOf_mono this l

theorem BytesList.length {vs : List Val} {h : Heap} {ks : List Bytes} (b : BytesList vs h ks) :
    vs.length = ks.length := by
  simpa using congrArg List.length b

/-- The number `a` is a byte. -/
theorem byte_range (x : UInt8) : (0 : Int) ≤ x.toNat ∧ (x.toNat : Int) < 256 := by
  have := x.toNat_lt
  omega

end Gost.Src
