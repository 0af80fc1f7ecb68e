import Verif.SourceProofs.ModesMacNew

/-! The function `new` of gost_34_13_2015.py. -/

namespace Gost.Src

namespace ModesSrc

open Streebog (dict_get)

/-- The object `me` in the memory `h` is the cipher object `c` of the model; its methods change only the cells of
`P`. -/
def IsCipher (c : Cipher) (me : Nat) (P : List Nat) (h : Heap) : Prop :=
  match c with
  | .ecb s => ∃ cr kr, EcbAt me cr kr s h ∧ P = [kr]
  | .cbc s => ∃ cr kr iv, CbcAt me cr kr iv s h ∧ P = [iv, kr]
  | .cfb s => ∃ cr kr iv, RegAt "GOST34132015cfb" me cr kr iv s h ∧ P = [iv, kr]
  | .ofb s => ∃ cr kr iv, RegAt "GOST34132015ofb" me cr kr iv s h ∧ P = [iv, kr]
  | .ctr s => ∃ cr kr i0 ct, CtrAt me cr kr i0 ct s h ∧ P = [ct, kr]
  | .mac s => ∃ cr kr x, MacAt me cr kr x s h ∧ P = [me, kr]

/-- What `new` does. -/
def Makes (o : Out Val) (r : Res Cipher) (h : Heap) : Prop :=
  match r with
  | .ok c => ∃ me P h', o = ok (.ref me) h' ∧ Ext h h' ∧ h.length ≤ me ∧ (∀ r ∈ P, h.length ≤ r) ∧ IsCipher c me P h'
  | .error e => ∃ h', o = fail (exc e) h' ∧ Ext h h'

/-- The keyword arguments of `new`. -/
structure KwArgs (l : List (String × Val)) (h : Heap) (pad : Option Int) (iv data : Option PyVal) : Prop where
  pad : findAttr "pad_mode" l = pad.map Val.int
  iv : (findAttr "init_vect" l).map (pyVal · h) = iv
  data : (findAttr "data" l).map (pyVal · h) = data
  known : ∀ k v, findAttr k l = some v → Known v h

theorem checkIv_congr (bs : Nat) {v w : PyVal} (e : v.data? = w.data?) : checkIv bs v = checkIv bs w := by
  unfold checkIv
  rw [e]

theorem cbc_congr (a : String) (k : PyVal) {v w : PyVal} (e : v.data? = w.data?) (p : Int) :
    Cbc.init a k v p = Cbc.init a k w p := by
  unfold Cbc.init
  simp only [checkIv_congr _ e]

theorem fb_congr (a : String) (k : PyVal) {v w : PyVal} (e : v.data? = w.data?) :
    Fb.init a k v = Fb.init a k w := by
  unfold Fb.init
  simp only [checkIv_congr _ e]

theorem ctr_congr (a : String) (k : PyVal) {v w : PyVal} (e : v.data? = w.data?) :
    Ctr.init a k v = Ctr.init a k w := by
  unfold Ctr.init
  rw [e]

theorem iv_data {l : List (String × Val)} {h : Heap} {pad : Option Int} {iv data : Option PyVal}
    (k : KwArgs l h pad iv data) (d : Bytes) :
    (pyVal ((findAttr "init_vect" l).getD (.bytes d)) h).data? = (iv.getD (.bytearray d)).data? := by
  rw [← k.iv]
  cases findAttr "init_vect" l <;> rfl

theorem iv_known {l : List (String × Val)} {h : Heap} {pad : Option Int} {iv data : Option PyVal}
    (k : KwArgs l h pad iv data) (d : Bytes) : Known ((findAttr "init_vect" l).getD (.bytes d)) h := by
  cases e : findAttr "init_vect" l with
  | none => intro r hr; cases hr
  | some v => exact k.known _ _ e

theorem pad_int {l : List (String × Val)} {h : Heap} {pad : Option Int} {iv data : Option PyVal}
    (k : KwArgs l h pad iv data) (i : Int) : (findAttr "pad_mode" l).getD (.int i) = .int (pad.getD i) := by
  rw [k.pad]
  cases pad <;> rfl

theorem New.makes {σ : Type} {o : Out Val} {r : Res σ} {h : Heap} {At : Nat → Nat → σ → Heap → Prop} (f : σ → Cipher)
    (x : New o r h At) (hA : ∀ cr kr s h', h.length < kr → At cr kr s h' →
      ∃ P, (∀ r ∈ P, h.length ≤ r) ∧ IsCipher (f s) h.length P h') :
    Makes o (r >>= fun s => pure (f s)) h := by
  cases r with
  | ok s =>
    obtain ⟨cr, kr, h', rfl, k, h1, h2, a⟩ := x
    obtain ⟨P, hp, a⟩ := hA cr kr s h' h2 a
    exact ⟨_, P, h', rfl, k, Nat.le_refl _, hp, a⟩
  | error e =>
    obtain ⟨h', rfl, k⟩ := x
    exact ⟨h', rfl, k⟩

/-- `result = cls(…)` followed by `return result`. -/
theorem Makes.passes {o : Out Val} {r : Res Cipher} {h : Heap} (x : Makes o r h) {k : Val → Heap → Out Val}
    (hk : ∀ v h', k v h' = ok v h') : Makes (andThen o k) r h := by
  cases r with
  | ok s =>
    obtain ⟨me, P, h', rfl, q⟩ := x
    exact ⟨me, P, h', hk _ _, q⟩
  | error e =>
    obtain ⟨h', rfl, q⟩ := x
    exact ⟨h', rfl, q⟩

/-! The branches of `new`. -/

def ecbBody : List Stmt :=
  [.assign (.name "pad_mode") (.meth (.name "kwargs") "get" [.str "pad_mode", .glob "Modes.PAD_MODE_1"]),
   .assign (.name "result") (.new "GOST34132015ecb" [.name "algorithm", .name "key", .name "pad_mode"])]

def cbcBody : List Stmt :=
  [.assign (.name "init_vect") (.meth (.name "kwargs") "get" [.str "init_vect", .glob "Modes._DEFAULT_IV_KUZNECHIK"]),
   .if_ (.cmp .eq (.name "algorithm") (.str "magma"))
     [.assign (.name "init_vect") (.meth (.name "kwargs") "get" [.str "init_vect", .glob "Modes._DEFAULT_IV_CBC_MAGMA"])] [],
   .assign (.name "pad_mode") (.meth (.name "kwargs") "get" [.str "pad_mode", .glob "Modes.PAD_MODE_1"]),
   .assign (.name "result") (.new "GOST34132015cbc" [.name "algorithm", .name "key", .name "init_vect", .name "pad_mode"])]

def cfbBody : List Stmt :=
  [.assign (.name "init_vect") (.meth (.name "kwargs") "get" [.str "init_vect", .glob "Modes._DEFAULT_IV_KUZNECHIK"]),
   .if_ (.cmp .eq (.name "algorithm") (.str "magma"))
     [.assign (.name "init_vect") (.meth (.name "kwargs") "get" [.str "init_vect", .glob "Modes._DEFAULT_IV_MAGMA"])] [],
   .assign (.name "result") (.new "GOST34132015cfb" [.name "algorithm", .name "key", .name "init_vect"])]

def ofbBody : List Stmt :=
  [.assign (.name "init_vect") (.meth (.name "kwargs") "get" [.str "init_vect", .glob "Modes._DEFAULT_IV_KUZNECHIK"]),
   .if_ (.cmp .eq (.name "algorithm") (.str "magma"))
     [.assign (.name "init_vect") (.meth (.name "kwargs") "get" [.str "init_vect", .glob "Modes._DEFAULT_IV_MAGMA"])] [],
   .assign (.name "result") (.new "GOST34132015ofb" [.name "algorithm", .name "key", .name "init_vect"])]

def ctrBody : List Stmt :=
  [.assign (.name "init_vect") (.meth (.name "kwargs") "get" [.str "init_vect", .glob "Modes._DEFAULT_IV_CTR_KUZNECHIK"]),
   .if_ (.cmp .eq (.name "algorithm") (.str "magma"))
     [.assign (.name "init_vect") (.meth (.name "kwargs") "get" [.str "init_vect", .glob "Modes._DEFAULT_IV_CTR_MAGMA"])] [],
   .assign (.name "result") (.new "GOST34132015ctr" [.name "algorithm", .name "key", .name "init_vect"])]

def macBody : List Stmt :=
  [.assign (.name "data") (.meth (.name "kwargs") "get" [.str "data", .builtin "bytearray" [.bytes []]]),
   .assign (.name "result") (.new "GOST34132015mac" [.name "algorithm", .name "key", .name "data"])]

def badBody : List Stmt :=
  [.assign (.name "key") (.call "Utils.zero_fill" [.name "key"]),
   .raise "GOSTCipherError" "GOSTCipherError: unsupported cipher mode"]

def isMode (g : String) (a b : List Stmt) : List Stmt := [.if_ (.cmp .eq (.name "mode") (.glob g)) a b]

theorem new_body : Modes.f_new.body = .assign (.name "result") .none ::
    isMode "Modes.MODE_ECB" ecbBody (isMode "Modes.MODE_CBC" cbcBody (isMode "Modes.MODE_CFB" cfbBody
      (isMode "Modes.MODE_OFB" ofbBody (isMode "Modes.MODE_CTR" ctrBody (isMode "Modes.MODE_MAC" macBody badBody))))) ++
    [.ret (.name "result")] := rfl

/-- The memory of a call of `new`. -/
structure Args (env : Env) (a : String) (kv : Val) (m : Int) (l : List (String × Val)) : Prop where
  alg : env "algorithm" = some (.str a)
  key : env "key" = some kv
  mode : env "mode" = some (.int m)
  kw : env "kwargs" = some (.dict l)

/-- What a branch of `new` does. -/
def Branch (o : Out Flow) (r : Res Cipher) (h : Heap) : Prop :=
  match r with
  | .ok c => ∃ me P env h', o = ok (.next env) h' ∧ env "result" = some (.ref me) ∧ Ext h h' ∧ h.length ≤ me ∧
      (∀ r ∈ P, h.length ≤ r) ∧ IsCipher c me P h'
  | .error e => ∃ h', o = fail (exc e) h' ∧ Ext h h'

theorem Makes.branch {o : Out Val} {r : Res Cipher} {h : Heap} (x : Makes o r h) {C : Ctx} (env : Env) :
    Branch (thenRun (andThen o fun v h => assign C env (.name "result") v h) fun env h => execs C [] env h) r h := by
  cases r with
  | ok s =>
    obtain ⟨me, P, h', rfl, q⟩ := x
    exact ⟨me, P, _, h', rfl, if_pos rfl, q⟩
  | error e =>
    obtain ⟨h', rfl, q⟩ := x
    exact ⟨h', rfl, q⟩

variable {L n : Nat} {h : Heap} {a : String} {kv : Val} {l : List (String × Val)} {pad : Option Int}
  {iv data : Option PyVal} {env : Env} {m : Int}

theorem ecb_branch (hk : Known kv h) (k : KwArgs l h pad iv data) (g : Args env a kv m l) :
    Branch (execs (ctx L (n + 7)) ecbBody env h)
      (Ecb.init a (pyVal kv h) (pad.getD padMode1) >>= fun s => pure (Cipher.ecb s)) h := by
  obtain ⟨g1, g2, g3, g4⟩ := g
  have e := (ecb_new L (n + 1) a hk (pad.getD 2147483888)).makes Cipher.ecb fun cr kr s h' h1 q =>
    ⟨_, by simp only [List.mem_singleton]; omega, cr, kr, q, rfl⟩
  py [ecbBody, g1, g2, g3, g4, pad_int k]
  exact e.branch _

theorem cbc_branch (hk : Known kv h) (k : KwArgs l h pad iv data) (g : Args env a kv m l) :
    Branch (execs (ctx L (n + 7)) cbcBody env h)
      (Cbc.init a (pyVal kv h) (iv.getD (.bytearray (if a = "magma" then defaultIvCbcMagma else defaultIvKuz))) (pad.getD padMode1) >>=
        fun s => pure (Cipher.cbc s)) h := by
  obtain ⟨g1, g2, g3, g4⟩ := g
  have e := fun d => (cbc_new L n a hk (iv_known k d) (pad.getD 2147483888)).makes Cipher.cbc
    fun cr kr s h' h1 ⟨i, h2, q⟩ => ⟨_, by simp only [List.mem_cons, List.not_mem_nil, or_false]; omega, cr, kr, i, q, rfl⟩
  simp only [cbc_congr a _ (iv_data k _)] at e
  have d1 : Modes.g_DEFAULT_IV_KUZNECHIK = .bytes defaultIvKuz := rfl
  have d2 : Modes.g_DEFAULT_IV_CBC_MAGMA = .bytes defaultIvCbcMagma := rfl
  by_cases hm : a = "magma"
  · subst hm
    rw [if_pos rfl]
    py [cbcBody, g1, g2, g3, g4, pad_int k, d1, d2, decide_true]
    exact (e defaultIvCbcMagma).branch _
  · rw [if_neg hm]
    py [cbcBody, g1, g2, g3, g4, pad_int k, d1, d2, hm, decide_false]
    exact (e defaultIvKuz).branch _

theorem cfb_branch (hk : Known kv h) (k : KwArgs l h pad iv data) (g : Args env a kv m l) :
    Branch (execs (ctx L (n + 7)) cfbBody env h)
      (Fb.init a (pyVal kv h) (iv.getD (.bytearray (if a = "magma" then defaultIvMagma else defaultIvKuz))) >>=
        fun s => pure (Cipher.cfb s)) h := by
  obtain ⟨g1, g2, g3, g4⟩ := g
  have e := fun d => (fb_new (cls := "GOST34132015cfb") L (n + 1) (Or.inr (Or.inl rfl)) (by py []) a hk (iv_known k d)).makes Cipher.cfb
    fun cr kr s h' h1 ⟨i, h2, q⟩ => ⟨_, by simp only [List.mem_cons, List.not_mem_nil, or_false]; omega, cr, kr, i, q, rfl⟩
  simp only [fb_congr a _ (iv_data k _)] at e
  have d1 : Modes.g_DEFAULT_IV_KUZNECHIK = .bytes defaultIvKuz := rfl
  have d2 : Modes.g_DEFAULT_IV_MAGMA = .bytes defaultIvMagma := rfl
  by_cases hm : a = "magma"
  · subst hm
    rw [if_pos rfl]
    py [cfbBody, g1, g2, g3, g4, pad_int k, d1, d2, decide_true]
    exact (e defaultIvMagma).branch _
  · rw [if_neg hm]
    py [cfbBody, g1, g2, g3, g4, pad_int k, d1, d2, hm, decide_false]
    exact (e defaultIvKuz).branch _

theorem ofb_branch (hk : Known kv h) (k : KwArgs l h pad iv data) (g : Args env a kv m l) :
    Branch (execs (ctx L (n + 7)) ofbBody env h)
      (Fb.init a (pyVal kv h) (iv.getD (.bytearray (if a = "magma" then defaultIvMagma else defaultIvKuz))) >>=
        fun s => pure (Cipher.ofb s)) h := by
  obtain ⟨g1, g2, g3, g4⟩ := g
  have e := fun d => (fb_new (cls := "GOST34132015ofb") L (n + 1) (Or.inr (Or.inr rfl)) (by py []) a hk (iv_known k d)).makes Cipher.ofb
    fun cr kr s h' h1 ⟨i, h2, q⟩ => ⟨_, by simp only [List.mem_cons, List.not_mem_nil, or_false]; omega, cr, kr, i, q, rfl⟩
  simp only [fb_congr a _ (iv_data k _)] at e
  have d1 : Modes.g_DEFAULT_IV_KUZNECHIK = .bytes defaultIvKuz := rfl
  have d2 : Modes.g_DEFAULT_IV_MAGMA = .bytes defaultIvMagma := rfl
  by_cases hm : a = "magma"
  · subst hm
    rw [if_pos rfl]
    py [ofbBody, g1, g2, g3, g4, pad_int k, d1, d2, decide_true]
    exact (e defaultIvMagma).branch _
  · rw [if_neg hm]
    py [ofbBody, g1, g2, g3, g4, pad_int k, d1, d2, hm, decide_false]
    exact (e defaultIvKuz).branch _

theorem ctr_branch (hk : Known kv h) (k : KwArgs l h pad iv data) (g : Args env a kv m l) :
    Branch (execs (ctx L (n + 7)) ctrBody env h)
      (Ctr.init a (pyVal kv h) (iv.getD (.bytearray (if a = "magma" then defaultIvCtrMagma else defaultIvCtrKuz))) >>=
        fun s => pure (Cipher.ctr s)) h := by
  obtain ⟨g1, g2, g3, g4⟩ := g
  have e := fun d => (ctr_new L (n + 1) a hk (iv_known k d)).makes Cipher.ctr
    fun cr kr s h' h1 ⟨i, ct, h2, h3, q⟩ => ⟨_, by simp only [List.mem_cons, List.not_mem_nil, or_false]; omega, cr, kr, i, ct, q, rfl⟩
  simp only [ctr_congr a _ (iv_data k _)] at e
  have d1 : Modes.g_DEFAULT_IV_CTR_KUZNECHIK = .bytes defaultIvCtrKuz := rfl
  have d2 : Modes.g_DEFAULT_IV_CTR_MAGMA = .bytes defaultIvCtrMagma := rfl
  by_cases hm : a = "magma"
  · subst hm
    rw [if_pos rfl]
    py [ctrBody, g1, g2, g3, g4, pad_int k, d1, d2, decide_true]
    exact (e defaultIvCtrMagma).branch _
  · rw [if_neg hm]
    py [ctrBody, g1, g2, g3, g4, pad_int k, d1, d2, hm, decide_false]
    exact (e defaultIvCtrKuz).branch _

theorem mac_branch (hk : Known kv h) (k : KwArgs l h pad iv data) (g : Args env a kv m l) :
    Branch (execs (ctx L (n + 7)) macBody env h)
      (Mac.init a (pyVal kv h) (data.getD (.bytearray [])) >>= fun s => pure (Cipher.mac s)) h := by
  obtain ⟨g1, g2, g3, g4⟩ := g
  have x := (Ext.refl h).add [.bytearray []]
  have hk' : Known kv (h ++ [.bytearray []]) := fun r hr => by have := hk r hr; simp; omega
  have hd : Known ((findAttr "data" l).getD (.ref h.length)) (h ++ [.bytearray []]) := by
    cases e : findAttr "data" l with
    | none => intro r hr; cases hr; simp
    | some v => intro r hr; have := k.known _ _ e r hr; simp; omega
  have e := (mac_new L n a hk' hd).makes Cipher.mac fun cr kr s h' h1 ⟨x, q, _⟩ =>
    ⟨_, by simp only [List.mem_cons, List.not_mem_nil, or_false]; omega, cr, kr, x, q, rfl⟩
  rw [hk.pyVal] at e
  have hv : pyVal ((findAttr "data" l).getD (.ref h.length)) (h ++ [.bytearray []]) = data.getD (.bytearray []) := by
    rw [← k.data]
    cases e : findAttr "data" l with
    | none => simp [pyVal, bytesOf]
    | some v => exact (k.known _ _ e).pyVal _
  rw [hv] at e
  have e' := e.branch (C := ctx L (n + 7)) (env.set "data" ((findAttr "data" l).getD (.ref h.length)))
  py [macBody, g1, g2, g3, g4]
  generalize (Mac.init a (pyVal kv h) (data.getD (.bytearray [])) >>= fun s => pure (Cipher.mac s)) = r at e' ⊢
  cases r with
  | ok s =>
    obtain ⟨me, P, env', h', f, y1, y2, y3, y4, y5⟩ := e'
    simp only [List.length_append, List.length_singleton] at y3 y4
    exact ⟨me, P, env', h', f, y1, x.trans y2, by omega, fun r hr => by have := y4 r hr; omega, y5⟩
  | error s =>
    obtain ⟨h', f, y⟩ := e'
    exact ⟨h', f, x.trans y⟩

theorem bad_branch (g : Args env a kv m l) :
    Branch (execs (ctx L (n + 7)) badBody env h)
      (.error (.cipherError "GOSTCipherError: unsupported cipher mode")) h := by
  obtain ⟨g1, g2, g3, g4⟩ := g
  cases e : bytesOf kv h with
  | none =>
    have f := zero_fill_other L (n + 6) e
    py [badBody, g2, f]
    exact ⟨h, rfl, Ext.refl h⟩
  | some b =>
    obtain ⟨r, l, f, -, -⟩ := (zero_fill_ok L (n + 6) e).elim
    py [badBody, g2, f]
    exact ⟨_, rfl, l, rfl⟩

theorem Branch.pass {o : Out Flow} {r : Res Cipher} {C : Ctx} (b : Branch o r h) :
    Branch (thenRun o fun env h => execs C [] env h) r h := by
  cases r with
  | ok c =>
    obtain ⟨me, P, env, h', rfl, q⟩ := b
    exact ⟨me, P, env, h', rfl, q⟩
  | error e =>
    obtain ⟨h', rfl, q⟩ := b
    exact ⟨h', rfl, q⟩

theorem branch_if {C : Ctx} {g : String} {i : Int} (hg : C.globals g = some (.int i)) {x y : List Stmt}
    (e : env "mode" = some (.int m)) {r1 r2 : Res Cipher} (b1 : Branch (execs C x env h) r1 h)
    (b2 : Branch (execs C y env h) r2 h) : Branch (execs C (isMode g x y) env h) (if m = i then r1 else r2) h := by
  unfold isMode
  by_cases hm : m = i
  · rw [if_pos hm]
    py [e, hg, hm, decide_true]
    exact b1.pass
  · rw [if_neg hm]
    py [e, hg, hm, decide_false]
    exact b2.pass

theorem execs_append (C : Ctx) (s r : List Stmt) (env : Env) (h : Heap) :
    execs C (s ++ r) env h = thenRun (execs C s env h) fun env h => execs C r env h := by
  induction s generalizing env h with
  | nil => rfl
  | cons x s ih =>
    rw [List.cons_append, execs, execs]
    rcases exec C x env h with ⟨o, h'⟩
    rcases o with e | (⟨env'⟩ | ⟨v⟩)
    · rfl
    · exact ih env' h'
    · rfl

theorem Branch.makes {C : Ctx} {s : List Stmt} {r : Res Cipher} (b : Branch (execs C s env h) r h) :
    Makes (atEnd (execs C (s ++ [.ret (.name "result")]) env h)) r h := by
  rw [execs_append]
  cases r with
  | ok c =>
    obtain ⟨me, P, env, h', f, e, q⟩ := b
    rw [f]
    unfold atEnd
    py [e]
    exact ⟨me, P, h', rfl, q⟩
  | error e =>
    obtain ⟨h', f, q⟩ := b
    rw [f]
    exact ⟨h', rfl, q⟩

/-- `new`. -/
theorem new_ok (L n : Nat) {h : Heap} (a : String) {kv : Val} (hk : Known kv h) (m : Int) {l : List (String × Val)}
    {pad : Option Int} {iv data : Option PyVal} (k : KwArgs l h pad iv data) :
    Makes (call package L (n + 8) "Modes.new" [.str a, kv, .int m, .dict l] h)
      (newCipher a (pyVal kv h) m pad iv data) h := by
  rw [call_succ Fn.Modes.new, run_body h rfl rfl, new_body]
  have g : Args (((((Env.empty.set "algorithm" (.str a)).set "key" kv).set "mode" (.int m)).set "kwargs" (.dict l)).set
      "result" .none) a kv m l := by constructor <;> py []
  rw [List.cons_append, execs_assign (h' := h) (v := .none) (by py [])]
  exact (branch_if (by py []; rfl) g.mode (ecb_branch hk k g) <| branch_if (by py []; rfl) g.mode (cbc_branch hk k g) <|
    branch_if (by py []; rfl) g.mode (cfb_branch hk k g) <| branch_if (by py []; rfl) g.mode (ofb_branch hk k g) <|
    branch_if (by py []; rfl) g.mode (ctr_branch hk k g) <| branch_if (by py []; rfl) g.mode (mac_branch hk k g) <|
    bad_branch g).makes

end ModesSrc

end Gost.Src
