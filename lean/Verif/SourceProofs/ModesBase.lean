import Verif.SourceProofs.Cipher
import Verif.SourceProofs.Random
import Verif.Model.Modes

/-! `gost_34_13_2015.py`: what the modes have in common. -/

namespace Gost.Src

open Streebog (OidAt Other cmp_notIn)

namespace ModesSrc

open RandomSrc (builtin_hasattr binop_zeros checkValue_good checkValue_bad)

/-- The classes of the modes. -/
def IsMode (cls : String) : Prop :=
  cls = "GOST34132015ecb" ∨ cls = "GOST34132015cbc" ∨ cls = "GOST34132015cfb" ∨ cls = "GOST34132015ofb" ∨
    cls = "GOST34132015ctr" ∨ cls = "GOST34132015mac"

namespace IsMode

variable {cls : String}

theorem cipher_obj (m : IsMode cls) : package.property cls "_cipher_obj" = none := by
  rcases m with rfl | rfl | rfl | rfl | rfl | rfl <;> py []

theorem block_size (m : IsMode cls) : package.property cls "block_size" = some "GOST34132015.block_size" := by
  rcases m with rfl | rfl | rfl | rfl | rfl | rfl <;> py []

theorem num_block (m : IsMode cls) :
    package.method cls "_get_num_block" = some ("GOST34132015._get_num_block", false) := by
  rcases m with rfl | rfl | rfl | rfl | rfl | rfl <;> py []

theorem pad_size (m : IsMode cls) :
    package.method cls "_get_pad_size" = some ("GOST34132015._get_pad_size", false) := by
  rcases m with rfl | rfl | rfl | rfl | rfl | rfl <;> py []

theorem get_block (m : IsMode cls) :
    package.method cls "_get_block" = some ("GOST34132015._get_block", false) := by
  rcases m with rfl | rfl | rfl | rfl | rfl | rfl <;> py []

theorem clear (m : IsMode cls) : package.method cls "clear" = some ("GOST34132015.clear", false) := by
  rcases m with rfl | rfl | rfl | rfl | rfl | rfl <;> py []

theorem other (m : IsMode cls) : cls ≠ "ObjectIdentifier" ∧ cls ≠ "GOST34122015Kuznechik" ∧
    cls ≠ "GOST34122015Magma" := by
  rcases m with rfl | rfl | rfl | rfl | rfl | rfl <;> decide

end IsMode

/-- The cell `me` is an object of the class `cls`: its cipher object is `c`, the other attributes are `tl`. The byte
arrays of the cipher object are not among the cells `W`. -/
structure ModeAt (cls : String) (c : CipherObj) (me cr kr : Nat) (W : List Nat) (tl : List (String × Val)) (h : Heap) :
    Prop where
  mode : IsMode cls
  obj : ∃ o, h[me]? = some (.inst cls (("_cipher_obj", .ref cr) :: ("oid", .ref o) :: tl)) ∧ OidAt (cipherOid c) o h ∧
    ∃ o', CipherAt c cr kr o' W h

variable {cls : String} {c : CipherObj} {me cr kr : Nat} {W : List Nat} {tl : List (String × Val)} {h : Heap}

theorem ModeAt.frame (a : ModeAt cls c me cr kr W tl h) {W' : List Nat} {h' : Heap} (f : Frame W' h h')
    (hw : ∀ w ∈ W', w ≠ me ∧ Free W w h) : ModeAt cls c me cr kr W tl h' := by
  obtain ⟨m, o, h1, ho, o', h2⟩ := a
  exact ⟨m, o, f.get h1 fun hm => (hw _ hm).1 rfl, f.get ho fun hm => (hw _ hm).2.ne_oid ho rfl, o',
    h2.frame f fun w hm => (hw w hm).2⟩

theorem ModeAt.ext (a : ModeAt cls c me cr kr W tl h) {h' : Heap} (x : Ext h h') : ModeAt cls c me cr kr W tl h' :=
  a.frame (x.frame []) (by simp)

theorem ModeAt.rep (a : ModeAt cls c me cr kr W tl h) : CipherRep c cr kr h := by
  obtain ⟨m, o, h1, ho, o', h2⟩ := a
  exact h2.rep

theorem ModeAt.me_ne (a : ModeAt cls c me cr kr W tl h) : me ≠ kr ∧ me ≠ cr := by
  obtain ⟨m, o, h1, ho, o', h2⟩ := a
  obtain ⟨vs, h3, -⟩ := h2.keys
  obtain ⟨k, h4, -⟩ := h2.obj
  exact ⟨ne_of_get h1 h3 (by simp), ne_of_get h1 h4 (by
    have := m.other
    cases c <;> simp_all [className])⟩

/-- The object has blocks of `bs` bytes. -/
def HasBs (me bs : Nat) (h : Heap) : Prop := ∃ cls c cr kr W tl, ModeAt cls c me cr kr W tl h ∧ bs = c.blockSize

theorem ModeAt.hasBs (a : ModeAt cls c me cr kr W tl h) : HasBs me c.blockSize h := ⟨_, _, _, _, _, _, a, rfl⟩

theorem HasBs.append {me bs : Nat} {h : Heap} (a : HasBs me bs h) (l : Heap) : HasBs me bs (h ++ l) := by
  obtain ⟨cls, c, cr, kr, W, tl, a, rfl⟩ := a
  exact (a.ext ((Ext.refl h).add l)).hasBs

theorem block_size_ok (L n : Nat) {me bs : Nat} {h : Heap} (a : HasBs me bs h) :
    call package L (n + 2) "GOST34132015.block_size" [.ref me] h = ok (.int bs) h := by
  obtain ⟨cls, c, cr, kr, W, tl, ⟨m, o, h1, ho, o', h2⟩, rfl⟩ := a
  rw [call_succ Fn.GOST34132015.block_size]
  have := cipher_block_size L n h2.rep
  rw [getAttr_ref] at this
  simp only [ctx_property, ctx_call] at this
  py [GOST34132015.m_block_size, h1, m.cipher_obj]
  rw [this]
  py []

theorem HasBs.pos {me bs : Nat} {h : Heap} (a : HasBs me bs h) : 0 < bs := by
  obtain ⟨cls, c, cr, kr, W, tl, -, rfl⟩ := a
  cases c <;> exact Nat.lt_of_sub_eq_succ rfl

theorem arith_div_nat {m n : Nat} (hn : 0 < n) : arith .floordiv m n = .ok ((m / n : Nat) : Int) := by
  have h1 : ¬ ((n : Int) = 0) := by omega
  simp only [arith, if_neg h1, Int.fdiv_eq_ediv_of_nonneg _ (show (0 : Int) ≤ n by omega)]
  rfl

theorem arith_mod_nat {m n : Nat} (hn : 0 < n) : arith .mod m n = .ok ((m % n : Nat) : Int) := by
  have h1 : ¬ ((n : Int) = 0) := by omega
  simp only [arith, if_neg h1, Int.fmod_eq_emod_of_nonneg _ (show (0 : Int) ≤ n by omega)]
  rfl

theorem ModeAt.inst (a : ModeAt cls c me cr kr W tl h) : ∃ l, h[me]? = some (.inst cls l) := by
  obtain ⟨m, o, h1, ho, o', h2⟩ := a
  exact ⟨_, h1⟩

theorem num_block_ok (L n : Nat) (a : ModeAt cls c me cr kr W tl h) {v : Val} {d : Bytes} (e : bytesOf v h = some d) :
    call package L (n + 3) "GOST34132015._get_num_block" [.ref me, v] h = ok (.int (getNumBlock c.blockSize d)) h := by
  rw [call_succ Fn.GOST34132015._get_num_block]
  obtain ⟨l, o⟩ := a.inst
  py [GOST34132015.m__get_num_block, e, o, a.mode.block_size, block_size_ok L n a.hasBs, arith_div_nat a.hasBs.pos]
  rfl

theorem pad_size_ok (L n : Nat) (a : ModeAt cls c me cr kr W tl h) {v : Val} {d : Bytes} (e : bytesOf v h = some d) :
    call package L (n + 3) "GOST34132015._get_pad_size" [.ref me, v] h = ok (.int (getPadSize c.blockSize d)) h := by
  rw [call_succ Fn.GOST34132015._get_pad_size]
  obtain ⟨l, o⟩ := a.inst
  have hp := a.hasBs.pos
  have hb := block_size_ok L n a.hasBs
  have hm := a.mode.block_size
  generalize c.blockSize = bs at *
  unfold getPadSize
  by_cases h1 : d.length < bs
  · have h1' : ((d.length : Int) < (bs : Int)) = True := by simp; omega
    rw [if_pos h1]
    py [GOST34132015.m__get_pad_size, e, o, hm, hb, h1', decide_true]
    rw [Int.ofNat_sub (by omega)]
  · have h1' : ((d.length : Int) < (bs : Int)) = False := by simp; omega
    rw [if_neg h1]
    by_cases h2 : d.length % bs = 0
    · have h2' : (((d.length % bs : Nat) : Int) = 0) = True := by simp only [eq_iff_iff, iff_true]; omega
      rw [if_pos (by simpa using h2)]
      py [GOST34132015.m__get_pad_size, e, o, hm, hb, h1', decide_false, decide_true, h2', arith_mod_nat hp]
      rfl
    · have h2' : (((d.length % bs : Nat) : Int) = 0) = False := by simp only [eq_iff_iff, iff_false]; omega
      have h3 := Nat.mod_lt d.length hp
      rw [if_neg (by simpa using h2)]
      py [GOST34132015.m__get_pad_size, e, o, hm, hb, h1', decide_false, h2', arith_mod_nat hp]
      rw [Int.ofNat_sub (by omega)]

/-- A byte object with the contents `b`; if it is a byte array, it is a new one. Nothing is changed. -/
def NewVal (o : Out Val) (h : Heap) (b : Bytes) : Prop :=
  ∃ w l, o = ok w (h ++ l) ∧ bytesOf w (h ++ l) = some b ∧ ∀ r, w = .ref r → h.length ≤ r

theorem _root_.Gost.Src.NewBytes.newVal {o : Out Val} {h : Heap} {b : Bytes} (n : NewBytes o h b) : NewVal o h b := by
  obtain ⟨r, l, e, hr, hb⟩ := n.elim
  exact ⟨_, l, e, hb, fun r' h' => by cases h'; exact hr⟩

theorem slice_new {v : Val} {h : Heap} {b : Bytes} (e : bytesOf v h = some b) (lo hi : Option Int) :
    NewVal (getSlice v lo hi h) h (cut lo hi b) := by
  cases v with
  | bytes x =>
    cases e
    exact ⟨.bytes (cut lo hi b), [], by rw [List.append_nil]; rfl, rfl, by simp⟩
  | ref r => exact ⟨_, _, getSlice_ref e lo hi, bytesOf_last _ _, fun r' h' => by cases h'; exact Nat.le_refl _⟩
  | _ => cases e

theorem add_new {v w : Val} {h : Heap} {a b : Bytes} (e1 : bytesOf v h = some a) (e2 : bytesOf w h = some b) :
    NewVal (binop .add v w h) h (a ++ b) := by
  cases v with
  | bytes y =>
    cases e1
    refine ⟨.bytes (a ++ b), [], ?_, rfl, by simp⟩
    rw [binop_cat_bytes _ (by rw [e2]; rfl), e2, List.append_nil]
    rfl
  | ref r =>
    refine ⟨.ref h.length, [.bytearray (a ++ b)], ?_, bytesOf_last _ _, fun r' h' => by cases h'; exact Nat.le_refl _⟩
    rw [binop_cat_ref (by rw [e1]; rfl) (by rw [e2]; rfl), e1, e2]
    rfl
  | _ => cases e1

theorem get_block_ok (L n : Nat) (a : ModeAt cls c me cr kr W tl h) {v : Val} {d : Bytes} (e : bytesOf v h = some d)
    (i : Nat) :
    NewVal (call package L (n + 3) "GOST34132015._get_block" [.ref me, v, .int i] h) h (getBlock c.blockSize d i) := by
  rw [call_succ Fn.GOST34132015._get_block]
  obtain ⟨l, o⟩ := a.inst
  have hb := block_size_ok L n a.hasBs
  have hm := a.mode.block_size
  obtain ⟨w, l', f, b, hw⟩ := slice_new e (some ((c.blockSize * i : Nat) : Int))
    (some ((c.blockSize + c.blockSize * i : Nat) : Int))
  generalize c.blockSize = bs at *
  py [GOST34132015.m__get_block, e, o, hm, hb, arith_mul_nat, arith_add_nat, f]
  exact ⟨w, l', rfl, b, hw⟩

theorem ModeAt.upd {o : Nat} {tl' : List (String × Val)} {h' : Heap} (a : ModeAt cls c me cr kr W tl h)
    (g : h[me]? = some (.inst cls (("_cipher_obj", .ref cr) :: ("oid", .ref o) :: tl))) (k : Frame [me] h h')
    (g' : h'[me]? = some (.inst cls (("_cipher_obj", .ref cr) :: ("oid", .ref o) :: tl'))) :
    ModeAt cls c me cr kr W tl' h' := by
  obtain ⟨m, o', g2, ho, o2, q⟩ := a
  cases g.symm.trans g2
  have hf : ∀ w ∈ [me], Free W w h := fun w hw => by
    simp only [List.mem_singleton] at hw
    subst hw
    exact Or.inr (Or.inl ⟨_, _, g, m.other⟩)
  exact ⟨m, o, g', k.get ho fun hm => (hf _ hm).ne_oid ho rfl, o2, q.frame k hf⟩

theorem ModeAt.away (a : ModeAt cls c me cr kr W tl h) {W' : List Nat} (hw : ∀ w ∈ W', w ∈ W ∨ h.length ≤ w) :
    ModeAt cls c me cr kr W' tl h := by
  obtain ⟨m, o, h1, ho, o', h2⟩ := a
  exact ⟨m, o, h1, ho, o', h2.away hw⟩

/-- `clear`. -/
theorem clear_none (L n : Nat) (a : ModeAt cls c me cr kr W tl h) (hW : ∀ w ∈ W, w < h.length) :
    ∃ h', call package L (n + 3) "GOST34132015.clear" [.ref me] h = ok .none h' ∧ Frame [kr] h h' ∧
      ModeAt cls c.clear me cr kr W tl h' := by
  rw [call_succ Fn.GOST34132015.clear]
  have hne := a.me_ne
  obtain ⟨m, o, h1, ho, o', h2⟩ := a
  obtain ⟨v, h', f1, f, a'⟩ := clear_at L n h2 hW
  py [GOST34132015.m_clear]
  rw [builtin_hasattr _ h1]
  py [h1, m.cipher_obj]
  rw [callMeth_ref] at f1
  simp only [ctx_method, ctx_call] at f1
  rw [f1]
  py []
  obtain ⟨vs, h3, -⟩ := h2.keys
  have hoid : cipherOid c.clear = cipherOid c := by cases c <;> rfl
  exact ⟨h', rfl, f, m, o, f.get h1 (by simpa using hne.1), hoid ▸ f.get ho (by
    simpa using ne_of_get ho h3 (by simp)), o', a'⟩

theorem clear_ok (L n : Nat) (a : ModeAt cls c me cr kr W tl h) (hW : ∀ w ∈ W, w < h.length) :
    ∃ v h', call package L (n + 3) "GOST34132015.clear" [.ref me] h = ok v h' ∧ Frame [kr] h h' ∧
      ModeAt cls c.clear me cr kr W tl h' := ⟨_, clear_none L n a hW⟩

/-! The constructor of the base class. -/

theorem algorithm_in (a : String) (h : Heap) :
    valIn (.str a) h [.str "magma", .str "kuznechik"] = some (decide (a = "magma" ∨ a = "kuznechik")) := by
  have e1 : valEq (.str a) (.str "magma") h = some (a == "magma") := rfl
  have e2 : valEq (.str a) (.str "kuznechik") h = some (a == "kuznechik") := rfl
  unfold valIn valIn valIn
  rw [e1, e2]
  by_cases h1 : a = "magma"
  · simp [h1]
  · by_cases h2 : a = "kuznechik"
    · simp [h2]
    · simp [h1, h2, show (a == "magma") = false by simpa using h1, show (a == "kuznechik") = false by simpa using h2]

/-- The key is overwritten by its zero fill: some byte object. -/
theorem fill_any (L n : Nat) (v : Val) (h : Heap) :
    ∃ w l, call package L (n + 1) "Utils.zero_fill" [v] h = ok w (h ++ l) := by
  cases e : bytesOf v h with
  | some b =>
    obtain ⟨w, l, f, -⟩ := (zero_fill_ok L n e).elim
    exact ⟨_, l, f⟩
  | none => exact ⟨_, [], by rw [List.append_nil]; exact zero_fill_other L n e⟩

/-- The constructor adds the attributes `_cipher_obj` and `oid` to `A`, or replaces them. -/
def Grows (A tl : List (String × Val)) : Prop :=
  ∀ x, findAttr "_cipher_obj" (setAttrList "_cipher_obj" x A) = some x ∧
    ∀ y, setAttrList "oid" y (setAttrList "_cipher_obj" x A) = ("_cipher_obj", x) :: ("oid", y) :: tl

theorem grows_nil : Grows [] [] := fun x => by
  simp only [setAttrList, findAttr, String.reduceEq, ↓reduceIte]
  exact ⟨trivial, fun y => trivial⟩

theorem grows_again (x y : Val) (tl : List (String × Val)) :
    Grows (("_cipher_obj", x) :: ("oid", y) :: tl) tl := fun x => by
  simp only [setAttrList, findAttr, String.reduceEq, ↓reduceIte]
  exact ⟨trivial, fun y => trivial⟩

/-- The part of the constructor after the two checks. -/
theorem init_rest (L n : Nat) {A : List (String × Val)} (o : h[me]? = some (.inst cls A)) (m : IsMode cls)
    (hA : Grows A tl) {a : String} (ha : a = "magma" ∨ a = "kuznechik") {v : Val} {key : Bytes}
    (e : bytesOf v h = some key) (hk : key.length = 32) {env : Env} (e1 : env "self" = some (.ref me))
    (e2 : env "algorithm" = some (.str a)) (e3 : env "key" = some v) :
    ∃ c cr kr h', baseInit a (pyVal v h) = .ok c ∧ atEnd (execs (ctx L (n + 4)) [
     .if_ (.cmp .eq (.name "algorithm") (.str "kuznechik"))
        [.assign (.attr (.name "self") "_cipher_obj") (.new "GOST34122015Kuznechik" [.name
            "key"])]
        [.if_ (.cmp .eq (.name "algorithm") (.str "magma"))
            [.assign (.attr (.name "self") "_cipher_obj") (.new "GOST34122015Magma" [.name
                "key"])]
            []],
     .assign (.attr (.name "self") "oid") (.attr (.attr (.name "self") "_cipher_obj") "oid")] env h) = ok .none h' ∧
      Keeps [me] h h' ∧ h.length ≤ cr ∧ h.length < kr ∧ ModeAt cls c me cr kr [] tl h' := by
  have hc : checkValue (pyVal v h) 32 = true := by rw [← hk]; exact checkValue_good e
  have hf : ∀ {l : List (String × Val)} {H : Heap}, H[me]? = some (.inst cls l) → ∀ w ∈ [me], Free [] w H := by
    intro l H o w hw
    simp only [List.mem_singleton] at hw
    subst hw
    exact Or.inr (Or.inl ⟨_, _, o, m.other⟩)
  unfold baseInit
  rw [if_neg (by rcases ha with rfl | rfl <;> simp), hc, pyVal_data, e]
  simp only [Bool.not_true, Bool.false_eq_true, ↓reduceIte]
  unfold atEnd
  rcases ha with rfl | rfl
  · obtain ⟨ks, kr, o1, H, hi, f, x, hkr, a⟩ := magma_at L (n + 1) e hk
    rw [if_neg (by decide), hi, ok_bind]
    py [e1, e2, e3, f, decide_true, decide_false]
    upd (x.get o) with H1 p1 k1 m1
    have a1 := a.frame k1.frame (hf (x.get o))
    obtain ⟨l, g, g2⟩ := a1.get
    have g : H1[h.length]? = some (.inst "GOST34122015Magma" l) := g
    py [e1, p1, m.cipher_obj, (hA _).1, g, g2]
    upd p1 with H2 p2 k2 m2
    rw [(hA _).2] at p2
    exact ⟨_, h.length, kr, H2, rfl, rfl, ((x.keeps _).trans k1).trans k2, Nat.le_refl _, hkr, m, o1, p2,
      (a1.frame k2.frame (hf p1)).oid, o1, a1.frame k2.frame (hf p1)⟩
  · obtain ⟨ks, kr, o1, H, hi, f, x, hkr, a⟩ := kuz_at L n e hk
    rw [if_pos rfl, hi, ok_bind]
    py [e1, e2, e3, f, decide_true, decide_false]
    upd (x.get o) with H1 p1 k1 m1
    have a1 := a.frame k1.frame (hf (x.get o))
    obtain ⟨l, g, g2⟩ := a1.get
    have g : H1[h.length]? = some (.inst "GOST34122015Kuznechik" l) := g
    py [e1, p1, m.cipher_obj, (hA _).1, g, g2]
    upd p1 with H2 p2 k2 m2
    rw [(hA _).2] at p2
    exact ⟨_, h.length, kr, H2, rfl, rfl, ((x.keeps _).trans k1).trans k2, Nat.le_refl _, hkr, m, o1, p2,
      (a1.frame k2.frame (hf p1)).oid, o1, a1.frame k2.frame (hf p1)⟩

/-- What the constructor of the base class does. -/
def BaseInit (o : Out Val) (r : Res CipherObj) (cls : String) (me : Nat) (tl : List (String × Val)) (h : Heap) : Prop :=
  match r with
  | .ok c => ∃ cr kr h', o = ok .none h' ∧ Keeps [me] h h' ∧ h.length ≤ cr ∧ h.length < kr ∧
      ModeAt cls c me cr kr [] tl h'
  | .error e => ∃ l, o = fail (exc e) (h ++ l)

theorem base_init (L n : Nat) {A : List (String × Val)} (o : h[me]? = some (.inst cls A)) (m : IsMode cls)
    (hA : Grows A tl) (a : String) (v : Val) :
    BaseInit (call package L (n + 5) "GOST34132015.__init__" [.ref me, .str a, v] h) (baseInit a (pyVal v h)) cls me tl
      h := by
  rw [call_succ Fn.GOST34132015.__init__, run_body h rfl rfl]
  unfold GOST34132015.m___init__
  have f0 : call package L (n + 4) "Utils.check_value" [v, .int 32] h = _ := check_value_ok L (n + 3) v 32 h
  by_cases ha : a = "magma" ∨ a = "kuznechik"
  · rw [execs_skip (h' := h) (by py [cmp_notIn (algorithm_in a h), ha, decide_true, Bool.not_true])]
    cases hc : checkValue (pyVal v h) 32 with
    | true =>
      rw [execs_skip (h' := h) (by py [f0, hc, Bool.not_true])]
      have : ∃ key, bytesOf v h = some key ∧ key.length = 32 := by
        unfold checkValue at hc
        rw [pyVal_data] at hc
        cases e : bytesOf v h with
        | none => rw [e] at hc; cases hc
        | some key => rw [e] at hc; exact ⟨key, rfl, by simpa using hc⟩
      obtain ⟨key, e, hk⟩ := this
      obtain ⟨c, cr, kr, h', g1, g2, g3⟩ := init_rest L n o m hA ha e hk
        (env := ((Env.empty.set "self" (.ref me)).set "algorithm" (.str a)).set "key" v) (by py []) (by py []) (by py [])
      rw [g1]
      exact ⟨cr, kr, h', g2, g3⟩
    | false =>
      have hm : baseInit a (pyVal v h) = .error (.cipherError "GOSTCipherError: invalid key value") := by
        unfold baseInit
        rw [if_neg (by rcases ha with rfl | rfl <;> simp), hc]
        rfl
      obtain ⟨w, l, f1⟩ := fill_any L (n + 3) v h
      rw [hm]
      unfold atEnd
      py [f0, hc, Bool.not_false, f1]
      exact ⟨l, rfl⟩
  · have hm : baseInit a (pyVal v h) = .error (.cipherError "GOSTCipherError: unsupported cipher algorithm") := by
      unfold baseInit
      rw [if_pos (by simpa using ha)]
    obtain ⟨w, l, f1⟩ := fill_any L (n + 3) v h
    rw [hm]
    unfold atEnd
    py [cmp_notIn (algorithm_in a h), ha, decide_false, Bool.not_false, f1]
    exact ⟨l, rfl⟩

end ModesSrc

end Gost.Src
