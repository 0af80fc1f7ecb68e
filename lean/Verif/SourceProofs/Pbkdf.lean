import Verif.SourceProofs.Hmac
import Verif.Model.Pbkdf

/-! `r_50_1_111_2016.py`. -/

namespace Gost.Src

namespace PbkdfSrc

open HmacSrc Streebog

/-- The cells of an object. -/
structure Cells where
  password : Val
  salt : Nat
  blocks : Int
  hmac : Nat
  hash : Nat

/-- The attributes of an object. -/
def Cells.attrs (c : Cells) (s : Gost.Pbkdf) : List (String × Val) :=
  [("_password", c.password), ("_salt", .ref c.salt), ("_iterations", .int s.iterations),
    ("_num_block", .int c.blocks), ("_counter", .int s.counter), ("_hmac_obj", .ref c.hmac)]

/-- The cell `me` is the object `s`. -/
structure PbkdfAt (s : Gost.Pbkdf) (me : Nat) (c : Cells) (h : Heap) : Prop where
  obj : h[me]? = some (.inst "R5011112016" (c.attrs s))
  pw : bytesOf c.password h = some s.password
  salt : bytesOf (.ref c.salt) h = some s.salt
  hmac : IsHmac s.hmac c.hmac c.hash h

/-- Objects of another class are not changed. -/
theorem keep_class {W : List Nat} {h h' : Heap} {me : Nat} {cls : String} {l : List (String × Val)}
    (k : Keeps W h h') (o : h[me]? = some (.inst cls l))
    (hw : ∀ w ∈ W, ∃ c l, h[w]? = some (.inst c l) ∧ c ≠ cls) : h'[me]? = some (.inst cls l) := by
  refine k.get o fun hm => ?_
  obtain ⟨c, l', e, hc⟩ := hw me hm
  rw [o] at e
  cases e
  exact hc rfl

theorem hmac_cells {s : Gost.Hmac} {hm hr : Nat} {h : Heap} (r : IsHmac s hm hr h) :
    (∃ l, h[hm]? = some (.inst "R5011132016" l)) ∧ ∃ l, h[hr]? = some (.inst "GOST34112012" l) := by
  obtain ⟨kv, o, o0, -, q, -⟩ := r
  exact ⟨⟨_, o0⟩, hash_obj q⟩

/-- A change of objects of other classes. -/
theorem hmac_keeps {s : Gost.Hmac} {hm hr me : Nat} {h h' : Heap} {cls : String} {l : List (String × Val)}
    (r : IsHmac s hm hr h) (o : h[me]? = some (.inst cls l)) (k : Keeps [me] h h') (h1 : cls ≠ "GOST34112012")
    (h2 : cls ≠ "ObjectIdentifier") (h3 : cls ≠ "R5011132016") : IsHmac s hm hr h' := by
  obtain ⟨kv, oo, o0, bk, q, ho⟩ := r
  have hw : ∀ c, cls ≠ c → ∀ w ∈ [me], ∃ c' l, h[w]? = some (.inst c' l) ∧ c' ≠ c := by
    intro c hc w hw
    rw [List.mem_singleton] at hw
    subst hw
    exact ⟨_, _, o, hc⟩
  exact ⟨kv, oo, keep_class k o0 (hw _ h3), k.bytes bk, hash_keeps q o k h1 h2, keep_class k ho (hw _ h2)⟩

/-- The object is another cell than those of the HMAC object. -/
theorem keeps_hmac {s : Gost.Hmac} {hm hr me : Nat} {h h' : Heap} {cls : String} {l : List (String × Val)}
    (r : IsHmac s hm hr h) (o : h[me]? = some (.inst cls l)) (k : Keeps [hm, hr] h h') (h1 : cls ≠ "GOST34112012")
    (h3 : cls ≠ "R5011132016") : h'[me]? = some (.inst cls l) := by
  obtain ⟨⟨_, o1⟩, _, o2⟩ := hmac_cells r
  refine keep_class k o fun w hw => ?_
  simp only [List.mem_cons, List.not_mem_nil, or_false] at hw
  rcases hw with rfl | rfl
  · exact ⟨_, _, o1, h3.symm⟩
  · exact ⟨_, _, o2, h1.symm⟩

theorem keeps_tail {a b c : Nat} {h h' : Heap} (k : Keeps [b, c] h h') : Keeps [a, b, c] h h' :=
  k.mono (by simp)

theorem keeps_head {a b c : Nat} {h h' : Heap} (k : Keeps [a] h h') : Keeps [a, b, c] h h' :=
  k.mono (by simp)

/-- `reset`, `update` and `digest` of the HMAC object. -/
theorem hmac_round (L n : Nat) {s : Gost.Pbkdf} {me : Nat} {c : Cells} {h : Heap} (r : PbkdfAt s me c h) {hm : Gost.Hmac}
    {h' : Heap} (k : Keeps [c.hmac, c.hash] h h') (q : IsHmac hm c.hmac c.hash h') :
    PbkdfAt { s with hmac := hm } me c h' :=
  ⟨keeps_hmac r.hmac r.obj k (by decide) (by decide), k.bytes r.pw, k.bytes r.salt, q⟩

theorem PbkdfAt.ext {s : Gost.Pbkdf} {me : Nat} {c : Cells} {h h' : Heap} (r : PbkdfAt s me c h) (x : Ext h h') :
    PbkdfAt s me c h' := by
  obtain ⟨kv, q⟩ := r.hmac
  exact ⟨x.get r.obj, x.bytesOf r.pw, x.bytesOf r.salt, kv, q.ext x⟩

/-- The changes of a derivation. -/
def Cells.all (c : Cells) (me : Nat) : List Nat := [me, c.hmac, c.hash]

/-- A program returns a new byte array, and the object is then `s`. -/
def Step (o : Out Val) (h : Heap) (W : List Nat) (b : Bytes) (P : Heap → Prop) : Prop :=
  ∃ h' r, o = ok (.ref r) h' ∧ Keeps W h h' ∧ h.length ≤ r ∧ bytesOf (.ref r) h' = some b ∧ P h'

theorem u_iter_ok (L n : Nat) {s : Gost.Pbkdf} {me : Nat} {c : Cells} {h : Heap} (r : PbkdfAt s me c h) {v : Val}
    {u : Bytes} (e : bytesOf v h = some u) :
    Step (call package L (n + 8) "R5011112016._u_iter" [.ref me, v] h) h [c.hmac, c.hash] (s.uIter u).2
      (PbkdfAt (s.uIter u).1 me c) := by
  rw [call_succ Fn.R5011112016._u_iter]
  obtain ⟨H1, f1, k1, q1⟩ := HmacSrc.reset_ok L (n + 4) r.hmac
  obtain ⟨⟨lo, o0⟩, -⟩ := hmac_cells r.hmac
  have r1 := hmac_round L n r k1 q1
  obtain ⟨⟨lo1, o1⟩, -⟩ := hmac_cells q1
  obtain ⟨kv, q1⟩ := q1
  obtain ⟨H2, f2, k2, q2⟩ := HmacSrc.update_ok L (n + 1) q1 (k1.bytes e)
  have r2 := hmac_round L n r1 k2 ⟨kv, q2⟩
  obtain ⟨⟨lo2, o2⟩, -⟩ := hmac_cells ⟨kv, q2⟩
  obtain ⟨w, l, f3, hw, b⟩ := (HmacSrc.digest_ok L n ⟨kv, q2⟩).elim
  py [R5011112016.m__u_iter, r.obj, Cells.attrs, o0, f1, r1.obj, o1, f2, r2.obj, o2, f3]
  exact ⟨_, _, rfl, (k1.trans k2).add l, Nat.le_trans (k1.trans k2).length hw, b, r2.ext ((Ext.refl H2).add l)⟩

theorem u_first_ok (L n : Nat) {s : Gost.Pbkdf} {me : Nat} {c : Cells} {h : Heap} (r : PbkdfAt s me c h) :
    Step (call package L (n + 8) "R5011112016._u_first" [.ref me] h) h [c.hmac, c.hash] s.uFirst.2
      (PbkdfAt s.uFirst.1 me c) := by
  rw [call_succ Fn.R5011112016._u_first]
  obtain ⟨H1, f1, k1, q1⟩ := HmacSrc.reset_ok L (n + 4) r.hmac
  obtain ⟨⟨lo, o0⟩, -⟩ := hmac_cells r.hmac
  have r1 := hmac_round L n r k1 q1
  obtain ⟨⟨lo1, o1⟩, -⟩ := hmac_cells q1
  obtain ⟨wi, li, fi, hwi, bi⟩ := (show NewBytes (call package L (n + 6 + 1) "Utils.int_to_bytearray"
    [.int s.counter, .int 4] H1) H1 _ from int_to_bytearray_ok L (n + 6) s.counter 4 H1).elim
  py [R5011112016.m__u_first, r.obj, Cells.attrs, o0, f1, r1.obj, o1, fi, get_mono o1 li, bi, bytesOf_mono r1.salt li]
  have b3 := bytesOf_last (s.salt ++ intToBytes s.counter 4) (H1 ++ li)
  have x := ((Ext.refl H1).add li).add [.bytearray (s.salt ++ intToBytes s.counter 4)]
  generalize H1 ++ li ++ [.bytearray (s.salt ++ intToBytes s.counter 4)] = H2 at *
  obtain ⟨kv, q1⟩ := q1
  obtain ⟨H3, f3, k3, q3⟩ := HmacSrc.update_ok L (n + 1) (q1.ext x) b3
  have r3 := hmac_round L n (r1.ext x) k3 ⟨kv, q3⟩
  obtain ⟨⟨lo3, o3⟩, -⟩ := hmac_cells ⟨kv, q3⟩
  obtain ⟨w, l, f4, hw, b⟩ := (HmacSrc.digest_ok L n ⟨kv, q3⟩).elim
  py [x.get o1, f3, r3.obj, Cells.attrs, o3, f4]
  have k := (k1.trans (x.keeps _)).trans k3
  exact ⟨_, _, rfl, k.add l, Nat.le_trans k.length hw, b, r3.ext ((Ext.refl H3).add l)⟩

/-- `for x in range(1, b)`. -/
theorem for_from1 {x : String} {body : Env → Heap → Out Flow} {b : Int} {env : Env} {h : Heap}
    {o : Out Flow} (hl : forLoop x body (pyRange 1 b 1) env h = o) (I : Nat → Env → Heap → Prop)
    (step : ∀ k env h, k < (b - 1).toNat → I k env h →
      ∃ env' h', body (env.set x (.int ((k + 1 : Nat) : Int))) h = ok (.next env') h' ∧ I (k + 1) env' h')
    (start : I 0 env h) :
    ∃ env' h', o = ok (.next env') h' ∧ I (b - 1).toNat env' h' := by
  have e : pyRange 1 b 1 = (List.range (b - 1).toNat).map fun k : Nat => .int ((k + 1 : Nat) : Int) := by
    unfold pyRange
    simp only [show (0 : Int) < 1 by decide, if_true]
    rw [show (b - 1 + 1 - 1).fdiv 1 = b - 1 by rw [Int.fdiv_one]; omega]
    refine List.map_congr_left fun k _ => ?_
    rw [show (1 : Int) + 1 * k = ((k + 1 : Nat) : Int) by omega]
  rw [e] at hl
  have := for_inv hl I (fun k v env h hv i => by
    rw [List.getElem?_map] at hv
    rcases Nat.lt_or_ge k (b - 1).toNat with hk | hk
    · rw [List.getElem?_range hk] at hv
      cases hv
      exact step k env h hk i
    · rw [List.getElem?_eq_none (by simpa using hk)] at hv
      cases hv) start
  simpa using this

/-- One turn of the loop of `_f`. -/
def fStep (st : Gost.Pbkdf × Bytes × Bytes) (_ : Nat) : Gost.Pbkdf × Bytes × Bytes :=
  ((st.1.uIter st.2.1).1, (st.1.uIter st.2.1).2, addXor st.2.2 (st.1.uIter st.2.1).2)

theorem f_eq (s : Gost.Pbkdf) : s.f =
    (((List.range (s.uFirst.1.uFirst.1.iterations - 1).toNat).foldl fStep (s.uFirst.1.uFirst.1, s.uFirst.1.uFirst.2, s.uFirst.2)).1,
     ((List.range (s.uFirst.1.uFirst.1.iterations - 1).toNat).foldl fStep (s.uFirst.1.uFirst.1, s.uFirst.1.uFirst.2, s.uFirst.2)).2.2) :=
  (rfl)

theorem f_ok (L n : Nat) {s : Gost.Pbkdf} {me : Nat} {c : Cells} {h : Heap} (r : PbkdfAt s me c h) :
    Step (call package L (n + 9) "R5011112016._f" [.ref me] h) h [c.hmac, c.hash] s.f.2
      (PbkdfAt s.f.1 me c) := by
  rw [call_succ Fn.R5011112016._f]
  obtain ⟨H1, w1, f1, k1, hw1, b1, r1⟩ := u_first_ok L n r
  obtain ⟨H2, w2, f2, k2, hw2, b2, r2⟩ := u_first_ok L n r1
  py [R5011112016.m__f, r.obj, f1, r1.obj, f2, r2.obj, Cells.attrs]
  rw [f_eq]
  generalize s.uFirst.1.uFirst = p at *
  generalize s.uFirst.2 = t at *
  generalize hl : forLoop _ _ _ _ _ = res
  obtain ⟨env, h', rfl, i1, i2, w, v, i3, i4, hw, i5, i6, i7⟩ := for_from1 hl (fun j env h' =>
    Keeps [c.hmac, c.hash] h h' ∧ env "self" = some (.ref me) ∧ ∃ w v, env "_t" = some (.ref w) ∧
      env "internal" = some v ∧ h.length ≤ w ∧
      bytesOf v h' = some ((List.range j).foldl fStep (p.1, p.2, t)).2.1 ∧
      bytesOf (.ref w) h' = some ((List.range j).foldl fStep (p.1, p.2, t)).2.2 ∧
      PbkdfAt ((List.range j).foldl fStep (p.1, p.2, t)).1 me c h')
    (by
      rintro j env h' - ⟨i1, i2, w, v, i3, i4, hw, i5, i6, i7⟩
      rw [List.range_succ, List.foldl_append]
      generalize (List.range j).foldl fStep (p.1, p.2, t) = st at *
      obtain ⟨H3, w3, f3, k3, hw3, b3, r3⟩ := u_iter_ok L n i7 i5
      obtain ⟨w4, l4, f4, hw4, b4⟩ := (add_xor_ok L (n + 7) (k3.bytes i6) b3).elim
      refine ⟨_, _, by py [i2, i3, i4, i7.obj, f3, f4]; rfl, (i1.trans k3).add l4, ?_⟩
      py [i2]
      exact ⟨trivial, _, _, rfl, rfl, Nat.le_trans (i1.trans k3).length hw4, bytesOf_mono b3 l4, b4,
        r3.ext ((Ext.refl H3).add l4)⟩)
    (by py []; exact ⟨k1.trans k2, trivial, _, _, rfl, rfl, hw1, b2, k2.bytes b1, r2⟩)
  py [i3]
  exact ⟨_, _, rfl, i1, hw, i6, i7⟩

theorem fdiv_64 (x : Int) : arith .floordiv x 64 = .ok (x.fdiv 64) := (rfl)

theorem fmod_64 (x : Int) : arith .mod x 64 = .ok (x.fmod 64) := (rfl)

/-- One turn of the loop of `_calculate_pbkdf`. -/
def calcStep (st : Gost.Pbkdf × Bytes) (i : Nat) : Gost.Pbkdf × Bytes :=
  (({ st.1 with counter := i + 1 } : Gost.Pbkdf).f.1, st.2 ++ ({ st.1 with counter := i + 1 } : Gost.Pbkdf).f.2)

/-- The number of blocks. -/
def numBlocks (d : Int) : Int := if d.fmod 64 ≠ 0 then d.fdiv 64 + 1 else d.fdiv 64

theorem calculate_eq (s : Gost.Pbkdf) (d : Int) :
    s.calculate d = (List.range (numBlocks d).toNat).foldl calcStep (s, []) := (rfl)

/-- The assignments to `_num_block`. -/
theorem set_blocks (L n : Nat) {s : Gost.Pbkdf} {me : Nat} {c : Cells} {h : Heap} (r : PbkdfAt s me c h) (d : Int)
    {env : Env} (e1 : env "self" = some (.ref me)) (e2 : env "dk_len" = some (.int d)) (rest : List Stmt) :
    ∃ h', execs (ctx L n) (.assign (.attr (.name "self") "_num_block") (.bin .floordiv (.name "dk_len") (.glob
         "Pbkdf._BLOCK_SIZE")) ::
     .if_ (.cmp .ne (.bin .mod (.name "dk_len") (.glob "Pbkdf._BLOCK_SIZE")) (.int 0))
        [.assign (.attr (.name "self") "_num_block") (.bin .add (.attr (.name "self")
            "_num_block") (.int 1))]
        [] :: rest) env h = execs (ctx L n) rest env h' ∧ Keeps [me] h h' ∧
      PbkdfAt s me { c with blocks := numBlocks d } h' := by
  have o0 := r.obj
  unfold Cells.attrs at o0
  py [e1, e2, fdiv_64]
  upd o0 with H1 o1 k1 m1
  have q1 := hmac_keeps r.hmac o0 k1 (by decide) (by decide) (by decide)
  unfold numBlocks
  by_cases hd : d.fmod 64 = 0
  · have hd' : (d.fmod 64 = 0) = True := by simp [hd]
    py [e1, e2, fmod_64, hd', decide_true, not_true_eq_false, Bool.not_true]
    rw [if_neg (not_not_intro hd)]
    exact ⟨H1, rfl, k1, o1, k1.bytes r.pw, k1.bytes r.salt, q1⟩
  · have hd' : (d.fmod 64 = 0) = False := by simp [hd]
    py [e1, e2, fmod_64, hd', decide_false, not_false_eq_true, Bool.not_false, o1]
    upd o1 with H2 o2 k2 m2
    have q2 := hmac_keeps q1 o1 k2 (by decide) (by decide) (by decide)
    have k := k1.trans k2
    try simp only [execs_nil, thenRun_next]
    rw [if_pos hd]
    exact ⟨H2, rfl, k, o2, k.bytes r.pw, k.bytes r.salt, q2⟩

theorem calculate_ok (L n : Nat) {s : Gost.Pbkdf} {me : Nat} {c : Cells} {h : Heap} (r : PbkdfAt s me c h) (d : Int) :
    Step (call package L (n + 10) "R5011112016._calculate_pbkdf" [.ref me, .int d] h) h [me, c.hmac, c.hash]
      (s.calculate d).2 (PbkdfAt (s.calculate d).1 me { c with blocks := numBlocks d }) := by
  rw [call_succ Fn.R5011112016._calculate_pbkdf]
  rw [run_body h rfl rfl]
  unfold R5011112016.m__calculate_pbkdf
  rw [execs_assign (v := .ref h.length) (h' := h ++ [.bytearray []]) (by py [])]
  have x0 := (Ext.refl h).add [.bytearray []]
  obtain ⟨H1, f1, k1, r1⟩ := set_blocks L (n + 9) (r.ext x0) d
    (env := ((Env.empty.set "self" (.ref me)).set "dk_len" (.int d)).set "result" (.ref h.length)) (by py []) (by py [])
    [.for_ "i" (.builtin "range" [.int 1, .bin .add (.attr (.name "self") "_num_block") (.int 1)])
        [.assign (.attr (.name "self") "_counter") (.name "i"),
         .assign (.name "result") (.bin .add (.name "result") (.meth (.name "self") "_f" []))],
     .ret (.name "result")]
  have b1 := k1.bytes (bytesOf_last [] h)
  have k0 := keeps_head (b := c.hmac) (c := c.hash) ((x0.keeps _).trans k1)
  rw [f1, calculate_eq]
  unfold atEnd
  py [r1.obj, Cells.attrs]
  generalize hl : forLoop _ _ _ _ _ = res
  obtain ⟨env, h', rfl, i1, i2, w, i3, hw, i5, i6⟩ := for_from1 hl (fun j env h' =>
    Keeps [me, c.hmac, c.hash] h h' ∧ env "self" = some (.ref me) ∧ ∃ w, env "result" = some (.ref w) ∧
      h.length ≤ w ∧ bytesOf (.ref w) h' = some ((List.range j).foldl calcStep (s, [])).2 ∧
      PbkdfAt ((List.range j).foldl calcStep (s, [])).1 me { c with blocks := numBlocks d } h')
    (by
      rintro j env h' - ⟨i1, i2, w, i3, hw, i5, i6⟩
      rw [List.range_succ, List.foldl_append]
      generalize (List.range j).foldl calcStep (s, []) = st at *
      have o0 := i6.obj
      unfold Cells.attrs at o0
      py [i2]
      upd o0 with H1 o1 k1 m1
      have q1 := hmac_keeps i6.hmac o0 k1 (by decide) (by decide) (by decide)
      have r1 : PbkdfAt { st.1 with counter := j + 1 } me { c with blocks := numBlocks d } H1 :=
        ⟨o1, k1.bytes i6.pw, k1.bytes i6.salt, q1⟩
      obtain ⟨H2, w2, f2, k2, hw2, b2, r2⟩ := f_ok L n r1
      py [i2, i3, o1, f2, k2.bytes (k1.bytes i5), b2]
      have k := (i1.trans (keeps_head k1)).trans (keeps_tail k2)
      refine ⟨_, _, rfl, k.add _, ?_⟩
      py [i2]
      exact ⟨trivial, _, rfl, k.length, bytesOf_last _ _, r2.ext ((Ext.refl H2).add _)⟩)
    (by py []; exact ⟨k0, trivial, _, rfl, Nat.le_refl _, b1, r1⟩)
  rw [show numBlocks d + 1 - 1 = numBlocks d by omega] at i5 i6
  py [i3]
  exact ⟨_, _, rfl, i1, hw, i5, i6⟩

/-- The largest length. -/
theorem len_bound (d : Int) : (d > (2 ^ 32 - 1) * 64) = (d > 274877906880) := by
  rw [show ((2 : Int) ^ 32 - 1) * 64 = 274877906880 by decide]

theorem pow_2_32 : arith .pow 2 32 = .ok 4294967296 := (rfl)

theorem derive_ok (L n : Nat) {s : Gost.Pbkdf} {me : Nat} {c : Cells} {h : Heap} (r : PbkdfAt s me c h) (d : Int)
    (hd : d ≤ (2 ^ 32 - 1) * 64) :
    Step (call package L (n + 11) "R5011112016.derive" [.ref me, .int d] h) h [me, c.hmac, c.hash]
      (pyUpto (s.calculate d).2 d) (PbkdfAt (s.calculate d).1 me { c with blocks := numBlocks d }) := by
  rw [call_succ Fn.R5011112016.derive]
  have hd' : (d > 274877906880) = False := by simp; omega
  obtain ⟨H1, w1, f1, k1, hw1, b1, r1⟩ := calculate_ok L n r d
  py [R5011112016.m_derive, pow_2_32, show (4294967296 : Int) - 1 = 4294967295 by decide,
    show (4294967295 : Int) * 64 = 274877906880 by decide, hd', decide_false, r.obj, f1, getSlice_ref b1]
  exact ⟨_, _, rfl, k1.add _, k1.length, bytesOf_last _ _, r1.ext ((Ext.refl H1).add _)⟩

theorem derive_large (L n : Nat) (me : Nat) (h : Heap) (d : Int) (hd : (2 ^ 32 - 1) * 64 < d) :
    call package L (n + 1) "R5011112016.derive" [.ref me, .int d] h =
      fail (.raised "GOSTPBKDFError" "GOSTPBKDFError: invalid size of the derived key") h := by
  rw [call_succ Fn.R5011112016.derive]
  have hd' : (d > 274877906880) = True := by simp; omega
  py [R5011112016.m_derive, pow_2_32, show (4294967296 : Int) - 1 = 4294967295 by decide,
    show (4294967295 : Int) * 64 = 274877906880 by decide, hd', decide_true]

theorem hexderive_ok (L n : Nat) {s : Gost.Pbkdf} {me : Nat} {c : Cells} {h : Heap} (r : PbkdfAt s me c h) (d : Int)
    (hd : d ≤ (2 ^ 32 - 1) * 64) :
    ∃ h', call package L (n + 11) "R5011112016.hexderive" [.ref me, .int d] h =
        ok (.str (String.ofList (pyHex (pyUpto (s.calculate d).2 d)))) h' ∧ Keeps [me, c.hmac, c.hash] h h' ∧
      PbkdfAt (s.calculate d).1 me { c with blocks := numBlocks d } h' := by
  rw [call_succ Fn.R5011112016.hexderive]
  have hd' : (d > 274877906880) = False := by simp; omega
  obtain ⟨H1, w1, f1, k1, hw1, b1, r1⟩ := calculate_ok L n r d
  py [R5011112016.m_hexderive, pow_2_32, show (4294967296 : Int) - 1 = 4294967295 by decide,
    show (4294967295 : Int) * 64 = 274877906880 by decide, hd', decide_false, r.obj, f1, getSlice_ref b1]
  rw [builtin_hex (bytesOf_last _ _)]
  py []
  exact ⟨_, rfl, k1.add _, r1.ext ((Ext.refl H1).add _)⟩

theorem hexderive_large (L n : Nat) (me : Nat) (h : Heap) (d : Int) (hd : (2 ^ 32 - 1) * 64 < d) :
    call package L (n + 1) "R5011112016.hexderive" [.ref me, .int d] h =
      fail (.raised "GOSTPBKDFError" "GOSTPBKDFError: invalid size of the derived key") h := by
  rw [call_succ Fn.R5011112016.hexderive]
  have hd' : (d > 274877906880) = True := by simp; omega
  py [R5011112016.m_hexderive, pow_2_32, show (4294967296 : Int) - 1 = 4294967295 by decide,
    show (4294967295 : Int) * 64 = 274877906880 by decide, hd', decide_true]

theorem clear_ok (L n : Nat) {s : Gost.Pbkdf} {me : Nat} {c : Cells} {h : Heap} (r : PbkdfAt s me c h) :
    ∃ h' c', call package L (n + 2) "R5011112016.clear" [.ref me] h = ok .none h' ∧ Keeps [me] h h' ∧
      PbkdfAt s.clear me c' h' ∧ c'.hmac = c.hmac ∧ c'.hash = c.hash := by
  rw [call_succ Fn.R5011112016.clear]
  have o0 := r.obj
  unfold Cells.attrs at o0
  obtain ⟨w2, l2, f2, hw2, b2⟩ := (zero_fill_ok L n r.pw).elim
  py [R5011112016.m_clear, o0, f2]
  upd (get_mono o0 _) with H1 o1 k1 m1
  have r0 := r.ext ((Ext.refl h).add l2)
  have q1 := hmac_keeps r0.hmac (get_mono o0 _) k1 (by decide) (by decide) (by decide)
  exact ⟨H1, { c with password := .ref w2 }, rfl, ((Keeps.refl _ _).add l2).trans k1,
    ⟨o1, k1.bytes b2, k1.bytes r0.salt, q1⟩, rfl, rfl⟩

theorem salt_ok (L n : Nat) {s : Gost.Pbkdf} {me : Nat} {c : Cells} {h : Heap} (r : PbkdfAt s me c h) :
    call package L (n + 1) "R5011112016.salt" [.ref me] h = ok (.ref c.salt) h := by
  rw [call_succ Fn.R5011112016.salt]
  py [R5011112016.m_salt, r.obj, Cells.attrs]

/-! The constructor. -/

/-- The source of random bytes returns `b` next. -/
def NextRandom (b : Bytes) (h : Heap) : Prop := ∃ l, h[0]? = some (.list (.bytes b :: l))

/-- A change of a list. -/
theorem keeps_setList {h : Heap} {r : Nat} {l l' : List Val} (o : h[r]? = some (.list l)) :
    Keeps [r] h (h.set r (.list l')) :=
  ⟨(Frame.refl _ _).set (by simp) _, fun {v b} e => by
    rw [bytesOf_set v (by rw [o]; rfl) rfl, e]⟩

theorem urandom_ok (C : Ctx) {b : Bytes} {h : Heap} (r : NextRandom b h) (n : Nat) (hb : b.length = n) :
    ∃ h', applyBuiltin C "os.urandom" [.int n] h = ok (.bytes b) h' ∧ Keeps [0] h h' ∧ h'.length = h.length := by
  obtain ⟨l, e⟩ := r
  refine ⟨h.set 0 (.list l), ?_, keeps_setList e, by simp⟩
  show builtin "os.urandom" [.int n] h = _
  have hb' : (b.length : Int) = n := by omega
  simp only [builtin, e, if_pos hb']

/-- The first statements with a salt. -/
theorem init_salt (L n : Nat) {me : Nat} {h : Heap} (o : h[me]? = some (.inst "R5011112016" [])) {pv sv : Val}
    {pw salt : Bytes} (ep : bytesOf pv h = some pw) (es : bytesOf sv h = some salt) (hs : salt ≠ [])
    {env : Env} (e1 : env "self" = some (.ref me)) (e2 : env "password" = some pv) (e3 : env "salt" = some sv)
    (rest : List Stmt) :
    ∃ h' p, execs (ctx L n) (
     .assign (.attr (.name "self") "_password") (.builtin "bytearray" [.name "password"]) ::
     .assign (.attr (.name "self") "_salt") (.name "salt") ::
     .if_ (.cmp .eq (.attr (.name "self") "_salt") (.builtin "bytearray" [.bytes []]))
        [.assign (.attr (.name "self") "_salt") (.builtin "bytearray" [.builtin "os.urandom"
            [.int 32]])]
        [] :: rest) env h = execs (ctx L n) rest env h' ∧ Keeps [me] h h' ∧
      h'[me]? = some (.inst "R5011112016" [("_password", .ref p), ("_salt", sv)]) ∧ h.length ≤ p ∧
      bytesOf (.ref p) h' = some pw := by
  py [e1, e2, ep]
  upd (get_mono o _) with H1 o1 k1 m1
  have k0 : Keeps [me] h H1 := ((Keeps.refl _ _).add _).trans k1
  have bp := k1.bytes (bytesOf_last pw h)
  py [e1, e3]
  upd o1 with H2 o2 k2 m2
  have k := k0.trans k2
  have hs' : (some salt == some ([] : Bytes)) = false := by simpa using hs
  py [e1, o2, k.bytes es, hs']
  exact ⟨_, h.length, rfl, k.add _, get_mono o2 _, Nat.le_refl _, bytesOf_mono (k2.bytes bp) _⟩

/-- The first statements without a salt. -/
theorem init_random (L n : Nat) {me : Nat} {h : Heap} (o : h[me]? = some (.inst "R5011112016" [])) {pv sv : Val}
    {pw salt : Bytes} (ep : bytesOf pv h = some pw) (es : bytesOf sv h = some []) (hr : NextRandom salt h)
    (hl : salt.length = 32)
    {env : Env} (e1 : env "self" = some (.ref me)) (e2 : env "password" = some pv) (e3 : env "salt" = some sv)
    (rest : List Stmt) :
    ∃ h' p r, execs (ctx L n) (
     .assign (.attr (.name "self") "_password") (.builtin "bytearray" [.name "password"]) ::
     .assign (.attr (.name "self") "_salt") (.name "salt") ::
     .if_ (.cmp .eq (.attr (.name "self") "_salt") (.builtin "bytearray" [.bytes []]))
        [.assign (.attr (.name "self") "_salt") (.builtin "bytearray" [.builtin "os.urandom"
            [.int 32]])]
        [] :: rest) env h = execs (ctx L n) rest env h' ∧ Keeps [me, 0] h h' ∧
      h'[me]? = some (.inst "R5011112016" [("_password", .ref p), ("_salt", .ref r)]) ∧ h.length ≤ p ∧
      bytesOf (.ref p) h' = some pw ∧ bytesOf (.ref r) h' = some salt := by
  have hme : me ≠ 0 := by
    rintro rfl
    obtain ⟨l, e⟩ := hr
    rw [o] at e
    cases e
  py [e1, e2, ep]
  upd (get_mono o _) with H1 o1 k1 m1
  have k0 : Keeps [me] h H1 := ((Keeps.refl _ _).add _).trans k1
  have bp := k1.bytes (bytesOf_last pw h)
  py [e1, e3]
  upd o1 with H2 o2 k2 m2
  have k := k0.trans k2
  have hr2 : NextRandom salt (H2 ++ [.bytearray []]) := by
    obtain ⟨l, e⟩ := hr
    exact ⟨l, get_mono (k.get e (by simpa using hme.symm)) _⟩
  obtain ⟨H3, f3, k3, l3⟩ := urandom_ok (ctx L n) hr2 32 hl
  have f3 : applyBuiltin (ctx L n) "os.urandom" [.int 32] (H2 ++ [.bytearray []]) = ok (.bytes salt) H3 := f3
  have o3 := k3.get (get_mono o2 [.bytearray []]) (by simpa using hme)
  py [e1, o2, k.bytes es, f3]
  upd (get_mono o3 _) with H4 o4 k4 m4
  simp only [execs_nil, thenRun_next]
  refine ⟨H4, h.length, _, rfl, (((keeps_left k).add _).trans (keeps_right k3)).trans (((Keeps.refl _ _).add _).trans
    (keeps_left k4)), o4, Nat.le_refl _, k4.bytes (bytesOf_mono (k3.bytes (bytesOf_mono (k2.bytes bp) _)) _),
    k4.bytes (bytesOf_last _ _)⟩

/-- The other statements. -/
theorem init_rest (L n : Nat) {me p : Nat} {sv : Val} {h : Heap} {pw salt : Bytes}
    (o : h[me]? = some (.inst "R5011112016" [("_password", .ref p), ("_salt", sv)]))
    (bp : bytesOf (.ref p) h = some pw) (bs : bytesOf sv h = some salt) {pv : Val} (ep : bytesOf pv h = some pw) (it : Int)
    {env : Env} (e1 : env "self" = some (.ref me)) (e2 : env "password" = some pv)
    (e3 : env "iterations" = some (.int it)) :
    (pw.length ≤ 64 → ∃ h' c, atEnd (execs (ctx L (n + 7)) [
     .if_ (.not (.builtin "isbytes" [.attr (.name "self") "_salt"]))
        [.assign (.name "password") (.call "Utils.zero_fill" [.name "password"]),
         .assign (.attr (.name "self") "_password") (.call "Utils.zero_fill" [.attr (.name
             "self") "_password"]),
         .raise "GOSTPBKDFError" "GOSTPBKDFError: invalid salt value"]
        [],
     .assign (.attr (.name "self") "_salt") (.builtin "bytearray" [.attr (.name "self") "_salt"]),
     .assign (.attr (.name "self") "_iterations") (.name "iterations"),
     .assign (.attr (.name "self") "_num_block") (.int 0),
     .assign (.attr (.name "self") "_counter") (.int 0),
     .assign (.attr (.name "self") "_hmac_obj") (.new "R5011132016" [.str
         "HMAC_GOSTR3411_2012_512", .attr (.name "self") "_password", .builtin "bytearray"
         [.bytes []]]),
     .assign (.name "password") (.call "Utils.zero_fill" [.name "password"])] env h) = ok .none h' ∧ Keeps [me] h h' ∧
      h.length ≤ c.hmac ∧ h.length ≤ c.hash ∧
      PbkdfAt ⟨pw, salt, it, 0, initOf "HMAC_GOSTR3411_2012_512" pw⟩ me c h') ∧
    (64 < pw.length → ∃ h', atEnd (execs (ctx L (n + 7)) [
     .if_ (.not (.builtin "isbytes" [.attr (.name "self") "_salt"]))
        [.assign (.name "password") (.call "Utils.zero_fill" [.name "password"]),
         .assign (.attr (.name "self") "_password") (.call "Utils.zero_fill" [.attr (.name
             "self") "_password"]),
         .raise "GOSTPBKDFError" "GOSTPBKDFError: invalid salt value"]
        [],
     .assign (.attr (.name "self") "_salt") (.builtin "bytearray" [.attr (.name "self") "_salt"]),
     .assign (.attr (.name "self") "_iterations") (.name "iterations"),
     .assign (.attr (.name "self") "_num_block") (.int 0),
     .assign (.attr (.name "self") "_counter") (.int 0),
     .assign (.attr (.name "self") "_hmac_obj") (.new "R5011132016" [.str
         "HMAC_GOSTR3411_2012_512", .attr (.name "self") "_password", .builtin "bytearray"
         [.bytes []]]),
     .assign (.name "password") (.call "Utils.zero_fill" [.name "password"])] env h) =
       fail (.raised "GOSTHMACError" "GOSTHMACError: invalid key value") h' ∧ Keeps [me] h h') := by
  unfold atEnd
  rw [execs_skip (h' := h) (by py [e1, o, bs])]
  py [e1, o, bs]
  upd (get_mono o _) with H1 o1 k1 m1
  py [e1, e3]
  upd o1 with H2 o2 k2 m2
  py [e1]
  upd o2 with H3 o3 k3 m3
  py [e1]
  upd o3 with H4 o4 k4 m4
  have kk := ((k1.trans k2).trans k3).trans k4
  have k : Keeps [me] h H4 := ((Keeps.refl _ _).add _).trans kk
  have bs4 := kk.bytes (bytesOf_last salt h)
  have bp4 := k.bytes bp
  have x := (Ext.refl H4).add [.bytearray []]
  py [e1, o4]
  constructor
  · intro hl
    obtain ⟨H5, hr, kv', f5, x5, hhr, -, q5⟩ := (hmac_new L n (H4 ++ [.bytearray []]) (Or.inr rfl) (x.bytesOf bp4) hl (.ref H4.length)).1 []
      (bytesOf_last _ _)
    rw [if_pos rfl] at q5
    have x5 := x.trans x5
    have hh : h.length ≤ (H4 ++ [Obj.bytearray []]).length := Nat.le_trans k.length x.length
    py [f5, e1]
    generalize (H4 ++ [Obj.bytearray []]).length = hm at *
    upd (x5.get o4) with H6 o6 k6 m6
    have q6 := hmac_keeps ⟨_, q5⟩ (x5.get o4) k6 (by decide) (by decide) (by decide)
    obtain ⟨w7, l7, f7, hw7, b7⟩ := (zero_fill_ok L (n + 6) (k6.bytes (x5.bytesOf (k.bytes ep)))).elim
    py [e2, f7]
    have k' := (k.trans (x5.keeps _)).trans k6
    refine ⟨_, ⟨.ref p, h.length, 0, hm, hr⟩, rfl, k'.add _, hh, Nat.le_trans hh hhr, ?_⟩
    exact PbkdfAt.ext ⟨o6, k6.bytes (x5.bytesOf bp4), k6.bytes (x5.bytesOf bs4), q6⟩ ((Ext.refl _).add l7)
  · intro hl
    unfold instantiate
    py []
    rw [init_key L (n + 6) (Or.inr rfl) (by
      intro key e
      rw [bytesOf_mono (x.bytesOf bp4) _] at e
      cases e
      exact hl)]
    py []
    exact ⟨_, rfl, (k.add _).add _⟩

/-- What the constructor makes. -/
def initOf (pw salt : Bytes) (it : Int) : Gost.Pbkdf :=
  ⟨pw, salt, it, 0, HmacSrc.initOf "HMAC_GOSTR3411_2012_512" pw⟩

/-- The salt which is used: the one given, or 32 random bytes. The cells `W` are changed. -/
def SaltArg (sv : Val) (h : Heap) (salt : Bytes) (W : List Nat) : Prop :=
  (bytesOf sv h = some salt ∧ salt ≠ [] ∧ W = []) ∨
  (bytesOf sv h = some [] ∧ NextRandom salt h ∧ salt.length = 32 ∧ W = [0])

theorem SaltArg.keeps {sv : Val} {h h' : Heap} {salt : Bytes} {W : List Nat} {U : List Nat} (a : SaltArg sv h salt W)
    (k : Keeps U h h') (hu : ∀ u ∈ U, h.length ≤ u) : SaltArg sv h' salt W := by
  rcases a with ⟨a, b, c⟩ | ⟨a, ⟨l, b⟩, c, d⟩
  · exact Or.inl ⟨k.bytes a, b, c⟩
  · exact Or.inr ⟨k.bytes a, ⟨l, k.get b (fun hm => by have := hu 0 hm; have := get_lt b; omega)⟩, c, d⟩

/-- `__init__`. -/
theorem init_ok (L n : Nat) {me : Nat} {h : Heap} (o : h[me]? = some (.inst "R5011112016" []))
    {pv sv : Val} {pw salt : Bytes} {W : List Nat} (ep : bytesOf pv h = some pw) (es : SaltArg sv h salt W) (it : Int) :
    (pw.length ≤ 64 → ∃ h' c, call package L (n + 8) "R5011112016.__init__" [.ref me, pv, sv, .int it] h = ok .none h' ∧
      Keeps (me :: W) h h' ∧ h.length ≤ c.hmac ∧ h.length ≤ c.hash ∧ PbkdfAt (initOf pw salt it) me c h') ∧
    (64 < pw.length → ∃ h', call package L (n + 8) "R5011112016.__init__" [.ref me, pv, sv, .int it] h =
      fail (.raised "GOSTHMACError" "GOSTHMACError: invalid key value") h' ∧ Keeps (me :: W) h h') := by
  rw [call_succ Fn.R5011112016.__init__]
  rw [run_body h rfl rfl]
  unfold R5011112016.m___init__
  rw [execs_skip (h' := h) (by py [ep])]
  rcases es with ⟨b, hne, rfl⟩ | ⟨b, hr, hl, rfl⟩
  · obtain ⟨H1, p, f1, k1, o1, hp, b1⟩ := init_salt L (n + 7) o ep b hne
      (env := (((Env.empty.set "self" (.ref me)).set "password" pv).set "salt" sv).set "iterations" (.int it)) (by py []) (by py []) (by py []) _
    rw [f1]
    obtain ⟨p1, p2⟩ := init_rest L n o1 b1 (k1.bytes b) (k1.bytes ep) it
      (env := (((Env.empty.set "self" (.ref me)).set "password" pv).set "salt" sv).set "iterations" (.int it)) (by py []) (by py []) (by py [])
    constructor
    · intro hl
      obtain ⟨h', c, f, k, h1, h2, r⟩ := p1 hl
      exact ⟨h', c, f, k1.trans k, Nat.le_trans k1.length h1, Nat.le_trans k1.length h2, r⟩
    · intro hl
      obtain ⟨h', f, k⟩ := p2 hl
      exact ⟨h', f, k1.trans k⟩
  · obtain ⟨H1, p, sr, f1, k1, o1, hp, b1, bs⟩ := init_random L (n + 7) o ep b hr hl
      (env := (((Env.empty.set "self" (.ref me)).set "password" pv).set "salt" sv).set "iterations" (.int it)) (by py []) (by py []) (by py []) _
    rw [f1]
    obtain ⟨p1, p2⟩ := init_rest L n o1 b1 bs (k1.bytes ep) it
      (env := (((Env.empty.set "self" (.ref me)).set "password" pv).set "salt" sv).set "iterations" (.int it)) (by py []) (by py []) (by py [])
    constructor
    · intro hl
      obtain ⟨h', c, f, k, h1, h2, r⟩ := p1 hl
      exact ⟨h', c, f, k1.trans (keeps_left k), Nat.le_trans k1.length h1, Nat.le_trans k1.length h2, r⟩
    · intro hl
      obtain ⟨h', f, k⟩ := p2 hl
      exact ⟨h', f, k1.trans (keeps_left k)⟩

/-- `__init__` with something else as password. -/
theorem init_password (L n : Nat) {me : Nat} {h : Heap} {pv : Val} (ep : bytesOf pv h = none) (sv iv : Val) :
    call package L (n + 1) "R5011112016.__init__" [.ref me, pv, sv, iv] h =
      fail (.raised "GOSTPBKDFError" "GOSTPBKDFError: invalid password value") h := by
  rw [call_succ Fn.R5011112016.__init__]
  py [R5011112016.m___init__, ep]

/-- `__init__` with something else as salt. -/
theorem init_badsalt (L n : Nat) {me : Nat} {h0 h : Heap} (o : h[me]? = some (.inst "R5011112016" []))
    (hm : h0.length ≤ me) (k0 : Keeps [me] h0 h)
    {pv sv : Val} {pw : Bytes} (ep : bytesOf pv h0 = some pw) (es : Other sv h0) (iv : Val) :
    ∃ h', call package L (n + 2) "R5011112016.__init__" [.ref me, pv, sv, iv] h =
      fail (.raised "GOSTPBKDFError" "GOSTPBKDFError: invalid salt value") h' ∧ Keeps [me] h0 h' ∧
      ∃ l v, h'[me]? = some (.inst "R5011112016" l) ∧ findAttr "_password" l = some v ∧
        bytesOf v h' = some (zeroFill pw) := by
  rw [call_succ Fn.R5011112016.__init__]
  have ep0 := k0.bytes ep
  py [R5011112016.m___init__, ep0]
  upd (get_mono o _) with H1 o1 k1 m1
  py []
  upd o1 with H2 o2 k2 m2
  have k := (k0.add _).trans (k1.trans k2)
  have es2 := (es.keeps (k.add [.bytearray []]) (by simpa using hm)).1
  have bp := (k1.trans k2).bytes (bytesOf_last pw h)
  have ep2 := k.bytes ep
  py [o2, es2]
  have hb : (none == some ([] : Bytes)) = false := by decide
  simp only [hb]
  obtain ⟨w3, l3, f3, hw3, b3⟩ := (zero_fill_ok L n (bytesOf_mono ep2 [.bytearray []])).elim
  obtain ⟨w4, l4, f4, hw4, b4⟩ := (zero_fill_ok L n (bytesOf_mono (bytesOf_mono bp [.bytearray []]) l3)).elim
  py [es2, f3, o2, f4]
  upd (get_mono (get_mono (get_mono o2 _) _) _) with H3 o3 k3 m3
  exact ⟨H3, rfl, (((k.add _).add _).add _).trans k3, _, _, o3, by py [], k3.bytes b4⟩

/-- The values of `salt` and `counter` among the keyword arguments. -/
def saltVal (l : List (String × Val)) (d : Val) : Val := (findAttr "salt" l).getD d

def counterVal (l : List (String × Val)) : Val := (findAttr "counter" l).getD (.int 1000)

theorem new_ok (L n : Nat) (h : Heap) {pv : Val} {pw salt : Bytes} {W : List Nat} (l : List (String × Val))
    (ep : bytesOf pv h = some pw) (es : SaltArg (saltVal l (.bytes [])) h salt W) {it : Int}
    (hi : counterVal l = .int it) :
    (pw.length ≤ 64 → ∃ h' r c, call package L (n + 9) "Pbkdf.new" [pv, .dict l] h = ok (.ref r) h' ∧
      Keeps W h h' ∧ h.length ≤ r ∧ h.length ≤ c.hmac ∧ h.length ≤ c.hash ∧ PbkdfAt (initOf pw salt it) r c h') ∧
    (64 < pw.length → ∃ h', call package L (n + 9) "Pbkdf.new" [pv, .dict l] h =
      fail (.raised "GOSTHMACError" "GOSTHMACError: invalid key value") h' ∧ Keeps W h h') := by
  rw [call_succ Fn.Pbkdf.new]
  have x := (Ext.refl h).add [.bytearray []]
  have y := x.add [.inst "R5011112016" []]
  have es' : SaltArg (saltVal l (.ref h.length)) (h ++ [.bytearray []] ++ [.inst "R5011112016" []]) salt W := by
    have e0 := es.keeps (y.keeps []) (by simp)
    unfold saltVal at *
    cases hf : findAttr "salt" l with
    | some v => rw [hf] at e0; exact e0
    | none =>
      rw [hf] at e0
      rcases e0 with ⟨a, b, c⟩ | ⟨a, b⟩
      · cases a
        exact absurd rfl b
      · exact Or.inr ⟨bytesOf_mono (bytesOf_last [] h) _, b⟩
  py [Pbkdf.f_new]
  rw [show (findAttr "salt" l).getD (.ref h.length) = saltVal l (.ref h.length) from rfl,
    show (findAttr "counter" l).getD (.int 1000) = counterVal l from rfl, hi]
  unfold instantiate
  py []
  obtain ⟨p1, p2⟩ := init_ok L n (get_last (h ++ [.bytearray []]) (.inst "R5011112016" [])) (y.bytesOf ep) es' it
  have hlen : h.length ≤ (h ++ [Obj.bytearray []]).length := x.length
  have hle := y.length
  generalize (h ++ [Obj.bytearray []]).length = me at *
  have hk : ∀ {h'}, Keeps (me :: W) (h ++ [.bytearray []] ++ [.inst "R5011112016" []]) h' → Keeps W h h' := fun k =>
    (y.keeps _).then k (by
      intro w hw
      rw [List.mem_cons] at hw
      rcases hw with rfl | hw
      · exact Or.inr hlen
      · exact Or.inl hw)
  constructor
  · intro hl
    obtain ⟨h', c, f, k, h1, h2, r⟩ := p1 hl
    py [f]
    exact ⟨h', me, c, rfl, hk k, hlen, Nat.le_trans hle h1, Nat.le_trans hle h2, r⟩
  · intro hl
    obtain ⟨h', f, k⟩ := p2 hl
    py [f]
    exact ⟨h', rfl, hk k⟩

theorem new_password (L n : Nat) (h : Heap) {pv : Val} (ep : Other pv h) (l : List (String × Val)) :
    ∃ h', call package L (n + 2) "Pbkdf.new" [pv, .dict l] h =
      fail (.raised "GOSTPBKDFError" "GOSTPBKDFError: invalid password value") h' ∧ Ext h h' := by
  rw [call_succ Fn.Pbkdf.new]
  have y := ((Ext.refl h).add [.bytearray []]).add [.inst "R5011112016" []]
  py [Pbkdf.f_new]
  unfold instantiate
  py []
  rw [init_password L n (ep.keeps (y.keeps []) (by simp)).1]
  py []
  exact ⟨_, rfl, y⟩

theorem new_badsalt (L n : Nat) (h : Heap) {pv v : Val} {pw : Bytes} (ep : bytesOf pv h = some pw)
    (l : List (String × Val)) (hf : findAttr "salt" l = some v) (es : Other v h) :
    ∃ h', call package L (n + 3) "Pbkdf.new" [pv, .dict l] h =
      fail (.raised "GOSTPBKDFError" "GOSTPBKDFError: invalid salt value") h' ∧ Ext h h' := by
  rw [call_succ Fn.Pbkdf.new]
  have x := (Ext.refl h).add [.bytearray []]
  py [Pbkdf.f_new, hf, Option.getD_some]
  unfold instantiate
  py []
  obtain ⟨h', f, k, -⟩ := init_badsalt L n (get_last (h ++ [.bytearray []]) (.inst "R5011112016" [])) x.length
    (((x.keeps _).add _)) ep es ((findAttr "counter" l).getD (.int 1000))
  have hlen := x.length
  py [f]
  exact ⟨h', rfl, (k.mono (by simp)).ext⟩

end PbkdfSrc

end Gost.Src
