import Verif.SourceProofs.Hash
import Verif.Source.Objects
import Verif.Proofs.Basic

/-! Objects of the class `GOST34112012`. -/

namespace Gost.Src

namespace Streebog

open Gost.Hash

/-- What the attributes of a hash object refer to. -/
structure Cells where
  num : Int
  pad : Int
  buff : Nat
  h : Nat
  n : Nat
  sigma : Nat

/-- The attributes of a hash object, in the order in which `__init__` makes them. -/
def Cells.attrs (c : Cells) (name : String) (tl : List (String × Val)) : List (String × Val) :=
  ("_name", .str name) :: ("_buff", .ref c.buff) :: ("_num_block", .int c.num) ::
  ("_pad_block_size", .int c.pad) :: ("_hash_h", .ref c.h) :: ("_hash_n", .ref c.n) ::
  ("_hash_sigma", .ref c.sigma) :: tl

/-- The cell `self` is the object `s`; `tl` are its further attributes. -/
structure HashAt (s : HashObj) (me : Nat) (tl : List (String × Val)) (c : Cells) (h : Heap) : Prop where
  obj : h[me]? = some (.inst "GOST34112012" (c.attrs s.name tl))
  bb : bytesOf (.ref c.buff) h = some s.buff
  bh : bytesOf (.ref c.h) h = some s.h
  bn : bytesOf (.ref c.n) h = some s.n
  bs : bytesOf (.ref c.sigma) h = some s.sigma
  lh : s.h.length = 64
  ln : s.n.length = 64
  ls : s.sigma.length = 64

theorem HashAt.ext {s : HashObj} {self : Nat} {tl : List (String × Val)} {c : Cells} {h h' : Heap}
    (r : HashAt s self tl c h) (x : Ext h h') : HashAt s self tl c h' :=
  ⟨x.get r.obj, x.bytesOf r.bb, x.bytesOf r.bh, x.bytesOf r.bn, x.bytesOf r.bs, r.lh, r.ln, r.ls⟩

theorem HashAt.keeps {s : HashObj} {self : Nat} {tl : List (String × Val)} {c : Cells} {h h' : Heap}
    {W : List Nat} (r : HashAt s self tl c h) (k : Keeps W h h') (hs : self ∉ W) : HashAt s self tl c h' :=
  ⟨k.get r.obj hs, k.bytes r.bb, k.bytes r.bh, k.bytes r.bn, k.bytes r.bs, r.lh, r.ln, r.ls⟩

/-- After an assignment to an attribute. -/
theorem HashAt.upd {s : HashObj} {self : Nat} {tl : List (String × Val)} {c : Cells} {h H : Heap}
    (_ : HashAt s self tl c h) (k : Keeps [self] h H) {s' : HashObj} {tl' : List (String × Val)} {c' : Cells}
    (o : H[self]? = some (.inst "GOST34112012" (c'.attrs s'.name tl')))
    (b1 : bytesOf (.ref c'.buff) h = some s'.buff) (b2 : bytesOf (.ref c'.h) h = some s'.h)
    (b3 : bytesOf (.ref c'.n) h = some s'.n) (b4 : bytesOf (.ref c'.sigma) h = some s'.sigma)
    (lh : s'.h.length = 64) (ln : s'.n.length = 64) (ls : s'.sigma.length = 64) :
    HashAt s' self tl' c' H :=
  ⟨o, k.bytes b1, k.bytes b2, k.bytes b3, k.bytes b4, lh, ln, ls⟩

/-! Properties. -/

theorem digest_size_ok (L n : Nat) {s : HashObj} {self : Nat} {tl : List (String × Val)} {c : Cells} {h : Heap}
    (r : HashAt s self tl c h) :
    call package L (n + 1) "GOST34112012.digest_size" [.ref self] h = ok (.int s.digestSize) h := by
  rw [call_succ Fn.GOST34112012.digest_size]
  unfold HashObj.digestSize
  by_cases hn : s.name = "streebog512"
  · py [GOST34112012.m_digest_size, r.obj, Cells.attrs, hn, decide_true]
    rfl
  · py [GOST34112012.m_digest_size, r.obj, Cells.attrs, hn, decide_false]
    rfl

theorem block_size_ok (L n : Nat) (v : Val) (h : Heap) :
    call package L (n + 1) "GOST34112012.block_size" [v] h = ok (.int 64) h := by
  rw [call_succ Fn.GOST34112012.block_size]
  py [GOST34112012.m_block_size]

theorem name_ok (L n : Nat) {s : HashObj} {self : Nat} {tl : List (String × Val)} {c : Cells} {h : Heap}
    (r : HashAt s self tl c h) :
    call package L (n + 1) "GOST34112012.name" [.ref self] h = ok (.str s.name) h := by
  rw [call_succ Fn.GOST34112012.name]
  py [GOST34112012.m_name, r.obj, Cells.attrs]

/-- `get_hash`. -/
theorem get_hash_ok (L n : Nat) {s : HashObj} {self : Nat} {tl : List (String × Val)} {c : Cells} {h : Heap}
    (r : HashAt s self tl c h) :
    NewBytes (call package L (n + 2) "GOST34112012.get_hash" [.ref self] h) h s.getHash := by
  rw [call_succ Fn.GOST34112012.get_hash]
  py [GOST34112012.m_get_hash, r.obj, Cells.attrs, digest_size_ok L n r, getSlice_ref r.bh]
  exact .last (.refl _) _

/-! `_hash_init`. -/

theorem binop_repeat_left (b : Bytes) (n : Int) (h : Heap) :
    binop .mul (.int n) (.bytes b) h = ok (.bytes (repeated b n)) h := (rfl)

theorem hash_init_ok (L n : Nat) {self : Nat} {h : Heap} {v1 v2 v3 v4 v5 v6 v7 : Val} {tl : List (String × Val)}
    (o : h[self]? = some (.inst "GOST34112012" (("_name", v1) :: ("_buff", v2) :: ("_num_block", v3) ::
      ("_pad_block_size", v4) :: ("_hash_h", v5) :: ("_hash_n", v6) :: ("_hash_sigma", v7) :: tl)))
    (name : String) :
    ∃ h' c, call package L (n + 1) "GOST34112012._hash_init" [.ref self, .str name] h = ok .none h' ∧
      Keeps [self] h h' ∧ HashAt (HashObj.hashInit name) self tl c h' := by
  rw [call_succ Fn.GOST34112012._hash_init]
  py [GOST34112012.m__hash_init]
  upd o with H1 o1 k1 l1
  py []
  upd (get_mono o1 _) with H2 o2 k2 l2
  py []
  upd o2 with H3 o3 k3 l3
  py []
  upd o3 with H4 o4 k4 l4
  py []
  upd (get_mono o4 _) with H5 o5 k5 l5
  py []
  upd (get_mono o5 _) with H6 o6 k6 l6
  py []
  upd (get_mono o6 _) with H7 o7 k7 l7
  have b2 := k7.bytes (bytesOf_mono (k6.bytes (bytesOf_mono (k5.bytes (bytesOf_mono (k4.bytes (k3.bytes
    (k2.bytes (bytesOf_last [] H1)))) _)) _)) _)
  have b5 := k7.bytes (bytesOf_mono (k6.bytes (bytesOf_mono (k5.bytes (bytesOf_last (List.replicate 64 0) H4))
    _)) _)
  have b6 := k7.bytes (bytesOf_mono (k6.bytes (bytesOf_last (List.replicate 64 0) H5)) _)
  have b7 := k7.bytes (bytesOf_last (List.replicate 64 0) H6)
  have k : Keeps [self] h H7 := (((((((k1.add _).trans k2).trans k3).trans k4).add _).trans k5).add _).trans
    k6 |>.add _ |>.trans k7
  clear k1 k2 k3 k4 k5 k6 k7
  by_cases hn : name = "streebog256"
  · py [o7, hn, decide_true, binop_repeat_left]
    upd (get_mono o7 _) with H8 o8 k8 l8
    have b8 := k8.bytes (bytesOf_last (repeated [1] 64) H7)
    subst hn
    exact ⟨_, ⟨0, 0, _, _, _, _⟩, rfl, (k.add _).trans k8, o8, k8.bytes (bytesOf_mono b2 _), b8,
      k8.bytes (bytesOf_mono b6 _), k8.bytes (bytesOf_mono b7 _), rfl, rfl, rfl⟩
  · py [o7, hn, decide_false]
    refine ⟨_, ⟨0, 0, _, _, _, _⟩, rfl, k, o7, b2, ?_, b6, b7, ?_, rfl, rfl⟩
    · simpa [HashObj.hashInit, hn] using b5
    · simp [HashObj.hashInit, hn]

/-! `update`. -/

theorem arith_div_lit (m n : Nat) (hn : (OfNat.ofNat n : Int) ≠ 0) :
    arith .floordiv m (no_index (@OfNat.ofNat Int n _)) = .ok ((m / OfNat.ofNat n : Nat) : Int) := by
  simp only [arith, if_neg hn]
  congr 1
  exact Int.fdiv_eq_ediv_of_nonneg _ (Int.natCast_nonneg n)

theorem arith_mod_lit (m n : Nat) (hn : (OfNat.ofNat n : Int) ≠ 0) :
    arith .mod m (no_index (@OfNat.ofNat Int n _)) = .ok ((m % OfNat.ofNat n : Nat) : Int) := by
  simp only [arith, if_neg hn]
  congr 1
  exact Int.fmod_eq_emod_of_nonneg _ (Int.natCast_nonneg n)

theorem arith_add_lit (m n : Nat) :
    arith .add m (no_index (@OfNat.ofNat Int n _)) = .ok ((m + OfNat.ofNat n : Nat) : Int) := (rfl)

theorem pyRange_step (n m : Nat) (hm : 0 < m) :
    pyRange 0 ((n * m : Nat) : Int) m = (List.range n).map fun k : Nat => .int ((k * m : Nat) : Int) := by
  have h1 : (0 : Int) < m := by omega
  have h2 : (((n * m : Nat) : Int) - 0 + m - 1).fdiv m = n := by
    rw [Int.fdiv_eq_ediv_of_nonneg _ (by omega)]
    have h3 : (((n * m : Nat) : Int) - 0 + m - 1) = ((m - 1 : Nat) : Int) + m * n := by
      rw [Int.natCast_mul, Int.mul_comm]
      omega
    rw [h3, Int.add_mul_ediv_left _ _ (by omega), Int.ediv_eq_zero_of_lt (by omega) (by omega)]
    simp
  simp only [pyRange, if_pos h1, h2, Int.toNat_natCast]
  refine List.map_congr_left fun k _ => ?_
  rw [Int.natCast_mul, Int.mul_comm]
  simp

theorem add512_length (a b : Bytes) : (add512 a b).length = 64 := addSteps_length a b 64

theorem v512_length : v512.length = 64 := by decide +kernel

theorem v512_bytes : Hash.g_V_512 = .bytes v512 := (rfl)

attribute [local irreducible] add512 hashG v512

theorem absorb_ok (L n : Nat) {s : HashObj} {self : Nat} {tl : List (String × Val)} {c : Cells} {h : Heap}
    {v : Nat} {b : Bytes} (r : HashAt s self tl c h) (e : bytesOf (.ref v) h = some b) (lb : b.length = 64)
    {env : Env} (e1 : env "self" = some (.ref self)) (e2 : env "block" = some (.ref v)) :
    ∃ h' c', execs (ctx L (n + 4)) [
        .assign (.attr (.name "self") "_hash_h") (.meth (.name "self") "_hash_g" [.attr (.name
             "self") "_hash_h", .attr (.name "self") "_hash_n", .name "block"]),
        .assign (.attr (.name "self") "_hash_n") (.meth (.name "self") "_hash_add_512" [.attr
             (.name "self") "_hash_n", .glob "Hash._V_512"]),
        .assign (.attr (.name "self") "_hash_sigma") (.meth (.name "self") "_hash_add_512"
             [.attr (.name "self") "_hash_sigma", .name "block"])] env h = ok (.next env) h' ∧
      Keeps [self] h h' ∧ HashAt (s.absorb b) self tl c' h' := by
  have h1 := g_ok L n r.obj r.bh r.bn e r.lh (by have := r.ln; omega) (by omega)
  obtain ⟨v1, l1, f1, hv1, b1⟩ := h1.1.elim
  py [e1, e2, r.obj, Cells.attrs]
  rw [f1]
  py [e1]
  upd (get_mono r.obj _) with H1 o1 k1 m1
  have r0 := r.ext ((Ext.refl h).add l1)
  have r1 : HashAt { s with h := hashG s.h s.n b } self tl { c with h := v1 } H1 :=
    r0.upd k1 o1 r0.bb b1 r0.bn r0.bs h1.2 r0.ln r0.ls
  have k1 := ((Keeps.refl [self] h).add l1).trans k1
  obtain ⟨v2, l2, f2, hv2, b2⟩ := (add_512_ok L (n + 3) r1.bn (bytesOf_bytes v512 _)
    (Nat.le_of_eq r1.ln.symm) (Nat.le_of_eq v512_length.symm)).elim
  py [e1, r1.obj, Cells.attrs, v512_bytes]
  rw [f2]
  py [e1]
  upd (get_mono r1.obj _) with H2 o2 k2 m2
  have r0 := r1.ext ((Ext.refl H1).add l2)
  have r2 := r0.upd (s' := { s with h := hashG s.h s.n b, n := add512 s.n v512 }) (c' := { c with h := v1, n := v2 })
    k2 o2 r0.bb r0.bh b2 r0.bs r0.lh (add512_length _ _) r0.ls
  have k2 := (k1.add l2).trans k2
  obtain ⟨v3, l3, f3, hv3, b3⟩ := (add_512_ok L (n + 3) r2.bs (k2.bytes e)
    (Nat.le_of_eq r2.ls.symm) (Nat.le_of_eq lb.symm)).elim
  py [e1, e2, r2.obj, Cells.attrs]
  rw [f3]
  py [e1]
  upd (get_mono r2.obj _) with H3 o3 k3 m3
  have r0 := r2.ext ((Ext.refl H2).add l3)
  exact ⟨_, { c with h := v1, n := v2, sigma := v3 }, rfl, (k2.add l3).trans k3,
    r0.upd (s' := s.absorb b) k3 o3 r0.bb r0.bh r0.bn b3 r0.lh r0.ln (add512_length _ _)⟩

theorem block_length {d : Bytes} {k : Nat} (hk : k < d.length / 64) :
    (pySlice d ((k * 64 : Nat) : Int) ((k * 64 + 64 : Nat) : Int)).length = 64 := by
  rw [pySlice_nat, List.length_take, List.length_drop]
  omega

theorem arith_div_64 (m : Nat) : arith .floordiv m 64 = .ok ((m / 64 : Nat) : Int) := arith_div_lit m 64 (by decide)

theorem arith_mod_64 (m : Nat) : arith .mod m 64 = .ok ((m % 64 : Nat) : Int) := arith_mod_lit m 64 (by decide)

/-- The object after the first `k` blocks of `D`. -/
def blocks (s : HashObj) (D : Bytes) (k : Nat) : HashObj :=
  (List.range k).foldl (fun s i =>
    s.absorb (pySlice D ((i * 64 : Nat) : Int) ((i * 64 + 64 : Nat) : Int))) s

theorem blocks_succ (s : HashObj) (D : Bytes) (k : Nat) :
    blocks s D (k + 1) = (blocks s D k).absorb (pySlice D ((k * 64 : Nat) : Int) ((k * 64 + 64 : Nat) : Int)) := by
  unfold blocks
  rw [List.range_succ, List.foldl_append]
  rfl

theorem updateBytes_blocks (s : HashObj) (d : Bytes) : s.updateBytes d =
    if 64 - (s.buff ++ d).length % 64 < 64 then
      { blocks s (s.buff ++ d) ((s.buff ++ d).length / 64) with
        buff := pyFrom (s.buff ++ d) (-((64 - (64 - (s.buff ++ d).length % 64) : Nat) : Int)) }
    else blocks s (s.buff ++ d) ((s.buff ++ d).length / 64) := rfl

theorem update_ok (L n : Nat) {s : HashObj} {self : Nat} {tl : List (String × Val)} {c : Cells} {h : Heap}
    (r : HashAt s self tl c h) {v : Val} {d : Bytes} (e : bytesOf v h = some d) :
    ∃ h' c', call package L (n + 5) "GOST34112012.update" [.ref self, v] h = ok .none h' ∧
      Keeps [self] h h' ∧ HashAt (s.updateBytes d) self tl c' h' := by
  rw [call_succ Fn.GOST34112012.update]
  rw [updateBytes_blocks]
  py [GOST34112012.m_update, e, r.obj, Cells.attrs, r.bb]
  have eD := bytesOf_last (s.buff ++ d) h
  generalize s.buff ++ d = D at eD ⊢
  rw [arith_div_64]
  py []
  upd (get_mono r.obj _) with H1 o1 k1 m1
  have r0 := r.ext ((Ext.refl h).add [.bytearray D])
  have r1 : HashAt s self tl { c with num := (D.length / 64 : Nat) } H1 :=
    r0.upd k1 o1 r0.bb r0.bh r0.bn r0.bs r0.lh r0.ln r0.ls
  have eD := k1.bytes eD
  have k1 := ((Keeps.refl [self] h).add [.bytearray D]).trans k1
  py [r1.obj, Cells.attrs, arith_mul_lit, show ((64 : Int) = 0) = False by simp]
  rw [show (OfNat.ofNat 64 : Nat) = 64 from rfl, show pyRange 0 ((D.length / 64 * 64 : Nat) : Int) 64 = _ from
    pyRange_step (D.length / 64) 64 (by decide)]
  generalize hl : forLoop _ _ _ _ _ = o
  obtain ⟨env, H2, rfl, k2, i1, i2, i3, c2, r2⟩ := for_inv hl (fun k env h' =>
    Keeps [self] h h' ∧ env "self" = some (.ref self) ∧ env "data" = some (.ref h.length) ∧
    bytesOf (.ref h.length) h' = some D ∧ ∃ c, HashAt (blocks s D k) self tl c h')
    (by
      rintro k w env h' hw ⟨k2, i1, i2, i3, c2, r2⟩
      rw [List.getElem?_map] at hw
      have hk : k < D.length / 64 := by
        rcases Nat.lt_or_ge k (D.length / 64) with hk | hk
        · exact hk
        · rw [List.getElem?_eq_none (by simpa using hk)] at hw
          cases hw
      rw [List.getElem?_range hk] at hw
      cases hw
      have lb := block_length hk
      rw [blocks_succ]
      obtain ⟨H3, c3, e3, k3, r3⟩ := absorb_ok L n (r2.ext ((Ext.refl h').add _)) (bytesOf_last _ h') lb
        (env := (env.set "i" (.int ((k * 64 : Nat) : Int))).set "block" (.ref h'.length)) (by py [i1]) (by py [])
      refine ⟨_, H3, (execs_assign ?_).trans e3, (k2.add _).trans k3, by py [i1], by py [i2],
        k3.bytes (bytesOf_mono i3 _), c3, r3⟩
      py [i2, arith_add_lit, getSlice_ref i3]
      rfl)
    (by py []; exact ⟨k1, trivial, trivial, eD, _, r1⟩)
  rw [List.length_map, List.length_range] at r2
  py [i1, i2, i3]
  rw [arith_mod_64]
  py [i1]
  upd r2.obj with H3 o3 k3 m3
  have r3 : HashAt (blocks s D (D.length / 64)) self tl { c2 with pad := 64 - ((D.length % 64 : Nat) : Int) } H3 :=
    r2.upd k3 o3 r2.bb r2.bh r2.bn r2.bs r2.lh r2.ln r2.ls
  have i3 := k3.bytes i3
  have k3 := k2.trans k3
  by_cases hp : 64 - D.length % 64 < 64
  · rw [if_pos hp]
    have hp' : (64 - ((D.length % 64 : Nat) : Int) < 64) = True := by simp; omega
    py [i1, i2, r3.obj, Cells.attrs, hp', decide_true, getSlice_ref i3]
    upd (get_mono r3.obj _) with H4 o4 k4 m4
    have r0 := r3.ext ((Ext.refl H3).add [.bytearray (cut (some (-(64 - (64 - ((D.length % 64 : Nat) : Int))))) none D)])
    refine ⟨_, _, rfl, (k3.add _).trans k4, r0.upd (c' := { c2 with pad := 64 - ((D.length % 64 : Nat) : Int), buff := H3.length })
      k4 o4 ?_ r0.bh r0.bn r0.bs r0.lh r0.ln r0.ls⟩
    rw [bytesOf_last]
    show some (pyFrom D _) = some (pyFrom D _)
    congr 2
    omega
  · rw [if_neg hp]
    have hp' : (64 - ((D.length % 64 : Nat) : Int) < 64) = False := by simp; omega
    py [i1, i2, r3.obj, Cells.attrs, hp', decide_false]
    exact ⟨_, _, rfl, k3, r3⟩

theorem update_other (L n : Nat) (self : Nat) {v : Val} {h : Heap} (e : bytesOf v h = none) :
    call package L (n + 1) "GOST34112012.update" [.ref self, v] h =
      fail (.raised "GOSTHashError" "GOSTHashError: invalid data value") h := by
  rw [call_succ Fn.GOST34112012.update]
  py [GOST34112012.m_update, e]

/-! Copies. -/

theorem copy_bytes (n : Nat) {r : Nat} {h : Heap} {b : Bytes} (e : bytesOf (.ref r) h = some b) :
    copyVal (n + 1) (.ref r) h = ok (.ref h.length) (h ++ [.bytearray b]) := by
  rw [copyVal]
  cases h1 : h[r]? with
  | none => simp [bytesOf, h1] at e
  | some o =>
    cases o with
    | bytearray x =>
      have : x = b := by simpa [bytesOf, h1] using e
      subst this
      rfl
    | _ => simp [bytesOf, h1] at e

theorem copy_str (n : Nat) (s : String) (h : Heap) : copyVal (n + 1) (.str s) h = ok (.str s) h := (rfl)

theorem copy_int (n : Nat) (i : Int) (h : Heap) : copyVal (n + 1) (.int i) h = ok (.int i) h := (rfl)

theorem copy_inst (n : Nat) {r : Nat} {h : Heap} {cls : String} {l : List (String × Val)}
    (e : h[r]? = some (.inst cls l)) : copyVal (n + 1) (.ref r) h =
      andThen (evalComp (copyVal n) (l.map (·.2)) h) fun vs h => alloc (.inst cls ((l.map (·.1)).zip vs)) h := by
  rw [copyVal, e]

/-- The cell `o` is an object identifier. -/
def OidAt (str : String) (o : Nat) (h : Heap) : Prop :=
  h[o]? = some (.inst "ObjectIdentifier" [("_oid_str", .str str)])

theorem copy_oid (n : Nat) {str : String} {o : Nat} {h : Heap} (e : OidAt str o h) :
    copyVal (n + 2) (.ref o) h = ok (.ref h.length) (h ++ [.inst "ObjectIdentifier" [("_oid_str", .str str)]]) := by
  rw [copy_inst _ e]
  rfl

theorem copy_val (m : Nat) {s : HashObj} {self : Nat} {o : Nat} {str : String} {c : Cells} {h : Heap}
    (r : HashAt s self [("oid", .ref o)] c h) (ho : OidAt str o h) :
    ∃ me l o' c', copyVal (m + 3) (.ref self) h = ok (.ref me) (h ++ l) ∧
      h.length ≤ me ∧ h.length ≤ o' ∧ HashAt s me [("oid", .ref o')] c' (h ++ l) ∧ OidAt str o' (h ++ l) := by
  rw [copy_inst (m + 2) r.obj]
  have a1 := copy_bytes (m + 1) r.bb
  obtain ⟨h1, e1⟩ : ∃ h1, h1 = h ++ [.bytearray s.buff] := ⟨_, rfl⟩
  have x1 : Ext h h1 := e1 ▸ (Ext.refl h).add _
  have a2 := copy_bytes (m + 1) (x1.bytesOf r.bh)
  obtain ⟨h2, e2⟩ : ∃ h2, h2 = h1 ++ [.bytearray s.h] := ⟨_, rfl⟩
  have x2 : Ext h1 h2 := e2 ▸ (Ext.refl h1).add _
  have a3 := copy_bytes (m + 1) ((x1.trans x2).bytesOf r.bn)
  obtain ⟨h3, e3⟩ : ∃ h3, h3 = h2 ++ [.bytearray s.n] := ⟨_, rfl⟩
  have x3 : Ext h2 h3 := e3 ▸ (Ext.refl h2).add _
  have a4 := copy_bytes (m + 1) (((x1.trans x2).trans x3).bytesOf r.bs)
  obtain ⟨h4, e4⟩ : ∃ h4, h4 = h3 ++ [.bytearray s.sigma] := ⟨_, rfl⟩
  have x4 : Ext h3 h4 := e4 ▸ (Ext.refl h3).add _
  have a5 := copy_oid m (str := str) (o := o) ((((x1.trans x2).trans x3).trans x4).get ho)
  obtain ⟨h5, e5⟩ : ∃ h5, h5 = h4 ++ [.inst "ObjectIdentifier" [("_oid_str", .str str)]] := ⟨_, rfl⟩
  have x5 : Ext h4 h5 := e5 ▸ (Ext.refl h4).add _
  have b1 : bytesOf (.ref h.length) h1 = some s.buff := e1 ▸ bytesOf_last _ _
  have b2 : bytesOf (.ref h1.length) h2 = some s.h := e2 ▸ bytesOf_last _ _
  have b3 : bytesOf (.ref h2.length) h3 = some s.n := e3 ▸ bytesOf_last _ _
  have b4 : bytesOf (.ref h3.length) h4 = some s.sigma := e4 ▸ bytesOf_last _ _
  have b5 : OidAt str h4.length h5 := e5 ▸ get_last _ _
  rw [← e1] at a1
  rw [← e2] at a2
  rw [← e3] at a3
  rw [← e4] at a4
  rw [← e5] at a5
  clear e1 e2 e3 e4 e5
  have ev : evalComp (copyVal (m + 2)) (List.map (fun x => x.2) (c.attrs s.name [("oid", .ref o)])) h =
      ok [.str s.name, .ref h.length, .int c.num, .int c.pad, .ref h1.length, .ref h2.length, .ref h3.length,
        .ref h4.length] h5 := by
    simp only [Cells.attrs, List.map_cons, List.map_nil, evalComp, copy_str (m + 1), copy_int (m + 1), a1, a2, a3, a4, a5, andThen_ok]
  rw [ev]
  py []
  have x : Ext h h5 := (((x1.trans x2).trans x3).trans x4).trans x5
  obtain ⟨l, rfl⟩ := x
  refine ⟨_, _, h4.length, ⟨c.num, c.pad, h.length, h1.length, h2.length, h3.length⟩,
    by rw [← List.append_assoc], ?_, ?_, ?_, ?_⟩
  · simp
  · exact ((x1.trans x2).trans (x3.trans x4)).length
  · rw [← List.append_assoc]
    have y := (Ext.refl (h ++ l)).add [.inst "GOST34112012" ((List.map (fun x => x.1)
      (c.attrs s.name [("oid", Val.ref o)])).zip [.str s.name, .ref h.length, .int c.num, .int c.pad,
        .ref h1.length, .ref h2.length, .ref h3.length, .ref h4.length])]
    exact ⟨get_last _ _, (x2.trans (x3.trans (x4.trans (x5.trans y)))).bytesOf b1,
      (x3.trans (x4.trans (x5.trans y))).bytesOf b2, (x4.trans (x5.trans y)).bytesOf b3,
      (x5.trans y).bytesOf b4, r.lh, r.ln, r.ls⟩
  · rw [← List.append_assoc]
    exact get_mono b5 _

theorem copy_ok (L n : Nat) {s : HashObj} {self : Nat} {o : Nat} {str : String} {c : Cells} {h : Heap}
    (r : HashAt s self [("oid", .ref o)] c h) (ho : OidAt str o h) :
    ∃ me l o' c', call package L (n + 1) "GOST34112012.copy" [.ref self] h = ok (.ref me) (h ++ l) ∧
      h.length ≤ me ∧ h.length ≤ o' ∧ HashAt s me [("oid", .ref o')] c' (h ++ l) ∧ OidAt str o' (h ++ l) := by
  rw [call_succ Fn.GOST34112012.copy]
  obtain ⟨me, l, o', c', f, r'⟩ := copy_val 7 r ho
  py [GOST34112012.m_copy, show (ctx L n).copy = copyVal 10 from rfl, f]
  exact ⟨me, l, o', c', rfl, r'⟩

theorem v0_bytes : Hash.g_V_0 = .bytes v0 := (rfl)

theorem v0_length : v0.length = 64 := by decide +kernel

/-- `self._hash_h = self._hash_g(self._hash_h, n, d)`, where `n` and `d` are given by expressions. -/
theorem set_g (L n : Nat) {s : HashObj} {self : Nat} {tl : List (String × Val)} {c : Cells} {h : Heap}
    (r : HashAt s self tl c h) {env : Env} (e1 : env "self" = some (.ref self)) {a1 a2 : Expr} {v1 v2 : Val}
    {b1 b2 : Bytes} (f1 : eval (ctx L (n + 4)) env a1 h = ok v1 h) (f2 : eval (ctx L (n + 4)) env a2 h = ok v2 h)
    (g1 : bytesOf v1 h = some b1) (g2 : bytesOf v2 h = some b2) (l1 : 64 ≤ b1.length) (l2 : 64 ≤ b2.length)
    (rest : List Stmt) :
    ∃ h' v, execs (ctx L (n + 4)) (.assign (.attr (.name "self") "_hash_h")
        (.meth (.name "self") "_hash_g" [.attr (.name "self") "_hash_h", a1, a2]) :: rest) env h =
        execs (ctx L (n + 4)) rest env h' ∧ Keeps [self] h h' ∧
      HashAt { s with h := hashG s.h b1 b2 } self tl { c with h := v } h' := by
  have h1 := g_ok L n r.obj r.bh g1 g2 r.lh l1 l2
  obtain ⟨v, l, f, hv, b⟩ := h1.1.elim
  py [e1, r.obj, Cells.attrs, f1, f2]
  rw [f]
  py [e1]
  upd (get_mono r.obj _) with H1 o1 k1 m1
  have r0 := r.ext ((Ext.refl h).add l)
  exact ⟨H1, v, rfl, ((Keeps.refl [self] h).add l).trans k1,
    r0.upd k1 o1 r0.bb b r0.bn r0.bs h1.2 r0.ln r0.ls⟩

/-- The last statements of `hash_final`. -/
theorem final_ok (L n : Nat) {s : HashObj} {self : Nat} {tl : List (String × Val)} {c : Cells} {h : Heap}
    {v : Nat} {b : Bytes} (r : HashAt s self tl c h) (lbuff : 64 ≤ s.buff.length)
    (e : bytesOf (.ref v) h = some b) (lb : 64 ≤ b.length)
    {env : Env} (e1 : env "self" = some (.ref self)) (e2 : env "internal" = some (.ref v)) :
    ∃ h' c', execs (ctx L (n + 4)) [
     .assign (.attr (.name "self") "_hash_h") (.meth (.name "self") "_hash_g" [.attr (.name
         "self") "_hash_h", .attr (.name "self") "_hash_n", .attr (.name "self") "_buff"]),
     .assign (.attr (.name "self") "_hash_n") (.meth (.name "self") "_hash_add_512" [.attr (.name
         "self") "_hash_n", .name "internal"]),
     .assign (.attr (.name "self") "_hash_sigma") (.meth (.name "self") "_hash_add_512" [.attr
         (.name "self") "_hash_sigma", .attr (.name "self") "_buff"]),
     .assign (.attr (.name "self") "_hash_h") (.meth (.name "self") "_hash_g" [.attr (.name
         "self") "_hash_h", .glob "Hash._V_0", .attr (.name "self") "_hash_n"]),
     .assign (.attr (.name "self") "_hash_h") (.meth (.name "self") "_hash_g" [.attr (.name
         "self") "_hash_h", .glob "Hash._V_0", .attr (.name "self") "_hash_sigma"])] env h = ok (.next env) h' ∧
      Keeps [self] h h' ∧ HashAt { s with
        n := add512 s.n b
        sigma := add512 s.sigma s.buff
        h := hashG (hashG (hashG s.h s.n s.buff) v0 (add512 s.n b)) v0 (add512 s.sigma s.buff) } self tl c' h' := by
  obtain ⟨H1, v1, f1, k1, r1⟩ := set_g L n r e1 (a1 := .attr (.name "self") "_hash_n") (a2 := .attr (.name "self") "_buff")
    (by py [e1, r.obj, Cells.attrs]) (by py [e1, r.obj, Cells.attrs]) r.bn r.bb (Nat.le_of_eq r.ln.symm) lbuff _
  rw [f1]
  obtain ⟨v2, l2, f2, hv2, b2⟩ := (add_512_ok L (n + 3) r1.bn (k1.bytes e) (Nat.le_of_eq r1.ln.symm) lb).elim
  py [e1, e2, r1.obj, Cells.attrs]
  rw [f2]
  py [e1]
  upd (get_mono r1.obj _) with H2 o2 k2 m2
  have r0 := r1.ext ((Ext.refl H1).add l2)
  have r2 := r0.upd (s' := { s with h := hashG s.h s.n s.buff, n := add512 s.n b }) (c' := { c with h := v1, n := v2 })
    k2 o2 r0.bb r0.bh b2 r0.bs r0.lh (add512_length _ _) r0.ls
  have k2 := (k1.add l2).trans k2
  obtain ⟨v3, l3, f3, hv3, b3⟩ := (add_512_ok L (n + 3) r2.bs r2.bb (Nat.le_of_eq r2.ls.symm) lbuff).elim
  py [e1, r2.obj, Cells.attrs]
  rw [f3]
  py [e1]
  upd (get_mono r2.obj _) with H3 o3 k3 m3
  have r0 := r2.ext ((Ext.refl H2).add l3)
  have r3 := r0.upd (s' := { s with h := hashG s.h s.n s.buff, n := add512 s.n b, sigma := add512 s.sigma s.buff })
    (c' := { c with h := v1, n := v2, sigma := v3 })
    k3 o3 r0.bb r0.bh r0.bn b3 r0.lh r0.ln (add512_length _ _)
  have k3 := (k2.add l3).trans k3
  obtain ⟨H4, v4, f4, k4, r4⟩ := set_g L n r3 e1 (a1 := .glob "Hash._V_0") (v1 := .bytes v0) (a2 := .attr (.name "self") "_hash_n")
    (by py [v0_bytes]) (by py [e1, r3.obj, Cells.attrs]) rfl r3.bn (Nat.le_of_eq v0_length.symm)
    (Nat.le_of_eq r3.ln.symm) _
  rw [f4]
  obtain ⟨H5, v5, f5, k5, r5⟩ := set_g L n r4 e1 (a1 := .glob "Hash._V_0") (v1 := .bytes v0) (a2 := .attr (.name "self") "_hash_sigma")
    (by py [v0_bytes]) (by py [e1, r4.obj, Cells.attrs]) rfl r4.bs (Nat.le_of_eq v0_length.symm)
    (Nat.le_of_eq r4.ls.symm) _
  rw [f5]
  exact ⟨H5, _, by py [], (k3.trans k4).trans k5, r5⟩

theorem binop_repeat_right (b : Bytes) (n : Int) (h : Heap) :
    binop .mul (.bytes b) (.int n) h = ok (.bytes (repeated b n)) h := (rfl)

theorem zeros_repeated (n : Int) : repeated [0] n = zeros n := by
  unfold zeros repeated
  simp

theorem low_byte (c : Nat) : Val.int ((c &&& 255 : Nat) : Int) = .int (UInt8.ofNat (c &&& 255)).toNat := by
  have : c &&& 255 < 256 := Nat.lt_of_le_of_lt Nat.and_le_right (by decide)
  rw [UInt8.toNat_ofNat_of_lt' this]

/-- The length of the last piece, in bits, in the way `hash_final` stores it. -/
def lastBits (s : HashObj) : Bytes :=
  ((List.replicate 64 (0 : UInt8)).set 1 (UInt8.ofNat ((s.buff.length * 8) >>> 8 &&& 255))).set 0
    (UInt8.ofNat ((s.buff.length * 8) &&& 255))

theorem lastBits_length (s : HashObj) : 64 ≤ (lastBits s).length := by simp [lastBits]

theorem hashFinal_eq (s : HashObj) : s.hashFinal = { s with
    buff := s.buff ++ [1] ++ zeros (64 - (s.buff.length : Int) - 1)
    n := add512 s.n (lastBits s)
    sigma := add512 s.sigma (s.buff ++ [1] ++ zeros (64 - (s.buff.length : Int) - 1))
    h := hashG (hashG (hashG s.h s.n (s.buff ++ [1] ++ zeros (64 - (s.buff.length : Int) - 1))) v0 (add512 s.n (lastBits s))) v0
      (add512 s.sigma (s.buff ++ [1] ++ zeros (64 - (s.buff.length : Int) - 1))) } := by
  have hb : ((64 : Int) - (64 - (s.buff.length : Int))) * 8 = ((s.buff.length * 8 : Nat) : Int) := by omega
  simp only [HashObj.hashFinal, hb, Int.toNat_natCast, lastBits,
    if_pos (show (64 : Int) - (s.buff.length : Int) ≤ 64 by omega)]

/-- `hash_final`. -/
theorem hash_final_ok (L n : Nat) {s : HashObj} {self : Nat} {tl : List (String × Val)} {c : Cells} {h : Heap}
    (r : HashAt s self tl c h) :
    ∃ h' c', call package L (n + 5) "GOST34112012.hash_final" [.ref self] h = ok .none h' ∧
      Keeps [self] h h' ∧ HashAt s.hashFinal self tl c' h' := by
  rw [call_succ Fn.GOST34112012.hash_final, hashFinal_eq]
  py [GOST34112012.m_hash_final, r.obj, Cells.attrs, r.bb]
  upd r.obj with H1 o1 k1 m1
  have r1 := r.upd (s' := s) (c' := { c with pad := 64 - (s.buff.length : Int) }) k1 o1 r.bb r.bh r.bn r.bs r.lh r.ln r.ls
  have hb : ((64 : Int) - (64 - (s.buff.length : Int))) * 8 = ((s.buff.length * 8 : Nat) : Int) := by omega
  rw [hb, arith_shr_lit]
  py [arith_and_lit]
  rw [low_byte, setItem_any _ _ 1 (k := 1) _ (by decide +kernel)]
  py [get_mono r1.obj _, Cells.attrs]
  rw [hb]
  rw [show ∀ m : Nat, intAnd m 255 = ((m &&& 255 : Nat) : Int) from fun m => intAnd_nat m 255, low_byte, setItem_any _ _ 0 (k := 0) _ (by simp [position])]
  rw [show ((List.replicate 64 (0 : UInt8)).set 1 (UInt8.ofNat ((s.buff.length * 8) >>> 8 &&& 255))).set 0
    (UInt8.ofNat ((s.buff.length * 8) &&& 255)) = lastBits s from rfl]
  have r2 := r1.ext ((Ext.refl H1).add [.bytearray (lastBits s)])
  have e2 : bytesOf (.ref H1.length) (H1 ++ [.bytearray (lastBits s)]) = some (lastBits s) := by py []
  have k2 := k1.add [.bytearray (lastBits s)]
  generalize H1 ++ [.bytearray (lastBits s)] = H2 at *
  py [r2.obj, Cells.attrs, r2.bb, show ((64 : Int) - (s.buff.length : Int) ≤ 64) = True by simp; omega, decide_true]
  have e3 := bytesOf_last (s.buff ++ [1]) H2
  have lB : 64 ≤ (s.buff ++ [1] ++ zeros (64 - (s.buff.length : Int) - 1)).length := by
    simp only [List.length_append, List.length_cons, List.length_nil, zeros, List.length_replicate]
    omega
  generalize s.buff ++ [1] = B at e3 lB ⊢
  upd (get_mono r2.obj _) with H3 o3 k3 m3
  have r0 := r2.ext ((Ext.refl H2).add [.bytearray B])
  have r3 := r0.upd (s' := { s with buff := B }) (c' := { c with pad := 64 - (s.buff.length : Int), buff := H2.length })
    k3 o3 e3 r0.bh r0.bn r0.bs r0.lh r0.ln r0.ls
  have e2 := k3.bytes (bytesOf_mono e2 _)
  have k3 := (k2.add _).trans k3
  rw [binop_repeat_right, zeros_repeated]
  py [show bytesOf (.ref H2.length) H3 = some B from r3.bb]
  have e4 := bytesOf_last (B ++ zeros (64 - (s.buff.length : Int) - 1)) H3
  generalize B ++ zeros (64 - (s.buff.length : Int) - 1) = B' at e4 lB ⊢
  upd (get_mono r3.obj _) with H4 o4 k4 m4
  have r0 := r3.ext ((Ext.refl H3).add [.bytearray B'])
  have r4 := r0.upd (s' := { s with buff := B' }) (c' := { c with pad := 64 - (s.buff.length : Int), buff := H3.length })
    k4 o4 e4 r0.bh r0.bn r0.bs r0.lh r0.ln r0.ls
  have e2 := k4.bytes (bytesOf_mono e2 _)
  have k4 := (k3.add _).trans k4
  obtain ⟨H5, c5, f5, k5, r5⟩ := final_ok L n r4 lB e2 (lastBits_length s)
    (env := (Env.empty.set "self" (.ref self)).set "internal" (.ref H1.length)) (by py []) (by py [])
  rw [show ∀ env h, execs (ctx L (n + 4)) [] env h = ok (.next env) h from fun _ _ => (rfl), thenRun_next, f5]
  exact ⟨H5, c5, by py [], k4.trans k5, r5⟩

end Streebog

end Gost.Src
