import Verif.SourceProofs.Pbkdf
import Verif.Model.Random

/-! `r_1323565_1_006_2017.py`. -/

namespace Gost.Src

namespace RandomSrc

open HmacSrc Streebog PbkdfSrc

/-- The attributes of an object. -/
def attrs (s : Rand) (u hr : Nat) : List (String × Val) :=
  [("_size_s", .int s.sizeS), ("_rand_u", .ref u), ("_q", .int s.q), ("_r", .int s.r), ("_limit", .int s.limit),
    ("_hash_obj", .ref hr)]

/-- The cell `me` is the object `s` with the register `u` and the hash object `hr`. -/
structure RandAt (s : Rand) (me u hr : Nat) (h : Heap) : Prop where
  obj : h[me]? = some (.inst "R132356510062017" (attrs s u hr))
  reg : bytesOf (.ref u) h = some s.randU
  hash : IsHash s.hash hr h

theorem RandAt.ext {s : Rand} {me u hr : Nat} {h h' : Heap} (r : RandAt s me u hr h) (x : Ext h h') :
    RandAt s me u hr h' :=
  ⟨x.get r.obj, x.bytesOf r.reg, r.hash.ext x⟩

/-- The program returns a new byte array or raises the exception of the module, as `res` does. -/
def Ends (o : Out Val) (res : Res Bytes) (h : Heap) (W : List Nat) (P : Heap → Prop) : Prop :=
  match res with
  | .ok b => Step o h W b P
  | .error (.randomError m) => ∃ h', o = fail (.raised "GOSTRandomError" m) h' ∧ Keeps W h h' ∧ P h'
  | .error _ => False

theorem pow_2_63 : arith .pow 2 63 = .ok 9223372036854775808 := (rfl)

theorem inc_ok (L n : Nat) {s : Rand} {me u hr : Nat} {h : Heap} (r : RandAt s me u hr h) :
    ∃ h' u', call package L (n + 2) "R132356510062017._inc_rand_u" [.ref me] h = ok .none h' ∧ Keeps [me] h h' ∧
      RandAt { s with randU := Rand.incRandU s.randU } me u' hr h' := by
  rw [call_succ Fn.R132356510062017._inc_rand_u]
  have f1 := bytearray_to_int_ok L n r.reg
  have o0 := r.obj
  unfold attrs at o0
  obtain ⟨w, l, f2, hw, b⟩ := (show NewBytes (call package L (n + 1) "Utils.int_to_bytearray"
    [.int ((bytesToInt s.randU : Nat) + 1), .int 63] h) h _ from int_to_bytearray_ok L n ((bytesToInt s.randU : Nat) + 1) 63 h).elim
  py [R132356510062017.m__inc_rand_u, o0, f1, pow_2_63, show (64 : Int) - 1 = 63 by decide,
    show arith .mod 1 9223372036854775808 = .ok 1 from (rfl), f2]
  upd (get_mono o0 _) with H1 o1 k1 m1
  exact ⟨H1, w, rfl, ((Keeps.refl _ _).add l).trans k1, o1, k1.bytes b,
    hash_keeps (r.hash.ext ((Ext.refl _).add l)) (get_mono o0 _) k1 (by decide) (by decide)⟩

theorem iter_ok (L n : Nat) {s : Rand} {me u hr : Nat} {h : Heap} (r : RandAt s me u hr h) :
    Ends (call package L (n + 7) "R132356510062017._rand_iter" [.ref me] h) s.randIter.2 h [me, hr]
      (fun h' => ∃ u', RandAt s.randIter.1 me u' hr h') := by
  rw [call_succ Fn.R132356510062017._rand_iter]
  have o0 := r.obj
  unfold attrs at o0
  have x := (Ext.refl h).add [.bytearray (pyFrom s.randU s.sizeS)]
  have f1 := bytearray_to_int_ok L (n + 5) (bytesOf_last (pyFrom s.randU s.sizeS) h)
  have f0 : getSlice (.ref u) (some s.sizeS) none h = _ := getSlice_ref r.reg _ _
  unfold cut at f0
  simp only at f0
  unfold Rand.randIter
  by_cases hc : bytesToInt (pyFrom s.randU s.sizeS) ≥ s.limit
  · have hc' : ((bytesToInt (pyFrom s.randU s.sizeS) : Int) ≥ s.limit) = True := by simp; omega
    rw [if_pos hc]
    obtain ⟨w, l, f2, hw, b⟩ := (zero_fill_ok L (n + 5) (x.bytesOf r.reg)).elim
    py [R132356510062017.m__rand_iter, o0, f0, f1, hc', decide_true, f2]
    upd (get_mono (get_mono o0 _) _) with H1 o1 k1 m1
    have x2 := x.add l
    exact ⟨H1, rfl, keeps_left ((x2.keeps _).trans k1), w, o1, k1.bytes b,
      hash_keeps (r.hash.ext x2) (x2.get o0) k1 (by decide) (by decide)⟩
  · have hc' : ((bytesToInt (pyFrom s.randU s.sizeS) : Int) ≥ s.limit) = False := by simp; omega
    rw [if_neg hc]
    obtain ⟨H1, u1, f2, k1, r1⟩ := inc_ok L (n + 4) (r.ext x)
    obtain ⟨l1, h1⟩ := hash_obj r1.hash
    obtain ⟨H2, f3, k2, q2⟩ := hash_update L (n + 1) r1.hash r1.reg
    obtain ⟨l2, h2⟩ := hash_obj q2
    obtain ⟨w, l, f4, hw, b⟩ := (digest_ok L n q2).elim
    obtain ⟨H3, f5, k3, q3⟩ := reset_ok L (n + 4) (q2.ext ((Ext.refl _).add l))
    have o1 := r1.obj
    have o2 := keeps_hash r1.hash o1 k2 (by decide)
    have o3 := keeps_hash (q2.ext ((Ext.refl _).add l)) (get_mono o2 l) k3 (by decide)
    unfold attrs at o1 o2
    py [R132356510062017.m__rand_iter, o0, f0, f1, hc', decide_false, f2, o1, h1, f3, o2, h2, f4, f5]
    have k : Keeps [me, hr] h H2 := (keeps_left ((x.keeps _).trans k1)).trans (keeps_right k2)
    exact ⟨H3, w, rfl, (k.add l).trans (keeps_right k3), Nat.le_trans k.length hw, k3.bytes b, u1, o3,
      k3.bytes (bytesOf_mono (k2.bytes r1.reg) _), q3⟩

/-- The condition and the body of the loop of `random`. -/
def loopCond : Expr := .cmp .gt (.name "i") (.int 0)

def loopBody : List Stmt :=
  [.assign (.name "result") (.bin .add (.name "result") (.meth (.name "self") "_rand_iter" [])),
    .assign (.name "i") (.bin .sub (.name "i") (.int 1))]

theorem loop_ok (L n : Nat) (me hr : Nat) (N : Nat) : ∀ (F : Nat) (_ : N < F) (h0 h : Heap) (s : Rand) (u w : Nat)
    (acc : Bytes) (env : Env) (z : Int), RandAt s me u hr h → Keeps [me, hr] h0 h → env "self" = some (.ref me) →
    env "i" = some (.int z) → z.toNat = N → env "result" = some (.ref w) → h0.length ≤ w →
    bytesOf (.ref w) h = some acc →
    match (s.loop N acc).2 with
    | .ok b => ∃ env' h' u' w', whileLoop (fun env h => eval (ctx L (n + 7)) env loopCond h)
        (fun env h => execs (ctx L (n + 7)) loopBody env h) F env h = ok (.next env') h' ∧ Keeps [me, hr] h0 h' ∧
      env' "self" = some (.ref me) ∧ env' "result" = some (.ref w') ∧ h0.length ≤ w' ∧
      bytesOf (.ref w') h' = some b ∧ RandAt (s.loop N acc).1 me u' hr h'
    | .error (.randomError m) => ∃ h' u', whileLoop (fun env h => eval (ctx L (n + 7)) env loopCond h)
        (fun env h => execs (ctx L (n + 7)) loopBody env h) F env h = fail (.raised "GOSTRandomError" m) h' ∧
      Keeps [me, hr] h0 h' ∧ RandAt (s.loop N acc).1 me u' hr h'
    | .error _ => False := by
  induction N with
  | zero =>
    intro F hF h0 h s u w acc env z r k e1 e2 hz e3 hw b
    obtain ⟨F, rfl⟩ : ∃ F', F = F' + 1 := ⟨F - 1, by omega⟩
    have hz' : (z > 0) = False := by simp; omega
    rw [whileLoop]
    unfold loopCond
    py [e2, hz', decide_false]
    exact ⟨env, h, u, w, rfl, k, e1, e3, hw, b, r⟩
  | succ N ih =>
    intro F hF h0 h s u w acc env z r k e1 e2 hz e3 hw b
    obtain ⟨F, rfl⟩ : ∃ F', F = F' + 1 := ⟨F - 1, by omega⟩
    have hz' : (z > 0) = True := by simp; omega
    have o0 := r.obj
    unfold attrs at o0
    rw [whileLoop, Rand.loop]
    have := iter_ok L n r
    generalize s.randIter = res at *
    obtain ⟨s1, res⟩ := res
    cases res with
    | error e =>
      cases e with
      | randomError m =>
        obtain ⟨h', f, k1, u1, r1⟩ := this
        simp only
        unfold loopCond loopBody
        py [e2, hz', decide_true, e1, e3, o0, f]
        exact ⟨h', u1, rfl, k.trans k1, r1⟩
      | _ => exact this.elim
    | ok y =>
      obtain ⟨H1, w1, f, k1, hw1, b1, u1, r1⟩ := this
      simp only
      have := ih F (by omega) h0 (H1 ++ [.bytearray (acc ++ y)]) s1 u1 H1.length (acc ++ y)
        ((env.set "result" (.ref H1.length)).set "i" (.int (z - 1))) (z - 1) (r1.ext ((Ext.refl _).add _))
        ((k.trans k1).add _) (by py [e1]) (by py []) (by omega) (by py []) (k.trans k1).length (bytesOf_last _ _)
      unfold loopCond loopBody at *
      py [e2, hz', decide_true, e1, e3, o0, f, k1.bytes b, b1]
      exact this

theorem random_ok (L n : Nat) {s : Rand} {me u hr : Nat} {h : Heap} (r : RandAt s me u hr h) (hL : s.q.toNat < L) :
    Ends (call package L (n + 8) "R132356510062017.random" [.ref me] h) s.random.2 h [me, hr]
      (fun h' => ∃ u', RandAt s.random.1 me u' hr h') := by
  rw [call_succ Fn.R132356510062017.random]
  have o0 := r.obj
  unfold attrs at o0
  have x := (Ext.refl h).add [.bytearray (pyUpto s.randU s.sizeS)]
  have f1 := bytearray_to_int_ok L (n + 6) (bytesOf_last (pyUpto s.randU s.sizeS) h)
  have f0 : getSlice (.ref u) none (some s.sizeS) h = _ := getSlice_ref r.reg _ _
  unfold cut at f0
  simp only at f0
  unfold Rand.random
  by_cases hc : bytesToInt (pyUpto s.randU s.sizeS) = 0
  · have hc' : ((bytesToInt (pyUpto s.randU s.sizeS) : Int) = 0) = True := by simp; omega
    rw [if_pos hc]
    py [R132356510062017.m_random, o0, f0, f1, hc', decide_true]
    exact ⟨_, rfl, x.keeps _, u, r.ext x⟩
  · have hc' : ((bytesToInt (pyUpto s.randU s.sizeS) : Int) = 0) = False := by simp; omega
    rw [if_neg hc]
    py [R132356510062017.m_random, o0, f0, f1, hc', decide_false]
    have x2 := x.add [.bytearray (List.replicate 0 0)]
    have hl := loop_ok L n me hr s.q.toNat L hL h _ s u (h ++ [Obj.bytearray (pyUpto s.randU s.sizeS)]).length []
      (((Env.empty.set "self" (.ref me)).set "i" (.int s.q)).set "result"
        (.ref (h ++ [Obj.bytearray (pyUpto s.randU s.sizeS)]).length)) s.q
      (r.ext x2) (x2.keeps _) (by py []) (by py []) rfl (by py []) x.length (bytesOf_last _ _)
    unfold loopCond loopBody at hl
    rw [ctx_loops]
    generalize (Rand.loop s.q.toNat s []) = res at *
    obtain ⟨s1, res⟩ := res
    cases res with
    | error e =>
      cases e with
      | randomError m =>
        obtain ⟨h', u', f, k, r1⟩ := hl
        rw [f]
        py []
        exact ⟨h', rfl, k, u', r1⟩
      | _ => exact hl.elim
    | ok y =>
      obtain ⟨env, H1, u1, w, f, k, e1, e2, hw, b, r1⟩ := hl
      rw [f]
      have o1 := r1.obj
      unfold attrs at o1
      simp only
      by_cases hr0 : s1.r = 0
      · have hr0' : (s1.r = 0) = True := by simp [hr0]
        rw [if_neg (not_not_intro hr0)]
        py [e1, o1, hr0', decide_true, Bool.not_true, e2]
        exact ⟨H1, w, rfl, k, hw, b, u1, r1⟩
      · have hr0' : (s1.r = 0) = False := by simp [hr0]
        rw [if_pos hr0]
        have := iter_ok L n r1
        generalize s1.randIter = res at *
        obtain ⟨s2, res⟩ := res
        cases res with
        | error e =>
          cases e with
          | randomError m =>
            obtain ⟨h', f, k1, u2, r2⟩ := this
            py [e1, o1, hr0', decide_false, Bool.not_false, e2, f]
            exact ⟨h', rfl, k.trans k1, u2, r2⟩
          | _ => exact this.elim
        | ok y2 =>
          obtain ⟨H2, w2, f, k1, hw2, b2, u2, r2⟩ := this
          have o2 := r2.obj
          unfold attrs at o2
          have f3 : getSlice (.ref w2) (some (64 - s2.r)) (some 64) H2 = _ := getSlice_ref b2 _ _
          unfold cut at f3
          simp only at f3
          py [e1, o1, hr0', decide_false, Bool.not_false, e2, f, o2, f3, bytesOf_mono (k1.bytes b), bytesOf_last]
          exact ⟨_, _, rfl, ((k.trans k1).add _).add _, Nat.le_trans (k.trans k1).length (by simp), bytesOf_last _ _, u2,
            (r2.ext ((Ext.refl _).add _)).ext ((Ext.refl _).add _)⟩

theorem builtin_hasattr (C : Ctx) {r : Nat} {h : Heap} {cls : String} {l : List (String × Val)}
    (o : h[r]? = some (.inst cls l)) (a : String) :
    applyBuiltin C "hasattr" [.ref r, .str a] h = ok (.bool (findAttr a l).isSome) h := by
  show builtin "hasattr" [.ref r, .str a] h = _
  simp only [builtin, o]

theorem clear_ok (L n : Nat) {s : Rand} {me u hr : Nat} {h : Heap} (r : RandAt s me u hr h) :
    ∃ h' u', call package L (n + 2) "R132356510062017.clear" [.ref me] h = ok .none h' ∧ Keeps [me] h h' ∧
      RandAt s.clear me u' hr h' := by
  rw [call_succ Fn.R132356510062017.clear]
  have o0 := r.obj
  unfold attrs at o0
  obtain ⟨w, l, f2, hw, b⟩ := (zero_fill_ok L n r.reg).elim
  py [R132356510062017.m_clear]
  rw [builtin_hasattr _ o0]
  py [o0, f2]
  upd (get_mono o0 _) with H1 o1 k1 m1
  exact ⟨H1, w, rfl, ((Keeps.refl _ _).add l).trans k1, o1, k1.bytes b,
    hash_keeps (r.hash.ext ((Ext.refl _).add l)) (get_mono o0 _) k1 (by decide) (by decide)⟩

/-- The seed which is used: the one given, or random bytes. The cells `W` are changed. -/
def SeedArg (kv : Val) (h : Heap) (seed : Bytes) (size : Nat) (W : List Nat) : Prop :=
  (bytesOf kv h = some seed ∧ seed ≠ [] ∧ seed.length = size ∧ W = []) ∨
  (bytesOf kv h = some [] ∧ NextRandom seed h ∧ seed.length = size ∧ W = [0])

theorem SeedArg.keeps {kv : Val} {h h' : Heap} {seed : Bytes} {size : Nat} {W : List Nat} {U : List Nat}
    (a : SeedArg kv h seed size W) (k : Keeps U h h') (hu : ∀ u ∈ U, u = 0 → h.length ≤ u) : SeedArg kv h' seed size W := by
  rcases a with ⟨a, b, c⟩ | ⟨a, ⟨l, b⟩, c⟩
  · exact Or.inl ⟨k.bytes a, b, c⟩
  · exact Or.inr ⟨k.bytes a, ⟨l, k.get b (fun hm => by have := hu 0 hm rfl; have := get_lt b; omega)⟩, c⟩

/-- A value which is refused as seed. -/
def BadSeed (kv : Val) (h : Heap) (size : Nat) : Prop :=
  Other kv h ∨ ∃ b, bytesOf kv h = some b ∧ b ≠ [] ∧ b.length ≠ size

/-- Random bytes do not touch a hash object. -/
theorem hash_keeps0 {s : HashObj} {r : Nat} {b : Bytes} {h h' : Heap} (q : IsHash s r h) (hn : NextRandom b h)
    (k : Keeps [0] h h') : IsHash s r h' := by
  obtain ⟨l, e⟩ := hn
  obtain ⟨a, o⟩ := hash_obj q
  refine q.keeps k ?_ ?_
  · simp only [List.mem_singleton]
    rintro rfl
    rw [o] at e
    cases e
  · intro w hw str ho
    simp only [List.mem_singleton] at hw
    subst hw
    unfold OidAt at ho
    rw [ho] at e
    cases e

theorem binop_zeros (n : Int) (h : Heap) :
    binop .mul (.bytes [0]) (.int n) h = ok (.bytes (zeros n)) h := by
  have e : repeated [0] n = zeros n := by
    unfold repeated zeros
    induction n.toNat with
    | zero => rfl
    | succ k ih => rw [List.replicate_succ, List.flatten_cons, ih, List.replicate_succ]; rfl
  rw [← e]
  rfl

theorem checkValue_good {v : Val} {h : Heap} {b : Bytes} (e : bytesOf v h = some b) :
    checkValue (pyVal v h) b.length = true := by
  unfold checkValue
  rw [pyVal_data, e]
  simp

theorem checkValue_bad {v : Val} {h : Heap} {size : Nat} (e : ∀ b, bytesOf v h = some b → b.length ≠ size) :
    checkValue (pyVal v h) size = false := by
  unfold checkValue
  rw [pyVal_data]
  cases hb : bytesOf v h with
  | none => rfl
  | some b => simpa using e b hb

/-- `a + b` of byte objects. -/
theorem binop_add {v w : Val} {h : Heap} {a b : Bytes} (e1 : bytesOf v h = some a) (e2 : bytesOf w h = some b) :
    ∃ x l, binop .add v w h = ok x (h ++ l) ∧ bytesOf x (h ++ l) = some (a ++ b) := by
  cases v with
  | bytes y =>
    cases e1
    refine ⟨.bytes (a ++ b), [], ?_, rfl⟩
    rw [binop_cat_bytes _ (by rw [e2]; rfl), e2, List.append_nil]
    rfl
  | ref r =>
    refine ⟨.ref h.length, [.bytearray (a ++ b)], ?_, bytesOf_last _ _⟩
    rw [binop_cat_ref (by rw [e1]; rfl) (by rw [e2]; rfl), e1, e2]
    rfl
  | _ => cases e1

/-- The seeding in `reset`. -/
theorem reset_ok (L n : Nat) {s : Rand} {me u hr : Nat} {h : Heap} (r : RandAt s me u hr h) {kv : Val} {seed : Bytes}
    {W : List Nat} (a : SeedArg kv h seed s.sizeS W) :
    ∃ h' u', call package L (n + 3) "R132356510062017.reset" [.ref me, kv] h = ok .none h' ∧
      Keeps (me :: hr :: W) h h' ∧
      RandAt { s with randU := seed ++ zeros (64 - (s.sizeS : Int) - 1), hash := s.hash.reset } me u' hr h' := by
  rw [call_succ Fn.R132356510062017.reset]
  have o0 := r.obj
  unfold attrs at o0
  rcases a with ⟨b, hne, hl, rfl⟩ | ⟨b, hn, hl, rfl⟩
  · have hne' : (some seed == some ([] : Bytes)) = false := by simpa using hne
    have x := (Ext.refl h).add [.bytearray []]
    have f1 := check_value_ok L (n + 1) kv s.sizeS (h ++ [.bytearray []])
    rw [← hl, checkValue_good (x.bytesOf b), hl] at f1
    obtain ⟨y, l, f2, b2⟩ := binop_add (w := .bytes (zeros (64 - (s.sizeS : Int) - 1))) (x.bytesOf b) rfl
    py [R132356510062017.m_reset, x.bytesOf b, hne', x.get o0, f1, Bool.not_true, binop_zeros, f2]
    have x2 := x.add l
    generalize h ++ [.bytearray []] ++ l = H1 at *
    upd (x2.get o0) with H2 o2 k2 m2
    py [k2.bytes b2]
    upd (get_mono o2 _) with H3 o3 k3 m3
    have k := ((x2.keeps _).trans k2).add [.bytearray (seed ++ zeros (64 - (s.sizeS : Int) - 1))]
    have q2 := hash_keeps (r.hash.ext x2) (x2.get o0) k2 (by decide) (by decide)
    have q3 := hash_keeps (q2.ext ((Ext.refl _).add _)) (get_mono o2 _) k3 (by decide) (by decide)
    obtain ⟨l3, h3⟩ := hash_obj q3
    obtain ⟨H4, f4, k4, q4⟩ := Streebog.reset_ok L n q3
    simp only [execs_nil, thenRun_next]
    py [o3, h3, f4]
    exact ⟨H4, _, rfl, (keeps_left (k.trans k3)).trans (keeps_right k4), keeps_hash q3 o3 k4 (by decide),
      k4.bytes (k3.bytes (bytesOf_last _ _)), q4⟩
  · have x := (Ext.refl h).add [.bytearray []]
    have hn1 : NextRandom seed (h ++ [.bytearray []]) := by
      obtain ⟨l, e⟩ := hn
      exact ⟨l, x.get e⟩
    have hme : me ≠ 0 := by
      rintro rfl
      obtain ⟨l, e⟩ := hn
      rw [o0] at e
      cases e
    obtain ⟨H1, f1, k1, m1⟩ := urandom_ok (ctx L (n + 2)) hn1 s.sizeS hl
    have o1 := k1.get (x.get o0) (by simpa using hme)
    py [R132356510062017.m_reset, x.bytesOf b, x.get o0, f1, o1, binop_zeros, show (some ([] : Bytes) == some []) = true from rfl]
    have b2 := bytesOf_last (seed ++ zeros (64 - (s.sizeS : Int) - 1)) (H1 ++ [.bytearray (zeros (64 - (s.sizeS : Int) - 1))])
    have x2 := ((Ext.refl H1).add [.bytearray (zeros (64 - (s.sizeS : Int) - 1))]).add
      [.bytearray (seed ++ zeros (64 - (s.sizeS : Int) - 1))]
    generalize H1 ++ [.bytearray (zeros (64 - (s.sizeS : Int) - 1))] ++ [.bytearray (seed ++ zeros (64 - (s.sizeS : Int) - 1))] = H2 at *
    generalize (H1 ++ [Obj.bytearray (zeros (64 - (s.sizeS : Int) - 1))]).length = u2 at *
    upd (x2.get o1) with H3 o3 k3 m3
    have q1 := (hash_keeps0 (r.hash.ext x) hn1 k1).ext x2
    have q3 := hash_keeps q1 (x2.get o1) k3 (by decide) (by decide)
    obtain ⟨l3, h3⟩ := hash_obj q3
    obtain ⟨H4, f4, k4, q4⟩ := Streebog.reset_ok L n q3
    py [h3, f4]
    have k : Keeps [me, hr, 0] h H2 := ((x.keeps _).trans (k1.mono (by simp))).trans (x2.keeps _)
    exact ⟨H4, _, rfl, (k.trans (keeps_head k3)).trans (k4.mono (by simp)), keeps_hash q3 o3 k4 (by decide),
      k4.bytes (k3.bytes b2), q4⟩

theorem bad_eq {kv : Val} {h : Heap} {size : Nat} (a : BadSeed kv h size) : (bytesOf kv h == some []) = false ∧
    ∀ b, bytesOf kv h = some b → b.length ≠ size := by
  rcases a with ⟨a, -⟩ | ⟨b, e, h1, h2⟩
  · rw [a]
    exact ⟨rfl, fun b hb => by cases hb⟩
  · rw [e]
    exact ⟨by simpa using h1, fun b hb => by cases hb; exact h2⟩

theorem BadSeed.keeps {kv : Val} {h h' : Heap} {size : Nat} {W : List Nat} (a : BadSeed kv h size) (k : Keeps W h h')
    (hw : ∀ w ∈ W, h.length ≤ w) : BadSeed kv h' size := by
  rcases a with a | ⟨b, e, a⟩
  · exact Or.inl (a.keeps k hw)
  · exact Or.inr ⟨b, k.bytes e, a⟩

theorem reset_bad (L n : Nat) {s : Rand} {me u hr : Nat} {h : Heap} (r : RandAt s me u hr h) {kv : Val}
    (a : BadSeed kv h s.sizeS) :
    ∃ h', call package L (n + 3) "R132356510062017.reset" [.ref me, kv] h =
        fail (.raised "GOSTRandomError" "GOSTRandomError: invalid seed value") h' ∧ Ext h h' ∧
      RandAt s me u hr h' := by
  rw [call_succ Fn.R132356510062017.reset]
  have o0 := r.obj
  unfold attrs at o0
  have x := (Ext.refl h).add [.bytearray []]
  obtain ⟨a1, a2⟩ := bad_eq (a.keeps (x.keeps []) (by simp))
  have f1 := check_value_ok L (n + 1) kv s.sizeS (h ++ [.bytearray []])
  rw [checkValue_bad a2] at f1
  py [R132356510062017.m_reset, a1, x.get o0, f1, Bool.not_false]
  exact ⟨_, rfl, x, r.ext x⟩

theorem reset_default (L n : Nat) (me : Nat) (h : Heap) :
    call package L (n + 1) "R132356510062017.reset" [.ref me] h =
      call package L (n + 1) "R132356510062017.reset" [.ref me, .ref h.length] (h ++ [.bytearray []]) := by
  rw [call_succ Fn.R132356510062017.reset, call_succ Fn.R132356510062017.reset]
  rfl

/-- The first statements of `__init__`. -/
theorem init_seed (L n : Nat) {me : Nat} {h : Heap} (o : h[me]? = some (.inst "R132356510062017" [])) {kv : Val}
    {seed : Bytes} {size : Nat} {W : List Nat} (a : SeedArg kv h seed size W) {env : Env}
    (e1 : env "self" = some (.ref me)) (e2 : env "rand_k" = some kv) (e3 : env "size_s" = some (.int size))
    (rest : List Stmt) :
    ∃ h' u, execs (ctx L (n + 2)) (.assign (.attr (.name "self") "_size_s") (.name "size_s") ::
     .assign (.attr (.name "self") "_rand_u") (.builtin "bytearray" [.bytes []]) ::
     .if_ (.cmp .eq (.name "rand_k") (.builtin "bytearray" [.bytes []]))
        [.assign (.attr (.name "self") "_rand_u") (.builtin "bytearray" [.bin .add (.builtin
            "os.urandom" [.attr (.name "self") "_size_s"]) (.bin .mul (.bytes [0]) (.bin .sub
            (.bin .sub (.glob "Random._SIZE_M") (.attr (.name "self") "_size_s")) (.int 1)))])]
        [.if_ (.not (.call "Utils.check_value" [.name "rand_k", .attr (.name "self") "_size_s"]))
            [.raise "GOSTRandomError" "GOSTRandomError: invalid seed value"]
            [],
         .assign (.attr (.name "self") "_rand_u") (.bin .add (.name "rand_k") (.builtin
             "bytearray" [.bin .mul (.bytes [0]) (.bin .sub (.bin .sub (.glob "Random._SIZE_M")
             (.attr (.name "self") "_size_s")) (.int 1))])),
         .assign (.attr (.name "self") "_rand_u") (.builtin "bytearray" [.attr (.name "self")
             "_rand_u"])] :: rest) env h = execs (ctx L (n + 2)) rest env h' ∧ Keeps (me :: W) h h' ∧
      h'[me]? = some (.inst "R132356510062017" [("_size_s", .int size), ("_rand_u", .ref u)]) ∧
      bytesOf (.ref u) h' = some (seed ++ zeros (64 - (size : Int) - 1)) := by
  py [e1, e3]
  upd o with H1 o1 k1 m1
  py [e1]
  upd (get_mono o1 _) with H2 o2 k2 m2
  have k := (k1.add [.bytearray []]).trans k2
  have x := (Ext.refl H2).add [.bytearray []]
  clear m1 m2
  rcases a with ⟨b, hne, hl, rfl⟩ | ⟨b, hn, hl, rfl⟩
  · have hne' : (some seed == some ([] : Bytes)) = false := by simpa using hne
    have b2 := x.bytesOf (k.bytes b)
    have f1 := check_value_ok L (n + 1) kv size (H2 ++ [.bytearray []])
    rw [← hl, checkValue_good b2, hl] at f1
    obtain ⟨y, l, f2, b3⟩ := binop_add (bytesOf_mono b2 [.bytearray (zeros (64 - (size : Int) - 1))])
      (bytesOf_last (zeros (64 - (size : Int) - 1)) (H2 ++ [.bytearray []]))
    py [e1, e2, b2, hne', x.get o2, f1, Bool.not_true, binop_zeros, f2]
    have x2 := (x.add [.bytearray (zeros (64 - (size : Int) - 1))]).add l
    generalize H2 ++ [.bytearray []] ++ [.bytearray (zeros (64 - (size : Int) - 1))] ++ l = H3 at *
    upd (x2.get o2) with H4 o4 k4 m4
    py [k4.bytes b3, e1]
    upd (get_mono o4 _) with H5 o5 k5 m5
    try simp only [execs_nil, thenRun_next]
    refine ⟨H5, _, rfl, (((k.trans (x2.keeps _)).trans k4).add _).trans k5, o5, k5.bytes (bytesOf_last _ _)⟩
  · have hme : me ≠ 0 := by
      rintro rfl
      obtain ⟨l, e⟩ := hn
      rw [o] at e
      cases e
    have hn1 : NextRandom seed (H2 ++ [.bytearray []]) := by
      obtain ⟨l, e⟩ := hn
      exact ⟨l, x.get (k.get e (by simpa using hme.symm))⟩
    obtain ⟨H3, f1, k3, m3⟩ := urandom_ok (ctx L (n + 2)) hn1 size hl
    have o3 := k3.get (x.get o2) (by simpa using hme)
    py [e1, e2, x.bytesOf (k.bytes b), x.get o2, f1, o3, binop_zeros, show (some ([] : Bytes) == some []) = true from rfl]
    upd (get_mono o3 _) with H4 o4 k4 m4
    exact ⟨H4, _, rfl, ((((keeps_left k).trans (x.keeps _)).trans (keeps_right k3)).add _).trans (keeps_left k4), o4,
      k4.bytes (bytesOf_last _ _)⟩

/-- The other statements of `__init__`. -/
theorem init_rest (L n : Nat) {me u : Nat} {h : Heap} {size : Nat} {b : Bytes}
    (o : h[me]? = some (.inst "R132356510062017" [("_size_s", .int size), ("_rand_u", .ref u)]))
    (bu : bytesOf (.ref u) h = some b) (hs : size ≤ 64) (z : Int) {env : Env}
    (e1 : env "self" = some (.ref me)) (e2 : env "rand_size" = some (.int z)) :
    ∃ h' hr, atEnd (execs (ctx L (n + 6)) [
     .assign (.attr (.name "self") "_q") (.bin .floordiv (.name "rand_size") (.glob
         "Random._SIZE_H")),
     .assign (.attr (.name "self") "_r") (.bin .mod (.name "rand_size") (.glob "Random._SIZE_H")),
     .assign (.attr (.name "self") "_limit") (.bin .pow (.int 2) (.bin .mul (.bin .sub (.glob
         "Random._SIZE_M") (.attr (.name "self") "_size_s")) (.int 8))),
     .assign (.attr (.name "self") "_hash_obj") (.new "GOST34112012" [.str "streebog512",
         .builtin "bytearray" [.bytes []]])] env h) = ok .none h' ∧ Keeps [me] h h' ∧ h.length ≤ hr ∧
      RandAt ⟨size, b, z.fdiv 64, z.fmod 64, randLimit size, HashObj.hashInit "streebog512"⟩ me u hr h' := by
  unfold atEnd
  have hp : arith .pow 2 ((64 - (size : Int)) * 8) = .ok ((randLimit size : Nat) : Int) := by
    have h1 : ¬ ((64 - (size : Int)) * 8 < 0) := by omega
    simp only [arith, if_neg h1]
    unfold randLimit
    rw [if_pos (by omega), show ((64 - (size : Int)) * 8).toNat = (64 - size) * 8 by omega]
    simp
  py [e1, e2, fdiv_64]
  upd o with H1 o1 k1 m1
  py [e1, e2, fmod_64]
  upd o1 with H2 o2 k2 m2
  py [e1, o2, hp]
  upd o2 with H3 o3 k3 m3
  have k := (k1.trans k2).trans k3
  have x := (Ext.refl H3).add [.bytearray []]
  obtain ⟨H4, f4, x4, q4⟩ := (hash_new L n (H3 ++ [.bytearray []]) "streebog512" (.ref H3.length)).1 [] (bytesOf_last _ _)
  rw [updateBytes_nil] at q4
  py [e1, f4]
  have x5 := x.trans x4
  have hx := x.length
  generalize (H3 ++ [Obj.bytearray []]).length = hr at *
  upd (x5.get o3) with H5 o5 k5 m5
  exact ⟨H5, hr, rfl, (k.trans (x5.keeps _)).trans k5, Nat.le_trans k.length hx, o5,
    k5.bytes (x5.bytesOf (k.bytes bu)), hash_keeps q4 (x5.get o3) k5 (by decide) (by decide)⟩

/-- What the constructor makes. -/
def initOf (z : Int) (seed : Bytes) (size : Nat) : Rand :=
  ⟨size, seed ++ zeros (64 - (size : Int) - 1), z.fdiv 64, z.fmod 64, randLimit size, HashObj.hashInit "streebog512"⟩

theorem init_ok (L n : Nat) {me : Nat} {h : Heap} (o : h[me]? = some (.inst "R132356510062017" [])) {kv : Val}
    {seed : Bytes} {size : Nat} {W : List Nat} (a : SeedArg kv h seed size W) (hs : size ≤ 64) (z : Int) :
    ∃ h' u hr, call package L (n + 7) "R132356510062017.__init__" [.ref me, .int z, kv, .int size] h = ok .none h' ∧
      Keeps (me :: W) h h' ∧ h.length ≤ hr ∧ RandAt (initOf z seed size) me u hr h' := by
  rw [call_succ Fn.R132356510062017.__init__]
  rw [run_body h rfl rfl]
  unfold R132356510062017.m___init__
  obtain ⟨H1, u, f1, k1, o1, b1⟩ := init_seed L (n + 4) o a
    (env := (((Env.empty.set "self" (.ref me)).set "rand_size" (.int z)).set "rand_k" kv).set "size_s" (.int size))
    (by py []) (by py []) (by py []) _
  obtain ⟨H2, hr, f2, k2, h2, r2⟩ := init_rest L n o1 b1 hs z
    (env := (((Env.empty.set "self" (.ref me)).set "rand_size" (.int z)).set "rand_k" kv).set "size_s" (.int size))
    (by py []) (by py [])
  rw [f1]
  exact ⟨H2, u, hr, f2, k1.trans (k2.mono (by simp)), Nat.le_trans k1.length h2, r2⟩

theorem init_bad (L n : Nat) {me : Nat} {h0 h : Heap} (o : h[me]? = some (.inst "R132356510062017" []))
    (hm : h0.length ≤ me) (k0 : Keeps [me] h0 h) {kv : Val} {size : Nat} (a : BadSeed kv h0 size) (zv : Val) :
    ∃ h', call package L (n + 2) "R132356510062017.__init__" [.ref me, zv, kv, .int size] h =
      fail (.raised "GOSTRandomError" "GOSTRandomError: invalid seed value") h' ∧ Keeps [me] h0 h' ∧
      ∃ l v b, h'[me]? = some (.inst "R132356510062017" l) ∧ findAttr "_rand_u" l = some v ∧
        bytesOf v h' = some b := by
  rw [call_succ Fn.R132356510062017.__init__]
  py [R132356510062017.m___init__]
  upd o with H1 o1 k1 m1
  py []
  upd (get_mono o1 _) with H2 o2 k2 m2
  have k := (((k0.trans k1).add [.bytearray []]).trans k2).add [.bytearray []]
  obtain ⟨a1, a2⟩ := bad_eq (a.keeps k (by simpa using hm))
  have f1 := check_value_ok L n kv size (H2 ++ [.bytearray []])
  rw [checkValue_bad a2] at f1
  py [a1, get_mono o2, f1, Bool.not_false]
  exact ⟨_, rfl, k, _, _, _, get_mono o2 _, by py [], bytesOf_mono (k2.bytes (bytesOf_last [] H1)) _⟩

/-- The values of `rand_k` and `size_s` among the keyword arguments. -/
def seedVal (l : List (String × Val)) (d : Val) : Val := (findAttr "rand_k" l).getD d

def sizeVal (l : List (String × Val)) : Val := (findAttr "size_s" l).getD (.int 48)

theorem new_ok (L n : Nat) (h : Heap) (z : Int) (l : List (String × Val)) {size : Nat} (hv : sizeVal l = .int size)
    (hs : size ≤ 64) {seed : Bytes} {W : List Nat} (a : SeedArg (seedVal l (.bytes [])) h seed size W) :
    ∃ h' r u hr, call package L (n + 8) "Random.new" [.int z, .dict l] h = ok (.ref r) h' ∧ Keeps W h h' ∧
      h.length ≤ r ∧ h.length ≤ hr ∧ RandAt (initOf z seed size) r u hr h' := by
  rw [call_succ Fn.Random.new]
  have x := (Ext.refl h).add [.bytearray []]
  have y := x.add [.inst "R132356510062017" []]
  have a' : SeedArg (seedVal l (.ref h.length)) (h ++ [.bytearray []] ++ [.inst "R132356510062017" []]) seed size W := by
    have e0 := a.keeps (y.keeps []) (by simp)
    unfold seedVal at *
    cases hf : findAttr "rand_k" l with
    | some v => rw [hf] at e0; exact e0
    | none =>
      rw [hf] at e0
      rcases e0 with ⟨a, b, c⟩ | ⟨a, b⟩
      · cases a
        exact absurd rfl b
      · exact Or.inr ⟨bytesOf_mono (bytesOf_last [] h) _, b⟩
  py [Random.f_new]
  rw [show (findAttr "rand_k" l).getD (.ref h.length) = seedVal l (.ref h.length) from rfl,
    show (findAttr "size_s" l).getD (.int 48) = sizeVal l from rfl, hv]
  unfold instantiate
  py []
  obtain ⟨h', u, hr, f, k, h1, r⟩ := init_ok L n (get_last (h ++ [.bytearray []]) (.inst "R132356510062017" [])) a' hs z
  have hlen : h.length ≤ (h ++ [Obj.bytearray []]).length := x.length
  have hle := y.length
  generalize (h ++ [Obj.bytearray []]).length = me at *
  py [f]
  refine ⟨h', me, u, hr, rfl, (y.keeps _).then k ?_, hlen, Nat.le_trans hle h1, r⟩
  intro w hw
  rw [List.mem_cons] at hw
  rcases hw with rfl | hw
  · exact Or.inr hlen
  · exact Or.inl hw

theorem new_bad (L n : Nat) (h : Heap) (zv : Val) (l : List (String × Val)) {size : Nat} (hv : sizeVal l = .int size)
    {kv : Val} (hf : findAttr "rand_k" l = some kv) (a : BadSeed kv h size) :
    ∃ h', call package L (n + 3) "Random.new" [zv, .dict l] h =
      fail (.raised "GOSTRandomError" "GOSTRandomError: invalid seed value") h' ∧ Ext h h' := by
  rw [call_succ Fn.Random.new]
  have x := (Ext.refl h).add [.bytearray []]
  py [Random.f_new, hf, Option.getD_some]
  rw [show (findAttr "size_s" l).getD (.int 48) = sizeVal l from rfl, hv]
  unfold instantiate
  py []
  obtain ⟨h', f, k, -⟩ := init_bad L n (get_last (h ++ [.bytearray []]) (.inst "R132356510062017" [])) x.length
    ((x.keeps _).add _) a zv
  have hlen := x.length
  py [f]
  exact ⟨h', rfl, (k.mono (by simp)).ext⟩

end RandomSrc

end Gost.Src
