import Verif.SourceProofs.Several
import Verif.Props.SourceMac
import Verif.Props.SourcePbkdf
import Verif.Props.SourceRandom
import Verif.Props.SourceSignature

/-! Objects of every kind in one memory: lemmas for C131. -/

namespace Gost.Src
open ModesSrc
open Streebog (IsHash OidAt HashAt)
open HmacSrc (IsHmac HmacAt)
open PbkdfSrc (PbkdfAt)
open RandomSrc (RandAt)
open SigSrc (SigCell sigAttrs)

/-- An object of the package: a cipher of any mode (also MAC), a hash function, an HMAC, a key derivation, a
generator, a signature object. -/
inductive Thing where
  | cipher (c : Cipher)
  | hash (s : HashObj)
  | hmac (s : Gost.Hmac)
  | pbkdf (s : Gost.Pbkdf)
  | rand (s : Gost.Rand)
  | sig (s : Sig)

/-- The cell `me` is the object; its methods change nothing that existed but the cells `P`. The blocks of an
output of a generator are fewer than the turns `L` which a loop is followed. The curve of a signature object is one of
at most 512 bits, and the depth `n` of nested calls is enough for it. -/
def IsThing (L n : Nat) : Thing → Nat → List Nat → Heap → Prop
  | .cipher c, me, P, h => IsCipher c me P h
  | .hash s, me, P, h => IsHash s me h ∧ P = [me]
  | .hmac s, me, P, h => ∃ hr, IsHmac s me hr h ∧ P = [me, hr]
  | .pbkdf s, me, P, h => ∃ c, PbkdfAt s me c h ∧ P = [me, c.hmac, c.hash]
  | .rand s, me, P, h => ∃ u hr, RandAt s me u hr h ∧ s.q.toNat < L ∧ P = [me, hr]
  | .sig s, me, P, h => ∃ o, SigCell s me o h ∧ 0 < L ∧ 732 ≤ n ∧ 0 < s.p ∧ s.p ≤ 2 ^ 512 ∧ 0 < s.q ∧ s.q ≤ 2 ^ 512 ∧ P = []

section
variable {h h' : Heap} {me : Nat}

theorem isHash_kept {s : HashObj} {a : Nat} (r : IsHash s a h) (k : Kept me h h') (c : Reach h [.ref me] a) :
    IsHash s a h' := by
  obtain ⟨o, d, r, ho⟩ := r
  have g : ∀ x v, findAttr x (d.attrs s.name [("oid", .ref o)]) = some v → ∀ w ∈ v.refs, Reach h [.ref me] w :=
    fun x v e w hw => kept_attr c r.obj e hw
  have b : ∀ x v, findAttr x (d.attrs s.name [("oid", .ref o)]) = some v → bytesOf v h' = bytesOf v h :=
    fun x v e => kept_bytes k (g x v e)
  refine ⟨o, d, ⟨(k _ c).trans r.obj, ?_, ?_, ?_, ?_, r.lh, r.ln, r.ls⟩, ?_⟩
  · rw [b "_buff" (.ref d.buff) (by simp [Streebog.Cells.attrs, findAttr])]; exact r.bb
  · rw [b "_hash_h" (.ref d.h) (by simp [Streebog.Cells.attrs, findAttr])]; exact r.bh
  · rw [b "_hash_n" (.ref d.n) (by simp [Streebog.Cells.attrs, findAttr])]; exact r.bn
  · rw [b "_hash_sigma" (.ref d.sigma) (by simp [Streebog.Cells.attrs, findAttr])]; exact r.bs
  · exact (k _ (g "oid" (.ref o) (by simp [Streebog.Cells.attrs, findAttr]) o (by simp [Val.refs]))).trans ho

theorem isHmac_kept {s : Gost.Hmac} {a hr : Nat} (r : IsHmac s a hr h) (k : Kept me h h') (c : Reach h [.ref me] a) :
    IsHmac s a hr h' ∧ Reach h [.ref me] hr := by
  obtain ⟨kv, o, r, bk, q, ho⟩ := r
  have g : ∀ x v, findAttr x [("_key", kv), ("oid", .ref o), ("_hasher_obj", .ref hr), ("_counter", .int s.counter)] = some v →
      ∀ w ∈ v.refs, Reach h [.ref me] w := fun x v e w hw => kept_attr c r e hw
  have rh := g "_hasher_obj" (.ref hr) (by simp [findAttr]) hr (by simp [Val.refs])
  refine ⟨⟨kv, o, (k _ c).trans r, ?_, isHash_kept q k rh, ?_⟩, rh⟩
  · rw [kept_bytes k (g "_key" kv (by simp [findAttr]))]; exact bk
  · exact (k _ (g "oid" (.ref o) (by simp [findAttr]) o (by simp [Val.refs]))).trans ho

theorem pbkdfAt_kept {s : Gost.Pbkdf} {c : PbkdfSrc.Cells} (r : PbkdfAt s me c h) (k : Kept me h h') :
    PbkdfAt s me c h' ∧ ∀ p ∈ [me, c.hmac, c.hash], Reach h [.ref me] p := by
  have g : ∀ x v, findAttr x (c.attrs s) = some v → ∀ w ∈ v.refs, Reach h [.ref me] w :=
    fun x v e w hw => kept_attr reach_me r.obj e hw
  have rh := g "_hmac_obj" (.ref c.hmac) (by simp [PbkdfSrc.Cells.attrs, findAttr]) c.hmac (by simp [Val.refs])
  obtain ⟨q, rr⟩ := isHmac_kept r.hmac k rh
  refine ⟨⟨(k _ reach_me).trans r.obj, ?_, ?_, q⟩, fun p hp => ?_⟩
  · rw [kept_bytes k (g "_password" c.password (by simp [PbkdfSrc.Cells.attrs, findAttr]))]; exact r.pw
  · rw [kept_bytes k (g "_salt" (.ref c.salt) (by simp [PbkdfSrc.Cells.attrs, findAttr]))]; exact r.salt
  · simp only [List.mem_cons, List.not_mem_nil, or_false] at hp
    rcases hp with rfl | rfl | rfl
    · exact reach_me
    · exact rh
    · exact rr

theorem randAt_kept {s : Gost.Rand} {u hr : Nat} (r : RandAt s me u hr h) (k : Kept me h h') :
    RandAt s me u hr h' ∧ Reach h [.ref me] hr := by
  have g : ∀ x v, findAttr x (RandomSrc.attrs s u hr) = some v → ∀ w ∈ v.refs, Reach h [.ref me] w :=
    fun x v e w hw => kept_attr reach_me r.obj e hw
  have rh := g "_hash_obj" (.ref hr) (by simp [RandomSrc.attrs, findAttr]) hr (by simp [Val.refs])
  refine ⟨⟨(k _ reach_me).trans r.obj, ?_, isHash_kept r.hash k rh⟩, rh⟩
  rw [kept_bytes k (g "_rand_u" (.ref u) (by simp [RandomSrc.attrs, findAttr]))]; exact r.reg

/-- Every object depends only on what it reaches. -/
theorem isThing_kept {L n : Nat} {t : Thing} {P : List Nat} (a : IsThing L n t me P h) (k : Kept me h h') :
    IsThing L n t me P h' ∧ ∀ p ∈ P, Reach h [.ref me] p := by
  cases t with
  | cipher c => exact IsCipher.kept a k
  | hash s =>
    obtain ⟨r, rfl⟩ := a
    exact ⟨⟨isHash_kept r k reach_me, rfl⟩, by simpa using reach_me⟩
  | hmac s =>
    obtain ⟨hr, r, rfl⟩ := a
    obtain ⟨q, rr⟩ := isHmac_kept r k reach_me
    exact ⟨⟨hr, q, rfl⟩, by simpa using ⟨reach_me, rr⟩⟩
  | pbkdf s =>
    obtain ⟨c, r, rfl⟩ := a
    exact ⟨⟨c, (pbkdfAt_kept r k).1, rfl⟩, (pbkdfAt_kept r k).2⟩
  | rand s =>
    obtain ⟨u, hr, r, hL, rfl⟩ := a
    obtain ⟨q, rr⟩ := randAt_kept r k
    exact ⟨⟨u, hr, q, hL, rfl⟩, by simpa using ⟨reach_me, rr⟩⟩
  | sig s =>
    obtain ⟨o, r, h1, h2, h3, h4, h5, h6, rfl⟩ := a
    exact ⟨⟨o, (k _ reach_me).trans r, h1, h2, h3, h4, h5, h6, rfl⟩, by simp⟩

theorem isThing_depends {L n : Nat} : Depends (IsThing L n) where
  kept a k := (isThing_kept a k).1
  reaches {_ _ _ h} a := (isThing_kept (h' := h) a fun _ _ => rfl).2
  inst {t me P h} a := by
    cases t with
    | cipher c => exact IsCipher.inst a
    | hash s => obtain ⟨⟨o, c, r, -⟩, -⟩ := a; exact ⟨_, _, r.obj⟩
    | hmac s => obtain ⟨hr, ⟨kv, o, r, -⟩, -⟩ := a; exact ⟨_, _, r⟩
    | pbkdf s => obtain ⟨c, r, -⟩ := a; exact ⟨_, _, r.obj⟩
    | rand s => obtain ⟨u, hr, r, -⟩ := a; exact ⟨_, _, r.obj⟩
    | sig s => obtain ⟨o, r, -⟩ := a; exact ⟨_, _, r⟩

/-- A hash object reaches itself, byte arrays and its object identifier. -/
theorem isHash_reach {s : HashObj} (r : IsHash s me h) {x : Nat} (c : Reach h [.ref me] x) :
    x = me ∨ (∃ b, h[x]? = some (.bytearray b)) ∨ ∃ str, OidAt str x h := by
  obtain ⟨o, d, r, ho⟩ := r
  induction c with
  | arg hr => exact .inl (by simpa [Val.refsList, Val.refs] using hr)
  | step _ e hr ih =>
    rcases ih with rfl | ⟨b, g⟩ | ⟨str, g⟩
    · rw [r.obj] at e
      cases e
      simp only [Obj.refs, Streebog.Cells.attrs, Val.refsDict, Val.refs, List.nil_append, List.cons_append,
        List.append_nil, List.mem_cons, List.not_mem_nil, or_false] at hr
      have b : ∀ {w : Nat} {b : Bytes}, bytesOf (.ref w) h = some b → ∃ b, h[w]? = some (.bytearray b) :=
        fun e => ⟨_, Streebog.get_of_bytes e⟩
      rcases hr with rfl | rfl | rfl | rfl | rfl
      · exact .inr (.inl (b r.bb))
      · exact .inr (.inl (b r.bh))
      · exact .inr (.inl (b r.bn))
      · exact .inr (.inl (b r.bs))
      · exact .inr (.inr ⟨_, ho⟩)
    · rw [g] at e; cases e; simp [Obj.refs] at hr
    · rw [g] at e; cases e; simp [Obj.refs, Val.refsDict, Val.refs] at hr

/-- An HMAC object reaches itself, its hash object, byte arrays and object identifiers. -/
theorem isHmac_reach {s : Gost.Hmac} {hr : Nat} (r : IsHmac s me hr h) {x : Nat} (c : Reach h [.ref me] x) :
    x = me ∨ x = hr ∨ (∃ b, h[x]? = some (.bytearray b)) ∨ ∃ str, OidAt str x h := by
  obtain ⟨kv, o, r, bk, q, ho⟩ := r
  induction c with
  | arg hx => exact .inl (by simpa [Val.refsList, Val.refs] using hx)
  | step _ e hx ih =>
    rcases ih with rfl | rfl | ⟨b, g⟩ | ⟨str, g⟩
    · rw [r] at e
      cases e
      simp only [Obj.refs, Val.refsDict, Val.refs, List.nil_append, List.cons_append, List.append_nil, List.mem_append,
        List.mem_cons, List.not_mem_nil, or_false] at hx
      rcases hx with hx | rfl | rfl
      · cases kv with
        | ref w =>
          simp only [Val.refs, List.mem_singleton] at hx
          subst hx
          exact .inr (.inr (.inl ⟨_, Streebog.get_of_bytes bk⟩))
        | bytes b => simp [Val.refs] at hx
        | _ => cases bk
      · exact .inr (.inr (.inr ⟨_, ho⟩))
      · exact .inr (.inl rfl)
    · rcases isHash_reach q (.step reach_me e hx) with h1 | h1
      · exact .inr (.inl h1)
      · exact .inr (.inr h1)
    · rw [g] at e; cases e; simp [Obj.refs] at hx
    · rw [g] at e; cases e; simp [Obj.refs, Val.refsDict, Val.refs] at hx

end

/-- The result of a method of an object. -/
theorem fresh_meth_ok (L n : Nat) (m : String) {me : Nat} {cls : String} {l : List (String × Val)} {args : List Val}
    {h : Heap} (g : h[me]? = some (.inst cls l)) (w : Sound h (.ref 0 :: .ref me :: args)) {v : Val} {h' : Heap}
    (e : callMeth (ctx L n) (.ref me) m args h = ok v h') :
    FromOrNew h (.ref 0 :: .ref me :: args) h' (v :: .ref 0 :: .ref me :: args) ∧
    Sound h' (v :: .ref 0 :: .ref me :: args) := by
  simp only [callMeth, g] at e
  split at e
  · rename_i f st _
    rw [ctx_call] at e
    refine fresh L n f w (.inl (reach_source h _)) (fun r hr => .arg ?_) e
    rw [refsList_cons]
    refine List.mem_cons_of_mem _ ?_
    cases st
    · exact hr
    · rw [refsList_cons]
      exact List.mem_cons_of_mem _ hr
  · cases e

end Gost.Src
