import Verif.Props.SourceContentsCipher
import Verif.Props.SourceExceptionsOther

/-! C117 for `gostsignature`. -/

namespace Gost.Src

open Spec ModesSrc SigSrc

/-- A use of a signature object. -/
inductive SigCall (α : Type) where
  | key (k : α)
  | sign (k d r : α)
  | verify (k d g : α)

/-- The use as it is written. -/
def SigCall.use : SigCall Val → Use
  | .key k => .meth "public_key_generate" [k]
  | .sign k d r => .meth "sign" [k, d, r]
  | .verify k d g => .meth "verify" [k, d, g]

/-- The contents of the arguments. -/
def SigCall.contents (h : Heap) : SigCall Val → SigCall (Option Bytes)
  | .key k => .key (bytesOf k h)
  | .sign k d r => .sign (bytesOf k h) (bytesOf d h) (bytesOf r h)
  | .verify k d g => .verify (bytesOf k h) (bytesOf d h) (bytesOf g h)

/-- The arguments exist, and the random value of `sign` is not empty. -/
def SigCall.Known (h : Heap) : SigCall Val → Prop
  | .key k => ModesSrc.Known k h
  | .sign k d r => ModesSrc.Known k h ∧ ModesSrc.Known d h ∧ ModesSrc.Known r h ∧ bytesOf r h ≠ some []
  | .verify k d g => ModesSrc.Known k h ∧ ModesSrc.Known d h ∧ ModesSrc.Known g h

/-- What is seen of bytes, of an exception and of a loop which does not end within its bound. -/
def obsBytes : Option (Res Bytes) → Obs
  | some (.ok b) => .bytes b
  | some (.error e) => .exc (exc e)
  | none => .exc .fuel

def obsBool : Option (Res Bool) → Obs
  | some (.ok b) => .val (.bool b)
  | some (.error e) => .exc (exc e)
  | none => .exc .fuel

/-- What is seen of a use, by the contents of the arguments. -/
def SigCall.act (s : Sig) (F : Nat) : SigCall (Option Bytes) → Obs
  | .key k => obsBytes (s.publicKeyGenerate F (asBytes k))
  | .sign k d r => obsBytes (s.sign F (fun _ => []) (asBytes k) (asBytes d) (asBytes r))
  | .verify k d g => obsBool (s.verify F (asBytes k) (asBytes d) (asBytes g))

theorem bytesResult_obs {o : Out Val} {h : Heap} {r : Option (Res Bytes)} (b : BytesResult [] o h r) :
    obs o = obsBytes r ∧ Ext h o.2 := by
  unfold BytesResult at b
  match r, b with
  | some (.ok _), b =>
    obtain ⟨h', v, rfl, k, -, e⟩ := b
    exact ⟨obsVal_bytes e, k.ext⟩
  | some (.error e), b =>
    obtain ⟨h', rfl, k⟩ := b
    exact ⟨rfl, k.ext⟩
  | none, b =>
    obtain ⟨h', rfl, k⟩ := b
    exact ⟨rfl, k.ext⟩

theorem boolResult_obs {o : Out Val} {h : Heap} {r : Option (Res Bool)} (b : BoolResult o h r) :
    obs o = obsBool r ∧ Ext h o.2 := by
  unfold BoolResult at b
  match r, b with
  | some (.ok _), b =>
    obtain ⟨l, rfl⟩ := b
    exact ⟨rfl, (Ext.refl h).add l⟩
  | some (.error e), b =>
    obtain ⟨l, rfl⟩ := b
    exact ⟨rfl, (Ext.refl h).add l⟩
  | none, b =>
    obtain ⟨l, rfl⟩ := b
    exact ⟨rfl, (Ext.refl h).add l⟩

theorem public_asBytes (s : Sig) (F : Nat) (v : PyVal) : s.publicKeyGenerate F v = s.publicKeyGenerate F (asBytes v.data?) := by
  cases v <;> rfl

theorem sign_asBytes (s : Sig) (F : Nat) (rand : Nat → Bytes) (v d r : PyVal) :
    s.sign F rand v d r = s.sign F rand (asBytes v.data?) (asBytes d.data?) (asBytes r.data?) := by
  cases v <;> cases d <;> cases r <;> rfl

theorem verify_asBytes (s : Sig) (F : Nat) (v d r : PyVal) :
    s.verify F v d r = s.verify F (asBytes v.data?) (asBytes d.data?) (asBytes r.data?) := by
  cases v <;> cases d <;> cases r <;> rfl

section
variable (F n : Nat) (hn : 739 ≤ n) {s : Sig} {me o : Nat} {h0 : Heap} (p0 : 0 < s.p) (hp : s.p ≤ 2 ^ 512) (q0 : 0 < s.q)
  (hq : s.q ≤ 2 ^ 512)
include hn p0 hp q0 hq

theorem sig_act {h : Heap} (a : SigCell s me o h) (x : Ext h0 h) (c : SigCall Val) (hc : c.Known h0) :
    obs (c.use.run (ctx (F + 1) (n + 4)) (.ref me) h) = (c.contents h0).act s F ∧
    Ext h (c.use.run (ctx (F + 1) (n + 4)) (.ref me) h).2 := by
  have g := a
  unfold SigCell at g
  have old : ∀ {v}, Known v h0 → bytesOf v h = bytesOf v h0 := fun k =>
    bytesOf_same (x.keeps []) fun r hr => ⟨by simp, k r hr⟩
  cases c with
  | key kv =>
    rw [show (SigCall.key kv).use.run (ctx (F + 1) (n + 4)) (.ref me) h =
      call package (F + 1) (n + 4) "GOST34102012.public_key_generate" [.ref me, kv] h by
        simp only [SigCall.use, Use.run]; py [g]]
    have f := bytesResult_obs (C104_public_key a p0 hp F n hn kv)
    rw [public_asBytes, pyVal_data, old hc] at f
    exact f
  | sign kv dv rv =>
    obtain ⟨k1, k2, k3, e⟩ := hc
    rw [show (SigCall.sign kv dv rv).use.run (ctx (F + 1) (n + 4)) (.ref me) h =
      call package (F + 1) (n + 4) "GOST34102012.sign" [.ref me, kv, dv, rv] h by
        simp only [SigCall.use, Use.run]; py [g]]
    have he : (pyVal rv h).isEmpty = false := by
      have hb : bytesOf rv h ≠ some [] := by rw [old k3]; exact e
      rw [← pyVal_data] at hb
      cases hv : pyVal rv h with
      | bytes b => rw [hv] at hb; cases b with
        | nil => exact absurd rfl hb
        | cons x l => rfl
      | bytearray b => rw [hv] at hb; cases b with
        | nil => exact absurd rfl hb
        | cons x l => rfl
      | other => rfl
    have f := C104_sign a p0 hp F n hn q0 kv dv rv (fun w hw => Nat.lt_of_lt_of_le (k3 w hw) x.length) (fun _ => [])
      (fun h' => by rw [he] at h'; cases h')
    rw [if_neg (by rw [he]; simp)] at f
    have f := bytesResult_obs f
    rw [sign_asBytes, pyVal_data, pyVal_data, pyVal_data, old k1, old k2, old k3] at f
    exact f
  | verify kv dv gv =>
    obtain ⟨k1, k2, k3⟩ := hc
    rw [show (SigCall.verify kv dv gv).use.run (ctx (F + 1) (n + 4)) (.ref me) h =
      call package (F + 1) (n + 4) "GOST34102012.verify" [.ref me, kv, dv, gv] h by
        simp only [SigCall.use, Use.run]; py [g]]
    have f := boolResult_obs (C104_verify a p0 hp F n hn q0 hq kv dv gv)
    rw [verify_asBytes, pyVal_data, pyVal_data, pyVal_data, old k1, old k2, old k3] at f
    exact f

theorem sig_seen {h : Heap} (a : SigCell s me o h) (x : Ext h0 h) (cs : List (SigCall Val)) (hx : ∀ c ∈ cs, c.Known h0) :
    seenAll (ctx (F + 1) (n + 4)) (.ref me) (cs.map (·.use)) h = (cs.map (·.contents h0)).map (·.act s F) := by
  induction cs generalizing h with
  | nil => rfl
  | cons c cs ih =>
    obtain ⟨e1, e2⟩ := sig_act F n hn p0 hp q0 hq a x c (hx c (by simp))
    simp only [List.map_cons, seenAll]
    rw [e1, ih (show SigCell s me o _ from e2.get a) (x.trans e2) fun c hc => hx c (by simp [hc])]
end

/-- What is seen of `gostsignature.new(mode, curve)` and the uses, by the contents. -/
def sigProgram (F : Nat) (mode : Int) (c : CurveParams) (cs : List (SigCall (Option Bytes))) : Obs × List Obs :=
  match Sig.new mode c with
  | .ok s => (.obj, cs.map (·.act s F))
  | .error e => (.exc (exc e), [])

theorem sig_program (F n : Nat) (hn : 739 ≤ n) (h : Heap) (mode : Int) {l : List (String × Val)} {c : CurveParams}
    (d : CurveDict l c) (h0 : 0 < c.p.getD 1) (hp : c.p.getD 1 ≤ 2 ^ 512) (cs : List (SigCall Val)) (hx : ∀ c ∈ cs, c.Known h) :
    programRun (ctx (F + 1) (n + 4)) "Signature.new" [.int mode, .dict l] (cs.map (·.use)) h =
      sigProgram F mode c (cs.map (·.contents h)) := by
  have f := C104_new (F + 1) n hn h mode d h0 hp
  unfold sigProgram
  rcases sig_new_cases mode c h0 with ⟨s, e, h1, h2, h3⟩ | ⟨m, e⟩ | ⟨e, hq⟩
  · rw [e] at f ⊢
    obtain ⟨h', me, o, f, x, -, -, a, -⟩ := f
    unfold programRun
    rw [ctx_call, f]
    simp only [ok]
    rw [sig_seen F n hn (by omega) (by omega) h2 h3 a x cs hx]
    have g := a
    unfold SigCell at g
    simp [obsVal, bytesOf, g]
  · rw [e] at f ⊢
    obtain ⟨h', f, -⟩ := f
    exact program_fail f
  · rw [e] at f ⊢
    obtain ⟨h', f, -⟩ := f
    exact program_fail f

/-- C117, `gostsignature`: two programs whose arguments have the same contents see the same; of the dictionary of the
curve only the eleven numbers matter. -/
theorem C117_signature (F n : Nat) (hn : 739 ≤ n) (h h' : Heap) (mode : Int) {l l' : List (String × Val)} {c : CurveParams}
    (d : CurveDict l c) (d' : CurveDict l' c) (h0 : 0 < c.p.getD 1) (hp : c.p.getD 1 ≤ 2 ^ 512) (cs cs' : List (SigCall Val))
    (hx : ∀ c ∈ cs, c.Known h) (hx' : ∀ c ∈ cs', c.Known h') (hc : cs.map (·.contents h) = cs'.map (·.contents h')) :
    programRun (ctx (F + 1) (n + 4)) "Signature.new" [.int mode, .dict l] (cs.map (·.use)) h =
      programRun (ctx (F + 1) (n + 4)) "Signature.new" [.int mode, .dict l'] (cs'.map (·.use)) h' := by
  rw [sig_program F n hn h mode d h0 hp cs hx, sig_program F n hn h' mode d' h0 hp cs' hx', hc]

/-- Instance: the dictionary of a curve with an item too many, and the key as a byte array. -/
example (F n : Nat) (hn : 739 ≤ n) (k : Bytes) {l : List (String × Val)} {c : CurveParams} (d : CurveDict l c)
    (h0 : 0 < c.p.getD 1) (hp : c.p.getD 1 ≤ 2 ^ 512) :
    programRun (ctx (F + 1) (n + 4)) "Signature.new" [.int 1, .dict (("cofactor", .int 1) :: l)]
      [.meth "public_key_generate" [.ref 0]] [.bytearray k] =
    programRun (ctx (F + 1) (n + 4)) "Signature.new" [.int 1, .dict l] [.meth "public_key_generate" [.bytes k]] [] := by
  have hx : ∀ c ∈ [SigCall.key (.ref 0)], c.Known [.bytearray k] := by
    intro c hc
    simp only [List.mem_singleton] at hc
    subst hc
    intro r e
    cases e
    simp
  have hx' : ∀ c ∈ [SigCall.key (.bytes k)], c.Known [] := by
    intro c hc
    simp only [List.mem_singleton] at hc
    subst hc
    intro r e
    cases e
  have d' : CurveDict (("cofactor", .int 1) :: l) c := by
    have e : ∀ k, "cofactor" ≠ k → findAttr k (("cofactor", Val.int 1) :: l) = findAttr k l := fun k hk => if_neg hk
    exact ⟨(e _ (by decide)).trans d.p, (e _ (by decide)).trans d.a, (e _ (by decide)).trans d.b,
      (e _ (by decide)).trans d.e, (e _ (by decide)).trans d.d, (e _ (by decide)).trans d.m, (e _ (by decide)).trans d.q,
      (e _ (by decide)).trans d.x, (e _ (by decide)).trans d.y, (e _ (by decide)).trans d.u, (e _ (by decide)).trans d.v⟩
  have f := C117_signature F n hn [.bytearray k] [] 1 d' d h0 hp _ _ hx hx' rfl
  simpa only [List.map_cons, List.map_nil, SigCall.use] using f

end Gost.Src
