import Verif.SourceProofs.Oid
import Verif.Props.Oid
import Verif.Props.OidName

/-! C103: the class `ObjectIdentifier` as it is written in `oid.py`. -/

namespace Gost.Src

open Spec OidSrc
open Streebog (OidAt)

/-- C103, constructor: `ObjectIdentifier(s)` makes one new object, which is the identifier `s`. -/
theorem C103_new (L n : Nat) (s : String) (h : Heap) :
    ∃ h', instantiate (ctx L (n + 1)) "ObjectIdentifier" [.str s] h = ok (.ref h.length) h' ∧ Ext h h' ∧
      OidAt s h.length h' := by
  refine ⟨_, new_oid L n s h, (Ext.refl h).add _, ?_⟩
  unfold OidAt
  simp

/-- C103, `str(o)` and `o.name`: the string given to the constructor, and its entry in the table of the file; without
an entry the name is empty. -/
theorem C103_name (L n : Nat) {s : String} {me : Nat} {h : Heap} (o : OidAt s me h) :
    call package L (n + 1) "ObjectIdentifier.__str__" [.ref me] h = ok (.str s) h ∧
    ∃ t, Oid.g_OBJECT_IDENTIFIER_TC26 = .dict t ∧
      (∀ x, x ≠ "" → (call package L (n + 1) "ObjectIdentifier.name" [.ref me] h = ok (.str x) h ↔
        (s, Val.str x) ∈ t)) ∧
      (call package L (n + 1) "ObjectIdentifier.name" [.ref me] h = ok (.str "") h ↔ ∀ v, (s, v) ∉ t) := by
  have e : ∀ x, (call package L (n + 1) "ObjectIdentifier.name" [.ref me] h = ok (.str x) h ↔
      Oid.name s.toList = x) := by
    intro x
    rw [name_ok L n o]
    generalize Oid.name s.toList = y
    exact ⟨fun e => by injection e with e _; injection e with e; injection e, fun e => by rw [e]⟩
  refine ⟨str_ok L n o, _, table_eq, fun x hx => ?_, ?_⟩
  · rw [e x, (C88_exact s.toList).1 x hx]
    generalize Oid.tc26 = t
    constructor
    · rintro ⟨p, hp, h1, h2⟩
      exact List.mem_map.mpr ⟨p, hp, by rw [String.toList_inj.mp h1, h2]⟩
    · intro hm
      obtain ⟨p, hp, hq⟩ := List.mem_map.mp hm
      injection hq with h1 h2
      injection h2 with h2
      exact ⟨p, hp, by rw [h1], h2⟩
  · rw [e "", (C88_exact s.toList).2]
    generalize Oid.tc26 = t
    constructor
    · intro ha v hm
      obtain ⟨p, hp, hq⟩ := List.mem_map.mp hm
      injection hq with h1 h2
      exact ha p hp (by rw [h1])
    · intro ha p hp h1
      exact ha (.str p.2) (List.mem_map.mpr ⟨p, hp, by rw [String.toList_inj.mp h1]⟩)

/-- C103, `o.digit`: the values of the components, if every component is an integer literal, and `GOSTOIDError`
otherwise. Nothing which exists before is changed. -/
theorem C103_digit (L n : Nat) {s : String} {me : Nat} {h : Heap} (o : OidAt s me h) :
    (∀ parts v, IsSplit s.toList parts → Components parts v →
      ∃ h', call package L (n + 1) "ObjectIdentifier.digit" [.ref me] h = ok (.tuple (v.map Val.int)) h' ∧ Ext h h') ∧
    ((∃ parts, IsSplit s.toList parts ∧ ∃ p ∈ parts, ∀ v, ¬ IntLiteral p v) →
      ∃ h', call package L (n + 1) "ObjectIdentifier.digit" [.ref me] h =
        fail (.raised "GOSTOIDError" "invalid OID value") h' ∧ Ext h h') := by
  have d := digit_ok L n o
  constructor
  · intro parts v h1 h2
    rw [(C40_digit_iff s.toList v).mpr ⟨parts, h1, h2⟩] at d
    obtain ⟨l, d⟩ := d
    exact ⟨_, d, (Ext.refl h).add l⟩
  · intro hp
    rw [(C40_digit_error s.toList).mpr hp] at d
    obtain ⟨l, d⟩ := d
    exact ⟨_, d, (Ext.refl h).add l⟩

/-- C103, `o.octet` for a valid identifier: a new byte array with the DER encoding if and only if every encoded number
is below 2^14 (see C39_negation for a larger one). -/
theorem C103_octet (L n : Nat) (l : List Nat) (hv : ValidOid l) (hlen : (derBody l).length < 256 ^ 126) {me : Nat}
    {h : Heap} (o : OidAt (String.ofList (dotted l)) me h) :
    NewBytes (call package L (n + 4) "ObjectIdentifier.octet" [.ref me] h) h (derOid l) ↔ ∀ v ∈ subIds l, v < 2 ^ 14 := by
  have f := octet_ok L n o
  rw [String.toList_ofList] at f
  rw [← C39_iff l hv hlen]
  generalize Oid.octet (dotted l) = res at f ⊢
  rcases f.cases with ⟨b, w, l', rfl, f', hw, hb⟩ | ⟨e, l', rfl, f'⟩
  · rw [f']
    constructor
    · intro x
      obtain ⟨r, l2, g1, g2, g3⟩ := x.elim
      injection g1 with g1 g4
      injection g1 with g1
      injection g1 with g1
      subst g1
      rw [← g4, hb] at g3
      injection g3 with g3
      rw [g3]
    · intro x
      injection x with x
      subst x
      exact .intro ((Ext.refl h).add l') hw hb
  · rw [f']
    constructor
    · intro x
      obtain ⟨r, l2, g1, g2, g3⟩ := x.elim
      injection g1 with g1 g4
      cases g1
    · intro x
      cases x

/-- C103, `o.octet` for a string which is refused: the exceptions. -/
theorem C103_refused (L n : Nat) {s : String} {me : Nat} {h : Heap} (o : OidAt s me h) :
    ((∃ parts, IsSplit s.toList parts ∧ ∃ p ∈ parts, ∀ v, ¬ IntLiteral p v) →
      ∃ h', call package L (n + 4) "ObjectIdentifier.octet" [.ref me] h =
        fail (.raised "GOSTOIDError" "invalid OID value") h' ∧ Ext h h') ∧
    (∀ parts (x : Int) rest, IsSplit s.toList parts → Components parts (x :: rest) → x < 0 ∨ 2 < x →
      ∃ h', call package L (n + 4) "ObjectIdentifier.octet" [.ref me] h =
        fail (.raised "GOSTOIDError" "invalid first SID value") h' ∧ Ext h h') ∧
    (∀ parts (x y : Int) rest, IsSplit s.toList parts → Components parts (x :: y :: rest) → x = 0 ∨ x = 1 → 40 ≤ y →
      ∃ h', call package L (n + 4) "ObjectIdentifier.octet" [.ref me] h =
        fail (.raised "GOSTOIDError" "invalid second SID value") h' ∧ Ext h h') := by
  have f := octet_ok L n o
  have fin : ∀ e m, exc e = .raised "GOSTOIDError" m → Oid.octet s.toList = .error e →
      ∃ h', call package L (n + 4) "ObjectIdentifier.octet" [.ref me] h = fail (.raised "GOSTOIDError" m) h' ∧ Ext h h' := by
    intro e m he hr
    rw [hr] at f
    obtain ⟨l, f⟩ := f
    exact ⟨_, he ▸ f, (Ext.refl h).add l⟩
  refine ⟨fun hp => ?_, fun parts x rest h1 h2 hx => ?_, fun parts x y rest h1 h2 hx hy => ?_⟩
  · exact fin _ _ rfl (C40_octet_invalid _ ((C40_digit_error s.toList).mpr hp))
  · exact fin _ _ rfl (C40_first _ x rest ((C40_digit_iff s.toList _).mpr ⟨parts, h1, h2⟩) hx)
  · exact fin _ _ rfl (C40_second_partial _ x y rest ((C40_digit_iff s.toList _).mpr ⟨parts, h1, h2⟩) hx hy)

/-- Instance: the identifier of the 256 bit hash, in the empty memory. -/
example : ∃ h', instantiate (ctx 0 4) "ObjectIdentifier" [.str (String.ofList (dotted [1, 2, 643, 7, 1, 1, 2, 2]))] [] =
      ok (.ref 0) h' ∧
    NewBytes (call package 0 4 "ObjectIdentifier.octet" [.ref 0] h') h' (derOid [1, 2, 643, 7, 1, 1, 2, 2]) := by
  obtain ⟨h', e, _, o⟩ := C103_new 0 3 (String.ofList (dotted [1, 2, 643, 7, 1, 1, 2, 2])) []
  refine ⟨h', e, (C103_octet 0 0 [1, 2, 643, 7, 1, 1, 2, 2] (valid_example _) ?_ o).mpr (by simp [subIds])⟩
  simp [derBody, subIds, b128, Spec.b128hi]

end Gost.Src
