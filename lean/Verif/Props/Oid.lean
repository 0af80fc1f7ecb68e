import Verif.Proofs.Oid
import Verif.Proofs.OidParse

/-! Properties C39 and C40: object identifiers. -/

namespace Gost
open Oid (digit octet codeOctets intToOctet lenOidOctet encodeOctet encodeRest)
open Spec (b128 derLen derBody derOid subIds ValidOid dotted IntLiteral IsSplit Components)

namespace Oid

theorem encodeRest_nat (l : List Nat) : ∀ acc,
    encodeRest (l.map fun n : Nat => (n : Int)) acc = .ok (acc ++ l.flatMap codeOctets) := by
  induction l with
  | nil => intro acc; simp [encodeRest]
  | cons v l ih =>
    intro acc
    rw [List.map_cons, encodeRest, intToOctet_nat, Res.bind_ok, ih, List.flatMap_cons, List.append_assoc]

theorem encodeOctet_cons (x y : Int) (rest : List Int) :
    encodeOctet (x :: y :: rest) =
      (if x = 0 ∨ x = 1 ∨ x = 2 then
        (if x ≠ 2 ∧ 40 ≤ y then .error (.oidError "invalid second SID value")
          else (intToOctet (40 * x + y)).bind (encodeRest rest))
      else .error (.oidError "invalid first SID value")) := by
  have e0 : pyGet (x :: y :: rest) 0 = .ok x := pyGet_nat (x :: y :: rest) 0 (by simp)
  have e1 : pyGet (x :: y :: rest) 1 = .ok y := pyGet_nat (x :: y :: rest) 1 (by simp)
  have e2 : pyFrom (x :: y :: rest) 2 = rest := pyFrom_nat (x :: y :: rest) 2
  unfold encodeOctet
  simp only [e0, e1, e2, Res.bind_ok]
  by_cases h0 : x = 0
  · subst h0
    simp only [if_pos, true_or]
    by_cases hy : y < 40
    · rw [if_pos hy, if_neg (by omega), show (40 * 0 + y : Int) = y by omega]; rfl
    · rw [if_neg hy, if_pos (by omega)]; rfl
  · rw [if_neg h0]
    by_cases h1 : x = 1
    · subst h1
      rw [if_pos rfl]
      by_cases hy : y < 40
      · rw [if_pos hy, if_pos (Or.inr (Or.inl rfl)), if_neg (by omega), show (40 * 1 + y : Int) = y + 40 by omega]; rfl
      · rw [if_neg hy, if_pos (Or.inr (Or.inl rfl)), if_pos (by omega)]; rfl
    · rw [if_neg h1]
      by_cases h2 : x = 2
      · subst h2
        rw [if_pos rfl, if_pos (by simp), if_neg (by simp), show (40 * 2 + y : Int) = y + 80 by omega]; rfl
      · rw [if_neg h2, if_neg (by simp [h0, h1, h2])]; rfl

/-- What the code writes as contents octets. -/
def codeBody (l : List Nat) : Bytes := (subIds l).flatMap codeOctets

theorem encodeOctet_valid (l : List Nat) (h : ValidOid l) :
    encodeOctet (l.map fun n : Nat => (n : Int)) = .ok (codeBody l) := by
  match l, h with
  | x :: y :: rest, h =>
    rw [List.map_cons, List.map_cons, encodeOctet_cons, if_pos (by have := h.1; omega),
      if_neg (by have h2 := h.2; have h1 := h.1; omega), show (40 * (x : Int) + y) = ((40 * x + y : Nat) : Int) by omega,
      intToOctet_nat]
    show encodeRest _ _ = _
    rw [encodeRest_nat]
    rfl

theorem octet_valid (l : List Nat) (h : ValidOid l) :
    octet (dotted l) = (lenOidOctet (codeBody l).length).bind fun len => .ok ([6] ++ len ++ codeBody l) := by
  have hne : l ≠ [] := by rintro rfl; exact h
  unfold octet
  rw [digit_dotted l hne, Res.bind_ok, encodeOctet_valid l h, Res.bind_ok]
  rfl

theorem codeBody_length (l : List Nat) : (codeBody l).length = (derBody l).length := by
  unfold codeBody derBody
  generalize subIds l = m
  induction m with
  | nil => rfl
  | cons v m ih => rw [List.flatMap_cons, List.flatMap_cons, List.length_append, List.length_append, ih,
      codeOctets_length]

theorem codeBody_iff (l : List Nat) : codeBody l = derBody l ↔ ∀ v ∈ subIds l, v < 2 ^ 14 := by
  unfold codeBody derBody
  generalize subIds l = m
  induction m with
  | nil => simp
  | cons v m ih =>
    rw [List.flatMap_cons, List.flatMap_cons]
    constructor
    · intro h
      obtain ⟨h1, h2⟩ := List.append_inj h (codeOctets_length v)
      intro u hu
      rcases List.mem_cons.1 hu with e | e
      · rw [e]; exact (codeOctets_iff v).1 h1
      · exact ih.1 h2 u e
    · intro h
      rw [(codeOctets_iff v).2 (h v (by simp)), ih.2 fun u hu => h u (by simp [hu])]

end Oid

open Oid (codeBody)

/-! ### C39 -/

/-- **C39** (part). For an identifier whose encoded numbers (40*X+Y and every further component)
are below 2^14, `octet` is the DER encoding. Missing for C39: larger components, which are encoded
wrongly (`C39_iff`, `C39_negation`). -/
theorem C39_octet_partial (l : List Nat) (h : ValidOid l) (hs : ∀ v ∈ subIds l, v < 2 ^ 14)
    (hlen : (derBody l).length < 256 ^ 126) : octet (dotted l) = .ok (derOid l) := by
  rw [Oid.octet_valid l h, Oid.codeBody_length, Oid.lenOidOctet_eq _ hlen, (Oid.codeBody_iff l).2 hs]
  show Except.ok _ = Except.ok _
  simp [derOid]

/-- **C39**, exact: for a valid identifier the result is the DER encoding if and only if no
encoded number reaches 2^14. -/
theorem C39_iff (l : List Nat) (h : ValidOid l) (hlen : (derBody l).length < 256 ^ 126) :
    octet (dotted l) = .ok (derOid l) ↔ ∀ v ∈ subIds l, v < 2 ^ 14 := by
  refine ⟨fun ho => ?_, fun hs => C39_octet_partial l h hs hlen⟩
  rw [Oid.octet_valid l h, Oid.codeBody_length, Oid.lenOidOctet_eq _ hlen] at ho
  injection ho with ho
  rw [derOid, List.append_assoc] at ho
  injection ho with _ ho
  exact (Oid.codeBody_iff l).1 (List.append_cancel_left ho)

/-- **C39**: for every valid identifier (components of any size) the tag, the shortest-form length
and the number of octets of each component are those of DER; what differs is only the continuation
bits. -/
theorem C39_shape (l : List Nat) (h : ValidOid l) (hlen : (derBody l).length < 256 ^ 126) :
    ∃ body, octet (dotted l) = .ok (6 :: (derLen body.length ++ body)) ∧
      body.length = (derBody l).length ∧ body = (subIds l).flatMap codeOctets ∧
      ∀ v, (codeOctets v).length = (b128 v).length := by
  refine ⟨codeBody l, ?_, Oid.codeBody_length l, rfl, Oid.codeOctets_length⟩
  rw [Oid.octet_valid l h, Oid.lenOidOctet_eq _ (by rw [Oid.codeBody_length]; exact hlen)]
  show Except.ok _ = Except.ok _
  simp

/-- DER encodings of different valid identifiers are different. -/
theorem C39_der_injective (l l' : List Nat) (h : ValidOid l) (h' : ValidOid l')
    (hlen : (derBody l).length < 256 ^ 126) (hlen' : (derBody l').length < 256 ^ 126)
    (he : derOid l = derOid l') : l = l' := by
  rw [derOid, derOid] at he
  injection he with _ he
  have hr := congrArg Oid.readLen he
  rw [Oid.readLen_derLen _ hlen, Oid.readLen_derLen _ hlen'] at hr
  injection hr with hr
  rw [Prod.mk.injEq] at hr
  have hsub := Oid.flatMap_inj _ _ hr.2
  match l, l', h, h' with
  | x :: y :: rest, x' :: y' :: rest', h, h' =>
    rw [subIds, subIds] at hsub
    injection hsub with h1 h2
    obtain ⟨h3, h4⟩ := h
    obtain ⟨h5, h6⟩ := h'
    have hx : x = x' := by omega
    have hy : y = y' := by omega
    rw [hx, hy, h2]

/-- **C39** (part): with encoded numbers below 2^14 different identifiers have different octets. -/
theorem C39_injective_partial (l l' : List Nat) (h : ValidOid l) (h' : ValidOid l')
    (hs : ∀ v ∈ subIds l, v < 2 ^ 14) (hs' : ∀ v ∈ subIds l', v < 2 ^ 14)
    (hlen : (derBody l).length < 256 ^ 126) (hlen' : (derBody l').length < 256 ^ 126)
    (he : octet (dotted l) = octet (dotted l')) : l = l' := by
  rw [C39_octet_partial l h hs hlen, C39_octet_partial l' h' hs' hlen'] at he
  injection he with he
  exact C39_der_injective l l' h h' hlen hlen' he

theorem valid_example (r : List Nat) : ValidOid (1 :: 2 :: r) := ⟨by decide, by decide⟩

/-- **C39** fails: the component 16384 is encoded as `81 00 00` instead of `81 80 00`, and so
1.2.16384 and 1.2.128.0 have the same octets. -/
theorem C39_negation :
    octet (dotted [1, 2, 16384]) = .ok [6, 4, 42, 0x81, 0, 0] ∧
    derOid [1, 2, 16384] = [6, 4, 42, 0x81, 0x80, 0] ∧
    octet (dotted [1, 2, 16384]) = octet (dotted [1, 2, 128, 0]) := by
  have e1 : derBody [1, 2, 16384] = [42, 0x81, 0x80, 0] := by
    simp [derBody, subIds, b128, Spec.b128hi]
  have c1 : codeBody [1, 2, 16384] = [42, 0x81, 0, 0] := by
    simp [codeBody, subIds, codeOctets, Oid.b7, Oid.headBit]
    rfl
  have c2 : codeBody [1, 2, 128, 0] = [42, 0x81, 0, 0] := by
    simp [codeBody, subIds, codeOctets, Oid.b7, Oid.headBit]
    rfl
  refine ⟨?_, ?_, ?_⟩
  · rw [Oid.octet_valid _ (valid_example _), c1]; rfl
  · rw [derOid, e1]; rfl
  · rw [Oid.octet_valid _ (valid_example _), Oid.octet_valid _ (valid_example _), c1, c2]

/-- The property as stated. -/
def C39_statement : Prop :=
  (∀ l, ValidOid l → (derBody l).length < 256 ^ 126 → octet (dotted l) = .ok (derOid l)) ∧
  (∀ l l', ValidOid l → ValidOid l' → octet (dotted l) = octet (dotted l') → l = l')

theorem C39_statement_false : ¬ C39_statement := by
  rintro ⟨_, h⟩
  have := h _ _ (valid_example _) (valid_example _) C39_negation.2.2
  simp at this

/-- Instance: 1.2.643.7.1.1.2.2, the identifier of the 256 bit hash. -/
example : octet (dotted [1, 2, 643, 7, 1, 1, 2, 2]) = .ok (derOid [1, 2, 643, 7, 1, 1, 2, 2]) :=
  C39_octet_partial _ (valid_example _) (by simp [subIds]) (by
    simp [derBody, subIds, b128, Spec.b128hi])

/-! ### C40 -/

/-- **C40**: `digit` gives back the components of every dotted decimal string. -/
theorem C40_digit (l : List Nat) (h : l ≠ []) : digit (dotted l) = .ok (l.map fun n : Nat => (n : Int)) :=
  Oid.digit_dotted l h

/-- **C40**: `digit` succeeds exactly for strings of integer literals separated by dots, with
their values. -/
theorem C40_digit_iff (s : List Char) (l : List Int) :
    digit s = .ok l ↔ ∃ parts, IsSplit s parts ∧ Components parts l := by
  unfold digit
  constructor
  · intro h
    refine ⟨Oid.splitDot s, Oid.isSplit_splitDot s, (Oid.mapM_iff _ _).1 ?_⟩
    split at h
    · next hm => injection h with h; subst h; exact hm
    · cases h
  · rintro ⟨parts, hp, hc⟩
    rw [Oid.splitDot_of_isSplit parts s hp, (Oid.mapM_iff _ _).2 hc]

/-- **C40**: every other string raises `GOSTOIDError('invalid OID value')`. -/
theorem C40_digit_error (s : List Char) :
    digit s = .error (.oidError "invalid OID value") ↔
      ∃ parts, IsSplit s parts ∧ ∃ p ∈ parts, ∀ v, ¬ IntLiteral p v := by
  unfold digit
  constructor
  · intro h
    refine ⟨Oid.splitDot s, Oid.isSplit_splitDot s, (Oid.mapM_none _).1 ?_⟩
    split at h
    · cases h
    · next hm => exact hm
  · rintro ⟨parts, hp, hc⟩
    rw [Oid.splitDot_of_isSplit parts s hp, (Oid.mapM_none _).2 hc]

/-- **C40**: there is no other outcome. -/
theorem C40_digit_total (s : List Char) :
    (∃ l, digit s = .ok l) ∨ digit s = .error (.oidError "invalid OID value") := by
  unfold digit
  split
  · exact Or.inl ⟨_, rfl⟩
  · exact Or.inr rfl

/-- A string which `digit` refuses is refused by `octet` in the same way. -/
theorem C40_octet_invalid (s : List Char) (h : digit s = .error (.oidError "invalid OID value")) :
    octet s = .error (.oidError "invalid OID value") := by
  unfold octet; rw [h]; rfl

/-- **C40**: a first component other than 0, 1, 2 is refused, whatever follows. -/
theorem C40_first (s : List Char) (x : Int) (rest : List Int) (h : digit s = .ok (x :: rest))
    (hx : x < 0 ∨ 2 < x) : octet s = .error (.oidError "invalid first SID value") := by
  unfold octet
  rw [h, Res.bind_ok]
  have e0 : pyGet (x :: rest) 0 = .ok x := pyGet_nat (x :: rest) 0 (by simp)
  unfold encodeOctet
  simp only [e0, Res.bind_ok]
  rw [if_neg (by omega), if_neg (by omega), if_neg (by omega)]
  rfl

/-- **C40** (part): a second component of 40 or more after 0 or 1 is refused. Missing: negative
second components (`C40_negation`) and a missing second component (`C40_single`). -/
theorem C40_second_partial (s : List Char) (x y : Int) (rest : List Int) (h : digit s = .ok (x :: y :: rest))
    (hx : x = 0 ∨ x = 1) (hy : 40 ≤ y) : octet s = .error (.oidError "invalid second SID value") := by
  unfold octet
  rw [h, Res.bind_ok, Oid.encodeOctet_cons, if_pos (by omega), if_pos (by omega)]
  rfl

/-- A single component 0, 1 or 2 raises `IndexError`. -/
theorem C40_single (s : List Char) (x : Int) (h : digit s = .ok [x]) (hx : x = 0 ∨ x = 1 ∨ x = 2) :
    octet s = .error .indexError := by
  unfold octet
  rw [h, Res.bind_ok]
  rcases hx with rfl | rfl | rfl <;> rfl

/-- A negative second component is not checked by itself: if 40*X+Y is still non-negative, the
string has the octets of another identifier. -/
theorem C40_second_negative (s : List Char) (x y : Int) (h : digit s = .ok [x, y])
    (hx : x = 0 ∨ x = 1 ∨ x = 2) (hy : y < 0) (hs : 0 ≤ 40 * x + y) :
    octet s = octet (dotted [((40 * x + y) / 40).toNat, ((40 * x + y) % 40).toNat]) := by
  have hl : ∀ a b : Nat, digit (dotted [a, b]) = .ok [(a : Int), (b : Int)] := fun a b =>
    C40_digit [a, b] (by simp)
  unfold octet
  rw [h, hl, Res.bind_ok, Res.bind_ok, Oid.encodeOctet_cons, Oid.encodeOctet_cons, if_pos (by omega),
    if_neg (by omega), if_pos (by omega), if_neg (by omega)]
  congr 3
  omega

/-- A second component so negative that 40*X+Y is negative raises `OverflowError`. -/
theorem C40_second_overflow (s : List Char) (x y : Int) (rest : List Int) (h : digit s = .ok (x :: y :: rest))
    (hx : x = 0 ∨ x = 1 ∨ x = 2) (hs : 40 * x + y < 0) : octet s = .error .overflowError := by
  unfold octet
  rw [h, Res.bind_ok, Oid.encodeOctet_cons, if_pos (by omega), if_neg (by omega),
    Oid.intToOctet_neg _ hs]
  rfl

/-- **C40** fails in part: `1.-5` has a bad second component and is encoded, as `0.35`;
`1` raises `IndexError`. -/
theorem C40_negation :
    digit "1.-5".toList = .ok [1, -5] ∧ octet "1.-5".toList = .ok [6, 1, 35] ∧
    octet "0.35".toList = .ok [6, 1, 35] ∧ octet "1".toList = .error .indexError := by
  refine ⟨by rfl, by rfl, by rfl, by rfl⟩

/-- The property as stated: a second component is bad if it is missing, negative, or 40 or more
after 0 or 1. -/
def C40_statement : Prop :=
  (∀ l : List Nat, l ≠ [] → digit (dotted l) = .ok (l.map fun n : Nat => (n : Int))) ∧
  (∀ s, (∃ parts, IsSplit s parts ∧ ∃ p ∈ parts, ∀ v, ¬ IntLiteral p v) →
    digit s = .error (.oidError "invalid OID value")) ∧
  (∀ s x rest, digit s = .ok (x :: rest) →
    (x < 0 ∨ 2 < x ∨ rest = [] ∨ (∃ y r, rest = y :: r ∧ (y < 0 ∨ (x < 2 ∧ 40 ≤ y)))) →
    ∃ m, octet s = .error (.oidError m))

theorem C40_statement_false : ¬ C40_statement := by
  rintro ⟨_, _, h⟩
  obtain ⟨m, hm⟩ := h _ _ _ C40_negation.1 (Or.inr (Or.inr (Or.inr ⟨-5, [], rfl, Or.inl (by decide)⟩)))
  rw [C40_negation.2.1] at hm
  cases hm

/-- Instances: literals with signs, spaces and underscores are accepted; `1..2` is not. -/
example : digit " 1.+2.6_43.-0".toList = .ok [1, 2, 643, 0] := by rfl
example : digit "1..2".toList = .error (.oidError "invalid OID value") := by rfl
example : digit "1.2a".toList = .error (.oidError "invalid OID value") := by rfl
example : octet "3.1".toList = .error (.oidError "invalid first SID value") :=
  C40_first _ 3 [1] (by rfl) (by decide)
example : octet "1.40".toList = .error (.oidError "invalid second SID value") :=
  C40_second_partial _ 1 40 [] (by rfl) (by decide) (by decide)

/-! ### The registered identifiers -/

theorem Oid.b128_length_le (v : Nat) (h : v < 2 ^ 14) : (b128 v).length ≤ 2 := by
  rw [b128, Spec.b128hi]
  split
  · simp
  · rw [Spec.b128hi, if_pos (by omega)]; simp

theorem Oid.body_length_le (l : List Nat) (h : ∀ v ∈ l, v < 2 ^ 14) : (l.flatMap b128).length ≤ 2 * l.length := by
  induction l with
  | nil => simp
  | cons v l ih =>
    rw [List.flatMap_cons, List.length_append, List.length_cons]
    have := ih fun u hu => h u (by simp [hu])
    have := Oid.b128_length_le v (h v (by simp))
    omega

/-- The components of a string as naturals. -/
def Oid.comps (s : List Char) : List Nat :=
  match digit s with
  | .ok l => l.map Int.toNat
  | .error _ => []

/-- Decidable form of `ValidOid`. -/
def Oid.validB : List Nat → Bool
  | x :: y :: _ => x ≤ 2 && (!(x < 2) || y < 40)
  | _ => false

theorem Oid.validB_sound (l : List Nat) (h : Oid.validB l = true) : ValidOid l := by
  match l, h with
  | x :: y :: _, h =>
    simp only [Oid.validB, Bool.and_eq_true, Bool.or_eq_true, decide_eq_true_eq, Bool.not_eq_true',
      decide_eq_false_iff_not] at h
    exact ⟨h.1, fun hx => by omega⟩

/-- What is checked for one entry of the table. -/
def Oid.EntryOk (p : String × String) : Prop :=
  digit p.1.toList = .ok ((Oid.comps p.1.toList).map fun n : Nat => (n : Int)) ∧
  Oid.validB (Oid.comps p.1.toList) = true ∧ (subIds (Oid.comps p.1.toList)).length < 100 ∧
  (∀ v ∈ subIds (Oid.comps p.1.toList), v < 2 ^ 14) ∧ Oid.name p.1.toList = p.2

instance (p : String × String) : Decidable (Oid.EntryOk p) := by unfold Oid.EntryOk; infer_instance

/-- Every key of `OBJECT_IDENTIFIER_TC26` denotes a valid identifier, whose `octet` is its DER
encoding and whose `name` is the entry; no two entries share a name. -/
theorem C39_registered :
    (∀ p ∈ Oid.tc26, ∃ l, digit p.1.toList = .ok (l.map fun n : Nat => (n : Int)) ∧
      ValidOid l ∧ octet p.1.toList = .ok (derOid l) ∧ Oid.name p.1.toList = p.2) ∧
    (Oid.tc26.map Prod.snd).Nodup := by
  refine ⟨?_, by decide +kernel⟩
  have hall : ∀ p ∈ Oid.tc26, Oid.EntryOk p := by decide +kernel
  intro p hp
  obtain ⟨h1, h2, h3, h4, h5⟩ := hall p hp
  have hv := Oid.validB_sound _ h2
  refine ⟨Oid.comps p.1.toList, h1, hv, ?_, h5⟩
  have hne : Oid.comps p.1.toList ≠ [] := by
    intro h
    rw [h] at hv
    exact hv
  have hlen : (derBody (Oid.comps p.1.toList)).length < 256 ^ 126 := by
    have := Oid.body_length_le _ h4
    unfold derBody
    omega
  rw [← C39_octet_partial _ hv h4 hlen]
  unfold octet
  rw [h1, C40_digit _ hne]

end Gost
