import Verif.Model.Oid
import Verif.Spec.Oid
import Verif.Proofs.Basic

/-! Parsing of object identifier strings. -/

namespace Gost.Oid
open Spec (decDigit decimal dotted DigitSeq SignedSeq White IntLiteral IsSplit Components)

theorem decDigit_toNat (d : Nat) (h : d < 10) : (decDigit d).toNat = 48 + d := by
  unfold decDigit
  have : d = 0 ∨ d = 1 ∨ d = 2 ∨ d = 3 ∨ d = 4 ∨ d = 5 ∨ d = 6 ∨ d = 7 ∨ d = 8 ∨ d = 9 := by omega
  rcases this with h | h | h | h | h | h | h | h | h | h <;> subst h <;> rfl

theorem char_ext {a b : Char} (h : a.toNat = b.toNat) : a = b := Char.ext (UInt32.toNat_inj.1 h)

theorem digitVal_iff (c : Char) (d : Nat) : digitVal? c = some d ↔ c = decDigit d ∧ d < 10 := by
  unfold digitVal?
  have hle : ('0' ≤ c ∧ c ≤ '9') ↔ (48 ≤ c.toNat ∧ c.toNat ≤ 57) := Iff.rfl
  constructor
  · intro h
    split at h
    · next hc =>
      rw [hle] at hc
      injection h with h
      have hd : d < 10 := by omega
      refine ⟨char_ext ?_, hd⟩
      rw [decDigit_toNat d hd]; omega
    · cases h
  · rintro ⟨rfl, hd⟩
    rw [if_pos, decDigit_toNat d hd, Nat.add_sub_cancel_left]
    rw [hle, decDigit_toNat d hd]; omega

theorem digitVal_dec (d : Nat) (h : d < 10) : digitVal? (decDigit d) = some d :=
  (digitVal_iff _ _).2 ⟨rfl, h⟩

theorem decDigit_ne (d : Nat) (h : d < 10) (c : Char) (hc : c.toNat < 48 ∨ 57 < c.toNat) : decDigit d ≠ c := by
  intro e
  have := congrArg Char.toNat e
  rw [decDigit_toNat d h] at this
  omega

theorem literalRest_digit (d : Nat) (h : d < 10) (cs : List Char) (acc : Nat) :
    literalRest (decDigit d :: cs) acc = literalRest cs (acc * 10 + d) := by
  rw [literalRest, digitVal_dec d h]
  intro c cs' hc
  exact absurd hc (decDigit_ne d h '_' (by decide))

theorem literalRest_under (d : Nat) (h : d < 10) (cs : List Char) (acc : Nat) :
    literalRest ('_' :: decDigit d :: cs) acc = literalRest cs (acc * 10 + d) := by
  rw [literalRest, digitVal_dec d h]

/-- The cases of a successful scan. -/
theorem literalRest_cases (cs : List Char) (acc v : Nat) (h : literalRest cs acc = some v) :
    (cs = [] ∧ v = acc) ∨
    (∃ d t, d < 10 ∧ cs = decDigit d :: t ∧ literalRest t (acc * 10 + d) = some v) ∨
    (∃ d t, d < 10 ∧ cs = '_' :: decDigit d :: t ∧ literalRest t (acc * 10 + d) = some v) := by
  cases cs with
  | nil => left; rw [literalRest] at h; injection h with h; exact ⟨rfl, h.symm⟩
  | cons c cs =>
    right
    by_cases hc : c = '_'
    · subst hc
      cases cs with
      | nil =>
        rw [literalRest] at h
        · have : digitVal? '_' = none := by decide
          rw [this] at h
          cases h
        · intro c cs' _ h2; cases h2
      | cons c cs =>
        right
        rw [literalRest] at h
        cases hd : digitVal? c with
        | none => rw [hd] at h; cases h
        | some d =>
          rw [hd] at h
          obtain ⟨rfl, hlt⟩ := (digitVal_iff c d).1 hd
          exact ⟨d, cs, hlt, rfl, h⟩
    · left
      rw [literalRest] at h
      · cases hd : digitVal? c with
        | none => rw [hd] at h; cases h
        | some d =>
          rw [hd] at h
          obtain ⟨rfl, hlt⟩ := (digitVal_iff c d).1 hd
          exact ⟨d, cs, hlt, rfl, h⟩
      · intro c' cs' h1; exact absurd h1 hc

theorem literalRest_append (n : Nat) : ∀ (s : List Char) (acc v : Nat) (t : List Char), s.length ≤ n →
    literalRest s acc = some v → literalRest (s ++ t) acc = literalRest t v := by
  induction n with
  | zero =>
    intro s acc v t hs h
    have : s = [] := List.length_eq_zero_iff.1 (by omega)
    subst this
    rw [literalRest] at h
    injection h with h
    subst h
    rfl
  | succ n ih =>
    intro s acc v t hs h
    rcases literalRest_cases s acc v h with ⟨rfl, rfl⟩ | ⟨d, r, hd, rfl, hr⟩ | ⟨d, r, hd, rfl, hr⟩
    · rfl
    · rw [List.cons_append, literalRest_digit d hd]
      exact ih r _ v t (by simp at hs; omega) hr
    · rw [List.cons_append, List.cons_append, literalRest_under d hd]
      exact ih r _ v t (by simp at hs; omega) hr

theorem literalRest_sound (n : Nat) : ∀ (s : List Char) (acc v : Nat) (p : List Char), s.length ≤ n →
    literalRest s acc = some v → DigitSeq p acc → DigitSeq (p ++ s) v := by
  induction n with
  | zero =>
    intro s acc v p hs h hp
    have : s = [] := List.length_eq_zero_iff.1 (by omega)
    subst this
    rw [literalRest] at h
    injection h with h
    subst h
    rwa [List.append_nil]
  | succ n ih =>
    intro s acc v p hs h hp
    rcases literalRest_cases s acc v h with ⟨rfl, rfl⟩ | ⟨d, r, hd, rfl, hr⟩ | ⟨d, r, hd, rfl, hr⟩
    · rwa [List.append_nil]
    · have := ih r _ v (p ++ [decDigit d]) (by simp at hs; omega) hr (.more hp hd)
      simpa using this
    · have := ih r _ v (p ++ ['_', decDigit d]) (by simp at hs; omega) hr (.under hp hd)
      simpa using this

theorem digitSeq_head {s : List Char} {n : Nat} (h : DigitSeq s n) : ∃ d t, d < 10 ∧ s = decDigit d :: t := by
  induction h with
  | @one d hd => exact ⟨d, [], hd, rfl⟩
  | more _ _ ih => obtain ⟨d, t, hd, rfl⟩ := ih; exact ⟨d, _, hd, rfl⟩
  | under _ _ ih => obtain ⟨d, t, hd, rfl⟩ := ih; exact ⟨d, _, hd, rfl⟩

theorem digitSeq_last {s : List Char} {n : Nat} (h : DigitSeq s n) : ∃ d t, d < 10 ∧ s = t ++ [decDigit d] := by
  cases h with
  | @one d hd => exact ⟨_, [], hd, rfl⟩
  | @more s n d _ hd => exact ⟨d, _, hd, rfl⟩
  | @under s n d _ hd => exact ⟨d, s ++ ['_'], hd, by simp⟩

theorem literal_iff (s : List Char) (n : Nat) : literal s = some n ↔ DigitSeq s n := by
  constructor
  · intro h
    cases s with
    | nil => cases h
    | cons c cs =>
      rw [literal] at h
      cases hd : digitVal? c with
      | none => rw [hd] at h; cases h
      | some d =>
        rw [hd] at h
        obtain ⟨rfl, hlt⟩ := (digitVal_iff c d).1 hd
        exact literalRest_sound cs.length cs d n [decDigit d] (Nat.le_refl _) h (.one hlt)
  · intro h
    induction h with
    | @one d hd => rw [literal, digitVal_dec d hd]; rfl
    | @more s n d hs hd ih =>
      obtain ⟨e, t, he, rfl⟩ := digitSeq_head hs
      rw [literal, digitVal_dec e he] at ih
      rw [List.cons_append, literal, digitVal_dec e he]
      show literalRest _ _ = _
      rw [literalRest_append t.length t e n _ (Nat.le_refl _) ih, literalRest_digit d hd]; rfl
    | @under s n d hs hd ih =>
      obtain ⟨e, t, he, rfl⟩ := digitSeq_head hs
      rw [literal, digitVal_dec e he] at ih
      rw [List.cons_append, literal, digitVal_dec e he]
      show literalRest _ _ = _
      rw [literalRest_append t.length t e n _ (Nat.le_refl _) ih, literalRest_under d hd]; rfl

theorem isSpace_iff (c : Char) : isSpace c = true ↔ White c := by
  unfold isSpace White
  simp only [Bool.or_eq_true, decide_eq_true_eq]
  constructor
  · rintro (((((h | h) | h) | h) | h) | h) <;> simp [h]
  · rintro (h | h | h | h | h | h) <;> simp [h]

theorem isSpace_digit (d : Nat) (h : d < 10) : isSpace (decDigit d) = false := by
  rw [Bool.eq_false_iff]
  intro hs
  rw [isSpace_iff] at hs
  rcases hs with h' | h' | h' | h' | h' | h' <;>
    exact decDigit_ne d h _ (by decide) h'

/-- Strip white space. -/
def strip (s : List Char) : List Char := ((s.dropWhile isSpace).reverse.dropWhile isSpace).reverse

/-- Sign and digits. -/
def signed : List Char → Option Int
  | '-' :: r => (literal r).map fun n : Nat => -(n : Int)
  | '+' :: r => (literal r).map fun n : Nat => (n : Int)
  | r => (literal r).map fun n : Nat => (n : Int)

theorem pyInt_eq (s : List Char) : pyInt s = signed (strip s) := rfl

theorem signed_iff (s : List Char) (v : Int) : signed s = some v ↔ SignedSeq s v := by
  constructor
  · intro h
    unfold signed at h
    split at h
    · obtain ⟨n, hn, rfl⟩ := Option.map_eq_some_iff.1 h
      exact .minus ((literal_iff _ _).1 hn)
    · obtain ⟨n, hn, rfl⟩ := Option.map_eq_some_iff.1 h
      exact .plus ((literal_iff _ _).1 hn)
    · obtain ⟨n, hn, rfl⟩ := Option.map_eq_some_iff.1 h
      exact .plain ((literal_iff _ _).1 hn)
  · intro h
    cases h with
    | plain h =>
      obtain ⟨d, t, hd, rfl⟩ := digitSeq_head h
      rw [signed, (literal_iff _ _).2 h]; rfl
      · intro r hr; injection hr with hr; exact decDigit_ne d hd _ (by decide) hr
      · intro r hr; injection hr with hr; exact decDigit_ne d hd _ (by decide) hr
    | plus h => rw [signed, (literal_iff _ _).2 h]; rfl
    | minus h => rw [signed, (literal_iff _ _).2 h]; rfl

theorem signedSeq_head {s : List Char} {v : Int} (h : SignedSeq s v) : ∃ c t, isSpace c = false ∧ s = c :: t := by
  cases h with
  | plain h => obtain ⟨d, t, hd, rfl⟩ := digitSeq_head h; exact ⟨_, t, isSpace_digit d hd, rfl⟩
  | @plus t n h => exact ⟨'+', t, by decide, rfl⟩
  | @minus t n h => exact ⟨'-', t, by decide, rfl⟩

theorem signedSeq_last {s : List Char} {v : Int} (h : SignedSeq s v) : ∃ c t, isSpace c = false ∧ s = t ++ [c] := by
  cases h with
  | plain h => obtain ⟨d, t, hd, rfl⟩ := digitSeq_last h; exact ⟨_, t, isSpace_digit d hd, rfl⟩
  | plus h => obtain ⟨d, t, hd, rfl⟩ := digitSeq_last h; exact ⟨_, '+' :: t, isSpace_digit d hd, rfl⟩
  | minus h => obtain ⟨d, t, hd, rfl⟩ := digitSeq_last h; exact ⟨_, '-' :: t, isSpace_digit d hd, rfl⟩

theorem dropWhile_white (a : List Char) (c : Char) (t : List Char) (ha : ∀ c ∈ a, isSpace c = true)
    (hc : isSpace c = false) : (a ++ c :: t).dropWhile isSpace = c :: t := by
  induction a with
  | nil => rw [List.nil_append, List.dropWhile_cons, hc]; rfl
  | cons x a ih =>
    rw [List.cons_append, List.dropWhile_cons, ha x (by simp)]
    exact ih fun c h => ha c (by simp [h])

theorem split_dropWhile (s : List Char) : ∃ a, s = a ++ s.dropWhile isSpace ∧ ∀ c ∈ a, isSpace c = true := by
  induction s with
  | nil => exact ⟨[], rfl, by simp⟩
  | cons x s ih =>
    rw [List.dropWhile_cons]
    cases hx : isSpace x with
    | false => exact ⟨[], rfl, by simp⟩
    | true =>
      obtain ⟨a, h1, h2⟩ := ih
      refine ⟨x :: a, ?_, ?_⟩
      · rw [List.cons_append, if_pos rfl, ← h1]
      · intro c hc
        rcases List.mem_cons.1 hc with h | h
        · rw [h, hx]
        · exact h2 c h

theorem pyInt_iff (s : List Char) (v : Int) : pyInt s = some v ↔ IntLiteral s v := by
  rw [pyInt_eq, signed_iff]
  constructor
  · intro h
    obtain ⟨a, ha, ha'⟩ := split_dropWhile s
    obtain ⟨b, hb, hb'⟩ := split_dropWhile (s.dropWhile isSpace).reverse
    refine ⟨a, strip s, b.reverse, ?_, fun c hc => (isSpace_iff c).1 (ha' c hc),
      fun c hc => (isSpace_iff c).1 (hb' c (List.mem_reverse.1 hc)), h⟩
    have := congrArg List.reverse hb
    rw [List.reverse_reverse, List.reverse_append] at this
    rw [List.append_assoc, strip, ← this, ← ha]
  · rintro ⟨a, m, b, rfl, ha, hb, hm⟩
    have : strip (a ++ m ++ b) = m := by
      obtain ⟨c, t, hc, rfl⟩ := signedSeq_head hm
      rw [strip, List.append_assoc, List.cons_append,
        dropWhile_white a c (t ++ b) (fun x hx => (isSpace_iff x).2 (ha x hx)) hc, ← List.cons_append]
      obtain ⟨e, u, he, hu⟩ := signedSeq_last hm
      rw [hu, List.reverse_append, List.reverse_append, List.reverse_singleton, List.singleton_append,
        dropWhile_white _ e _ (fun x hx => (isSpace_iff x).2 (hb x (List.mem_reverse.1 hx))) he]
      simp
    rw [this]; exact hm

/-! ### Splitting -/

theorem splitDot_ne_nil (s : List Char) : splitDot s ≠ [] := by
  cases s with
  | nil => simp [splitDot]
  | cons c cs =>
    rw [splitDot]
    split
    · simp
    · split <;> simp

theorem splitDot_word (p : List Char) (hp : '.' ∉ p) : splitDot p = [p] := by
  induction p with
  | nil => rfl
  | cons c p ih =>
    rw [splitDot, if_neg (fun h => hp (by simp [h])), ih (fun h => hp (by simp [h]))]

theorem splitDot_cons (p s : List Char) (hp : '.' ∉ p) : splitDot (p ++ '.' :: s) = p :: splitDot s := by
  induction p with
  | nil => rw [List.nil_append, splitDot, if_pos rfl]
  | cons c p ih =>
    rw [List.cons_append, splitDot, if_neg (fun h => hp (by simp [h])), ih (fun h => hp (by simp [h]))]

theorem intercalate_cons (p q : List Char) (ps : List (List Char)) :
    List.intercalate ['.'] (p :: q :: ps) = p ++ '.' :: List.intercalate ['.'] (q :: ps) := by
  simp [List.intercalate, List.intersperse]

theorem intercalate_one (p : List Char) : List.intercalate ['.'] [p] = p := by
  simp [List.intercalate, List.intersperse]

theorem splitDot_of_isSplit (parts : List (List Char)) : ∀ s, IsSplit s parts → splitDot s = parts := by
  induction parts with
  | nil => intro s h; exact absurd rfl h.1
  | cons p ps ih =>
    rintro s ⟨_, hd, rfl⟩
    cases ps with
    | nil => rw [intercalate_one]; exact splitDot_word p (hd p (by simp))
    | cons q ps =>
      rw [intercalate_cons, splitDot_cons p _ (hd p (by simp)),
        ih _ ⟨by simp, fun x hx => hd x (by simp [hx]), rfl⟩]

theorem isSplit_splitDot (s : List Char) : IsSplit s (splitDot s) := by
  induction s with
  | nil => exact ⟨by simp [splitDot], by simp [splitDot], rfl⟩
  | cons c cs ih =>
    obtain ⟨h1, h2, h3⟩ := ih
    rw [splitDot]
    cases hs : splitDot cs with
    | nil => exact absurd hs h1
    | cons w ws =>
      rw [hs] at h2 h3
      by_cases hc : c = '.'
      · rw [if_pos hc]
        refine ⟨by simp, ?_, ?_⟩
        · intro p hp
          rcases List.mem_cons.1 hp with h | h
          · rw [h]; simp
          · exact h2 p h
        · rw [intercalate_cons, ← h3, hc]; rfl
      · rw [if_neg hc]
        refine ⟨by simp, ?_, ?_⟩
        · intro p hp
          rcases List.mem_cons.1 hp with h | h
          · subst h
            have := h2 w (by simp)
            intro hm
            rcases List.mem_cons.1 hm with h | h
            · exact hc h.symm
            · exact this h
          · exact h2 p (by simp [h])
        · rw [h3]
          cases ws with
          | nil => rw [intercalate_one, intercalate_one]
          | cons x ws => rw [intercalate_cons, intercalate_cons]; rfl

/-! ### digit -/

theorem mapM_iff (ps : List (List Char)) : ∀ vs, ps.mapM pyInt = some vs ↔ Components ps vs := by
  induction ps with
  | nil =>
    intro vs
    rw [List.mapM_nil]
    constructor
    · intro h; injection h with h; subst h; exact .nil
    · intro h; cases h; rfl
  | cons p ps ih =>
    intro vs
    rw [List.mapM_cons]
    constructor
    · intro h
      cases hp : pyInt p with
      | none => rw [hp] at h; cases h
      | some v =>
        cases hps : ps.mapM pyInt with
        | none => rw [hp, hps] at h; cases h
        | some us =>
          rw [hp, hps] at h
          injection h with h
          subst h
          exact .cons ((pyInt_iff p v).1 hp) ((ih us).1 hps)
    · intro h
      cases h with
      | cons h1 h2 => rw [(pyInt_iff _ _).2 h1, (ih _).2 h2]; rfl

theorem mapM_none (ps : List (List Char)) :
    ps.mapM pyInt = none ↔ ∃ p ∈ ps, ∀ v, ¬ IntLiteral p v := by
  induction ps with
  | nil => simp [List.mapM_nil]
  | cons p ps ih =>
    rw [List.mapM_cons]
    constructor
    · intro h
      cases hp : pyInt p with
      | none => exact ⟨p, by simp, fun v hv => by rw [(pyInt_iff p v).2 hv] at hp; cases hp⟩
      | some v =>
        cases hps : ps.mapM pyInt with
        | none =>
          obtain ⟨q, hq, hn⟩ := ih.1 hps
          exact ⟨q, by simp [hq], hn⟩
        | some us => rw [hp, hps] at h; cases h
    · rintro ⟨q, hq, hn⟩
      cases hp : pyInt p with
      | none => rfl
      | some v =>
        rcases List.mem_cons.1 hq with h | h
        · subst h; exact absurd ((pyInt_iff _ _).1 hp) (hn v)
        · rw [ih.2 ⟨q, h, hn⟩]; rfl

/-! ### Decimal strings -/

theorem decimal_digitSeq (n : Nat) : DigitSeq (decimal n) n := by
  induction n using Nat.strongRecOn with
  | _ n ih =>
    rw [decimal]
    split
    · next h => exact .one h
    · next h =>
      have := DigitSeq.more (ih (n / 10) (by omega)) (show n % 10 < 10 by omega)
      rwa [show n / 10 * 10 + n % 10 = n by omega] at this

theorem decimal_no_dot (n : Nat) : '.' ∉ decimal n := by
  induction n using Nat.strongRecOn with
  | _ n ih =>
    rw [decimal]
    split
    · next h =>
      intro hm
      exact decDigit_ne n h '.' (by decide) (List.mem_singleton.1 hm).symm
    · next h =>
      intro hm
      rcases List.mem_append.1 hm with h' | h'
      · exact ih (n / 10) (by omega) h'
      · exact decDigit_ne (n % 10) (by omega) '.' (by decide) (List.mem_singleton.1 h').symm

theorem decimal_literal (n : Nat) : IntLiteral (decimal n) n :=
  ⟨[], decimal n, [], by simp, by simp, by simp, .plain (decimal_digitSeq n)⟩

theorem dotted_eq (l : List Nat) (h : l ≠ []) : dotted l = List.intercalate ['.'] (l.map decimal) := by
  induction l with
  | nil => exact absurd rfl h
  | cons n l ih =>
    cases l with
    | nil => rw [dotted]; exact (intercalate_one _).symm
    | cons m l =>
      rw [dotted, ih (by simp)]
      · exact (intercalate_cons _ _ _).symm
      · simp

theorem dotted_split (l : List Nat) (h : l ≠ []) : IsSplit (dotted l) (l.map decimal) := by
  refine ⟨by simpa using h, ?_, dotted_eq l h⟩
  intro p hp
  obtain ⟨n, _, rfl⟩ := List.mem_map.1 hp
  exact decimal_no_dot n

theorem decimal_components (l : List Nat) : Components (l.map decimal) (l.map fun n : Nat => (n : Int)) := by
  induction l with
  | nil => exact .nil
  | cons n l ih => exact .cons (decimal_literal n) ih

theorem digit_dotted (l : List Nat) (h : l ≠ []) : digit (dotted l) = .ok (l.map fun n : Nat => (n : Int)) := by
  unfold digit
  rw [splitDot_of_isSplit _ _ (dotted_split l h), (mapM_iff _ _).2 (decimal_components l)]

end Gost.Oid
