import Verif.Props.SourceExceptions
import Verif.Props.SourceOid
import Verif.Props.SourceSignature
import Verif.Props.CurveCheck

/-! C116 for object identifiers and signatures. -/

namespace Gost.Src

open Spec ModesSrc Streebog

/-! ### Object identifiers -/

theorem digitVal_le {c : Char} {d : Nat} (hd : Oid.digitVal? c = some d) : d ≤ 9 := by
  unfold Oid.digitVal? at hd
  split at hd
  · next h =>
    injection hd with hd
    have h1 : '0'.toNat ≤ c.toNat := h.1
    have h2 : c.toNat ≤ '9'.toNat := h.2
    simp at h1 h2
    omega
  · cases hd

theorem literalRest_lt : ∀ (cs : List Char) (acc n : Nat), Oid.literalRest cs acc = some n → n < (acc + 1) * 10 ^ cs.length := by
  intro cs acc
  induction cs, acc using Oid.literalRest.induct with
  | case1 acc => intro n e; simp [Oid.literalRest] at e; simp; omega
  | case2 c cs acc d hd ih =>
    intro n e
    simp only [Oid.literalRest, hd] at e
    have h1 := ih n e
    have h9 := digitVal_le hd
    refine Nat.lt_of_lt_of_le h1 ?_
    simp only [List.length_cons, Nat.pow_succ]
    have : (acc * 10 + d + 1) ≤ (acc + 1) * 10 := by omega
    calc (acc * 10 + d + 1) * 10 ^ cs.length ≤ ((acc + 1) * 10) * 10 ^ cs.length := Nat.mul_le_mul_right _ this
      _ ≤ (acc + 1) * (10 ^ cs.length * 10 * 10) := by
        rw [show (acc + 1) * (10 ^ cs.length * 10 * 10) = ((acc + 1) * 10) * 10 ^ cs.length * 10 by ring]
        omega
  | case3 c cs acc hd => intro n e; simp only [Oid.literalRest, hd] at e; cases e
  | case4 c cs acc hx d hd ih =>
    intro n e
    rw [Oid.literalRest] at e
    · simp only [hd] at e
      have h1 := ih n e
      have h9 := digitVal_le hd
      refine Nat.lt_of_lt_of_le h1 ?_
      simp only [List.length_cons, Nat.pow_succ]
      have : (acc * 10 + d + 1) ≤ (acc + 1) * 10 := by omega
      calc (acc * 10 + d + 1) * 10 ^ cs.length ≤ ((acc + 1) * 10) * 10 ^ cs.length := Nat.mul_le_mul_right _ this
        _ = (acc + 1) * (10 ^ cs.length * 10) := by ring
    · exact hx
  | case5 c cs acc hx hd =>
    intro n e
    rw [Oid.literalRest] at e
    · simp only [hd] at e
      cases e
    · exact hx

theorem literal_lt {cs : List Char} {n : Nat} (e : Oid.literal cs = some n) : cs ≠ [] ∧ n < 10 ^ cs.length := by
  cases cs with
  | nil => cases e
  | cons c cs =>
    simp only [Oid.literal] at e
    cases hd : Oid.digitVal? c with
    | none => rw [hd] at e; cases e
    | some d =>
      rw [hd] at e
      have h1 := literalRest_lt cs d n e
      have h9 := digitVal_le hd
      refine ⟨by simp, Nat.lt_of_lt_of_le h1 ?_⟩
      simp only [List.length_cons, Nat.pow_succ]
      rw [Nat.mul_comm]
      exact Nat.mul_le_mul_left _ (by omega)

/-- An integer literal is not empty, and its value has at most as many digits as it has characters. -/
theorem pyInt_lt {s : List Char} {v : Int} (e : Oid.pyInt s = some v) : 0 < s.length ∧ v < 10 ^ s.length := by
  unfold Oid.pyInt at e
  dsimp only at e
  have hlen : ((s.dropWhile Oid.isSpace).reverse.dropWhile Oid.isSpace).reverse.length ≤ s.length := by
    rw [List.length_reverse]
    refine Nat.le_trans (List.dropWhile_sublist _).length_le ?_
    rw [List.length_reverse]
    exact (List.dropWhile_sublist _).length_le
  generalize ((s.dropWhile Oid.isSpace).reverse.dropWhile Oid.isSpace).reverse = t at e hlen
  have fin : ∀ (r : List Char) (n : Nat), r.length ≤ t.length → Oid.literal r = some n →
      0 < s.length ∧ (n : Int) < 10 ^ s.length := by
    intro r n hr hn
    obtain ⟨h1, h2⟩ := literal_lt hn
    have h3 : 0 < r.length := List.length_pos_iff.2 h1
    refine ⟨by omega, ?_⟩
    have : n < 10 ^ s.length := Nat.lt_of_lt_of_le h2 (Nat.pow_le_pow_right (by decide) (by omega))
    exact_mod_cast this
  split at e
  · next r =>
    cases hl : Oid.literal r with
    | none => rw [hl] at e; cases e
    | some n =>
      rw [hl] at e
      simp only [Option.map_some, Option.some.injEq] at e
      obtain ⟨h1, h2⟩ := fin r n (by simp) hl
      exact ⟨h1, by omega⟩
  · next r =>
    cases hl : Oid.literal r with
    | none => rw [hl] at e; cases e
    | some n =>
      rw [hl] at e
      simp only [Option.map_some, Option.some.injEq] at e
      obtain ⟨h1, h2⟩ := fin r n (by simp) hl
      exact ⟨h1, by omega⟩
  · next r =>
    cases hl : Oid.literal t with
    | none => rw [hl] at e; cases e
    | some n =>
      rw [hl] at e
      simp only [Option.map_some, Option.some.injEq] at e
      obtain ⟨h1, h2⟩ := fin t n (by omega) hl
      exact ⟨h1, by omega⟩

theorem intToOctet_cases (v : Int) (k : Nat) (hk : 0 < k) (hv : v < 10 ^ k) :
    (v < 0 ∧ Oid.intToOctet v = .error .overflowError) ∨ (0 ≤ v ∧ ∃ b, Oid.intToOctet v = .ok b ∧ b.length ≤ k) := by
  by_cases h0 : v < 0
  · exact Or.inl ⟨h0, Oid.intToOctet_neg v h0⟩
  refine Or.inr ⟨by omega, ?_⟩
  obtain ⟨m, rfl⟩ : ∃ m : Nat, v = m := ⟨v.toNat, by omega⟩
  have hm : m < 10 ^ k := by exact_mod_cast hv
  unfold Oid.intToOctet
  rw [if_neg h0]
  simp only [Int.toNat_natCast]
  by_cases h1 : m < 0x80
  · rw [if_pos h1]
    exact ⟨_, rfl, by simp; omega⟩
  · rw [if_neg h1]
    obtain ⟨b1, b2, b3⟩ := Oid.lenInt_bounds m 7 (by omega) (by decide)
    have hlen := Oid.digits_length 7 (Oid.lenInt m 7) m
    have : Oid.lenInt m 7 ≤ k := by
      by_contra hc
      have h2 : (2 ^ 7) ^ k ≤ (2 ^ 7) ^ (Oid.lenInt m 7 - 1) := Nat.pow_le_pow_right (by decide) (by omega)
      have h3 : 10 ^ k ≤ (2 ^ 7) ^ k := Nat.pow_le_pow_left (by decide) k
      omega
    generalize Oid.digits 7 (Oid.lenInt m 7) m = ds at hlen
    cases ds with
    | nil => simp at hlen; omega
    | cons b bs => exact ⟨_, rfl, by simp at hlen ⊢; omega⟩

/-- The literals `parts` have the values `vs`. -/
def Literals : List (List Char) → List Int → Prop
  | [], [] => True
  | p :: ps, v :: vs => Oid.pyInt p = some v ∧ Literals ps vs
  | _, _ => False

theorem literals_of : ∀ (ps : List (List Char)) (vs : List Int), ps.mapM Oid.pyInt = some vs → Literals ps vs := by
  intro ps
  induction ps with
  | nil => intro vs e; simp at e; subst e; trivial
  | cons p ps ih =>
    intro vs e
    rw [List.mapM_cons] at e
    cases h1 : Oid.pyInt p with
    | none => rw [h1] at e; cases e
    | some v =>
      cases h2 : ps.mapM Oid.pyInt with
      | none => rw [h1, h2] at e; cases e
      | some ws =>
        rw [h1, h2] at e
        cases e
        exact ⟨h1, ih ws h2⟩

def total (ps : List (List Char)) : Nat := (ps.map List.length).sum

theorem encodeRest_cases : ∀ (ps : List (List Char)) (vs : List Int) (acc : Bytes), Literals ps vs →
    (∃ b, Oid.encodeRest vs acc = .ok b ∧ b.length ≤ acc.length + total ps) ∨
    ((∃ v ∈ vs, v < 0) ∧ Oid.encodeRest vs acc = .error .overflowError) := by
  intro ps
  induction ps with
  | nil =>
    intro vs acc h
    cases vs with
    | nil => exact Or.inl ⟨acc, rfl, by simp⟩
    | cons v vs => exact h.elim
  | cons p ps ih =>
    intro vs acc h
    cases vs with
    | nil => exact h.elim
    | cons v vs =>
      obtain ⟨h1, h2⟩ := pyInt_lt h.1
      rcases intToOctet_cases v p.length h1 h2 with ⟨h3, e⟩ | ⟨-, b, e, hb⟩
      · refine Or.inr ⟨⟨v, by simp, h3⟩, ?_⟩
        rw [Oid.encodeRest, e]
        rfl
      · rw [Oid.encodeRest, e, Res.bind_ok]
        rcases ih vs (acc ++ b) h.2 with ⟨c, e', hc⟩ | ⟨⟨w, hw, h0⟩, e'⟩
        · refine Or.inl ⟨c, e', ?_⟩
          simp only [total, List.map_cons, List.sum_cons, List.length_append] at hc ⊢
          omega
        · exact Or.inr ⟨⟨w, by simp [hw], h0⟩, e'⟩

theorem total_split : ∀ s : List Char, total (Oid.splitDot s) ≤ s.length
  | [] => by simp [Oid.splitDot, total]
  | c :: cs => by
    have ih := total_split cs
    unfold Oid.splitDot
    by_cases hc : c = '.'
    · rw [if_pos hc]
      simp only [total, List.map_cons, List.sum_cons, List.length_nil, List.length_cons] at ih ⊢
      omega
    · rw [if_neg hc]
      generalize Oid.splitDot cs = ws at ih
      cases ws with
      | nil => simp [total]
      | cons w ws =>
        simp only [total, List.map_cons, List.sum_cons, List.length_cons] at ih ⊢
        omega

/-- The exceptions of `octet`. -/
theorem octet_cases (s : List Char) (hs : s.length < 256 ^ 126) :
    (∃ b, Oid.octet s = .ok b) ∨ (∃ m, Oid.octet s = .error (.oidError m)) ∨
    (Oid.octet s = .error .indexError ∧ ∃ x, Oid.digit s = .ok [x] ∧ (x = 0 ∨ x = 1 ∨ x = 2)) ∨
    (Oid.octet s = .error .overflowError ∧ ∃ l, Oid.digit s = .ok l ∧ ∃ v ∈ l, v < 0) := by
  cases hd : Oid.digit s with
  | error e =>
    rcases C40_digit_total s with ⟨l, h⟩ | h
    · rw [hd] at h; cases h
    · exact Or.inr (Or.inl ⟨_, C40_octet_invalid s h⟩)
  | ok l =>
    have hlit : Literals (Oid.splitDot s) l := by
      unfold Oid.digit at hd
      split at hd
      · next h => cases hd; exact literals_of _ _ h
      · cases hd
    have htot := total_split s
    generalize Oid.splitDot s = ps at hlit htot
    match ps, l, hlit with
    | [], [], _ =>
      have : Oid.octet s = .error .indexError := by unfold Oid.octet; rw [hd]; rfl
      exfalso
      unfold Oid.digit at hd
      split at hd
      · next h =>
        cases hd
        have h1 := literals_of _ _ h
        have h2 : Oid.splitDot s ≠ [] := by
          cases s with
          | nil => simp [Oid.splitDot]
          | cons c cs =>
            unfold Oid.splitDot
            split
            · simp
            · split <;> simp
        cases h3 : Oid.splitDot s with
        | nil => exact h2 h3
        | cons p ps => rw [h3] at h1; exact h1.elim
      · cases hd
    | [p], [x], _ =>
      by_cases hx : x = 0 ∨ x = 1 ∨ x = 2
      · exact Or.inr (Or.inr (Or.inl ⟨C40_single s x hd hx, x, rfl, hx⟩))
      · exact Or.inr (Or.inl ⟨_, C40_first s x [] hd (by omega)⟩)
    | p :: q :: ps, x :: y :: rest, ⟨e1, e2, e3⟩ =>
      by_cases hx : x = 0 ∨ x = 1 ∨ x = 2
      · by_cases hy : x ≠ 2 ∧ 40 ≤ y
        · exact Or.inr (Or.inl ⟨_, C40_second_partial s x y rest hd (by omega) hy.2⟩)
        · obtain ⟨p1, -⟩ := pyInt_lt e1
          obtain ⟨q1, q2⟩ := pyInt_lt e2
          have hlt : 40 * x + y < 10 ^ (q.length + 1) := by
            have h10 : (10 : Int) ≤ 10 ^ q.length := by
              have : 10 ^ 1 ≤ 10 ^ q.length := Nat.pow_le_pow_right (by decide) q1
              exact_mod_cast this
            rw [pow_succ]
            omega
          unfold Oid.octet
          rw [hd, Res.bind_ok, Oid.encodeOctet_cons, if_pos hx, if_neg hy]
          rcases intToOctet_cases _ _ (Nat.succ_pos _) hlt with ⟨h0, e⟩ | ⟨h0, b, e, hb⟩
          · refine Or.inr (Or.inr (Or.inr ⟨?_, x :: y :: rest, rfl, y, by simp, by omega⟩))
            rw [e]
            rfl
          · rw [e]
            show (∃ b', (Oid.encodeRest rest b >>= _) = _) ∨ (∃ m, (Oid.encodeRest rest b >>= _) = _) ∨
              ((Oid.encodeRest rest b >>= _) = _ ∧ _) ∨ ((Oid.encodeRest rest b >>= _) = _ ∧ _)
            rcases encodeRest_cases ps rest b e3 with ⟨c, e', hc⟩ | ⟨⟨w, hw, h0⟩, e'⟩
            · rw [e', Res.bind_ok, Oid.lenOidOctet_eq c.length (by
                simp only [total, List.map_cons, List.sum_cons] at htot hc
                omega), Res.bind_ok]
              exact Or.inl ⟨_, rfl⟩
            · rw [e']
              exact Or.inr (Or.inr (Or.inr ⟨rfl, _, rfl, w, by simp [hw], h0⟩))
      · exact Or.inr (Or.inl ⟨_, C40_first s x (y :: rest) hd (by omega)⟩)

/-- The uses of an object identifier. -/
inductive OidUse : Use → Prop where
  | str : OidUse (.meth "__str__" [])
  | name : OidUse (.attr "name")
  | digit : OidUse (.attr "digit")
  | octet : OidUse (.attr "octet")

/-- C116, `gostoid`, for a string of any characters shorter than 2^1008 characters: the exceptions are those of the module, or `IndexError`
if the string is one of the numbers 0, 1, 2 alone, or `OverflowError` if a component is negative. -/
theorem C116_oid_partial (L n : Nat) (h : Heap) (s : String) (hs : s.toList.length < 256 ^ 126) :
    ∃ o h', instantiate (ctx L (n + 4)) "ObjectIdentifier" [.str s] h = ok o h' ∧
    ∀ us, (∀ u ∈ us, OidUse u) → AllAnswer (fun e => Only "GOSTOIDError" e ∨
      (e = .index ∧ ∃ parts x, IsSplit s.toList parts ∧ Components parts [x] ∧ (x = 0 ∨ x = 1 ∨ x = 2)) ∨
      (e = .overflow ∧ ∃ parts l, IsSplit s.toList parts ∧ Components parts l ∧ ∃ v ∈ l, v < 0)) (ctx L (n + 4)) o us h' := by
  obtain ⟨h', f, -, a⟩ := C103_new L (n + 3) s h
  refine ⟨_, h', f, fun us hu => ?_⟩
  refine allAnswer (fun h1 => OidAt s h.length h1) ?_ us hu h' a
  rintro u c h1 a
  have g := a
  unfold OidAt at g
  cases c with
  | str =>
    have := (C103_name L (n + 3) a).1
    rw [show Use.run (ctx L (n + 4)) (.ref h.length) (.meth "__str__" []) h1 =
      call package L (n + 4) "ObjectIdentifier.__str__" [.ref h.length] h1 by simp only [Use.run]; py [g], this]
    exact ⟨trivial, a⟩
  | name =>
    rw [show Use.run (ctx L (n + 4)) (.ref h.length) (.attr "name") h1 =
      call package L (n + 4) "ObjectIdentifier.name" [.ref h.length] h1 by simp only [Use.run]; py [g], OidSrc.name_ok L (n + 3) a]
    exact ⟨trivial, a⟩
  | digit =>
    rw [show Use.run (ctx L (n + 4)) (.ref h.length) (.attr "digit") h1 =
      call package L (n + 4) "ObjectIdentifier.digit" [.ref h.length] h1 by simp only [Use.run]; py [g]]
    have d := OidSrc.digit_ok L (n + 3) a
    rcases C40_digit_total s.toList with ⟨l, e⟩ | e
    · rw [e] at d
      obtain ⟨l', d⟩ := d
      rw [d]
      exact ⟨trivial, get_mono g _⟩
    · rw [e] at d
      obtain ⟨l', d⟩ := d
      rw [d]
      exact ⟨Or.inl ⟨_, rfl⟩, get_mono g _⟩
  | octet =>
    rw [show Use.run (ctx L (n + 4)) (.ref h.length) (.attr "octet") h1 =
      call package L (n + 4) "ObjectIdentifier.octet" [.ref h.length] h1 by simp only [Use.run]; py [g]]
    have f := OidSrc.octet_ok L n a
    rcases octet_cases s.toList hs with ⟨b, e⟩ | ⟨m, e⟩ | ⟨e, x, hd, hx⟩ | ⟨e, x, hd, hx⟩
    · rw [e] at f
      exact ⟨answers_new f, (newBytes_ext f).get g⟩
    · rw [e] at f
      obtain ⟨l, f⟩ := f
      rw [f]
      exact ⟨Or.inl ⟨_, rfl⟩, get_mono g _⟩
    · rw [e] at f
      obtain ⟨l, f⟩ := f
      rw [f]
      exact ⟨Or.inr (Or.inl ⟨rfl, (C40_digit_iff _ _).1 hd |>.elim fun p q => ⟨p, x, q.1, q.2, hx⟩⟩), get_mono g _⟩
    · rw [e] at f
      obtain ⟨l, f⟩ := f
      rw [f]
      exact ⟨Or.inr (Or.inr ⟨rfl, (C40_digit_iff _ _).1 hd |>.elim fun p q => ⟨p, x, q.1, q.2, hx⟩⟩), get_mono g _⟩

/-! ### Signatures -/

open SigSrc in
/-- The exceptions of the constructor. -/
theorem sig_new_cases (mode : Int) (c : CurveParams) (hp : 0 < c.p.getD 1) :
    (∃ s, Sig.new mode c = .ok s ∧ s.p = c.p.getD 1 ∧ 0 < s.q ∧ s.q ≤ 2 ^ 512) ∨
    (∃ m, Sig.new mode c = .error (.signatureError m)) ∨
    (Sig.new mode c = .error .zeroDivisionError ∧ c.q.getD 1 = 0) := by
  by_cases hm : mode = 1 ∨ mode = 2
  · have hed : ∃ s, (Sig.given mode c).edvardsToCanonical = .ok s ∧ s.p = c.p.getD 1 ∧ s.q = c.q.getD 1 := by
      unfold Sig.edvardsToCanonical
      split
      · rw [if_neg (by show c.p.getD 1 ≠ 0; omega)]
        exact ⟨_, rfl, rfl, rfl⟩
      · exact ⟨_, rfl, rfl, rfl⟩
    obtain ⟨s, hs, h1, h2⟩ := hed
    rw [Sig.new_eq mode c hm, hs, Res.bind_ok]
    obtain ⟨p1, p2, p3⟩ := Sig.checkCurve_eq s (Sig.given_size mode c s hs)
    by_cases ha : Sig.Acceptable s
    · rw [p1 ha, Res.bind_ok]
      refine Or.inl ⟨s, rfl, h1, ?_⟩
      have := ha.2.2.2
      unfold Sig.OrderRange at this
      have q1 : (0 : Int) < 2 ^ 254 := by positivity
      have q2 : (0 : Int) < 2 ^ 508 := by positivity
      have q3 : (2 : Int) ^ 256 ≤ 2 ^ 512 := pow_le_pow_right₀ (by norm_num) (by norm_num)
      omega
    · by_cases hz : s.m ≠ s.p ∧ (s.p = 0 ∨ (Sig.OnCurve s ∧ s.q = 0))
      · rw [p2 hz]
        refine Or.inr (Or.inr ⟨rfl, ?_⟩)
        rcases hz.2 with h | h
        · omega
        · rw [← h2]; exact h.2
      · rw [p3 ⟨ha, hz⟩]
        exact Or.inr (Or.inl ⟨_, rfl⟩)
  · unfold Sig.new
    rw [if_pos (by simpa [mode256, mode512] using hm)]
    exact Or.inr (Or.inl ⟨_, rfl⟩)

/-- The uses of a signature object with arguments which existed before it; `sign` with a random number which is not
an empty byte string (with an empty one, or none, it reads the source of random bytes, see `C104_sign`). -/
inductive SigUse (h : Heap) : Use → Prop where
  | key (kv : Val) : SigUse h (.meth "public_key_generate" [kv])
  | sign (kv dv rv : Val) (k : Known rv h) (e : bytesOf rv h ≠ some []) : SigUse h (.meth "sign" [kv, dv, rv])
  | verify (kv dv gv : Val) : SigUse h (.meth "verify" [kv, dv, gv])

theorem bytesResult_answers {o : Out Val} {h : Heap} {r : Option (Res Bytes)} (b : SigSrc.BytesResult [] o h r)
    (f : ∀ e, r = some (.error e) → ∃ m, e = .signatureError m) :
    Answers (fun e => Only "GOSTSignatureError" e ∨ e = .fuel) o ∧ Ext h o.2 := by
  unfold SigSrc.BytesResult at b
  match r, b with
  | some (.ok _), b =>
    obtain ⟨h', v, rfl, k, -⟩ := b
    exact ⟨trivial, k.ext⟩
  | some (.error e), b =>
    obtain ⟨h', rfl, k⟩ := b
    obtain ⟨m, rfl⟩ := f e rfl
    exact ⟨Or.inl ⟨m, rfl⟩, k.ext⟩
  | none, b =>
    obtain ⟨h', rfl, k⟩ := b
    exact ⟨Or.inr rfl, k.ext⟩

theorem sig_uses (F n : Nat) (hn : 739 ≤ n) {s : Sig} {me o : Nat} {h0 h : Heap} (a : SigSrc.SigCell s me o h) (x : Ext h0 h)
    (p0 : 0 < s.p) (hp : s.p ≤ 2 ^ 512) (q0 : 0 < s.q) (hq : s.q ≤ 2 ^ 512) (us : List Use) (hu : ∀ u ∈ us, SigUse h0 u) :
    AllAnswer (fun e => Only "GOSTSignatureError" e ∨ e = .fuel) (ctx (F + 1) (n + 4)) (.ref me) us h := by
  refine allAnswer (fun h => SigSrc.SigCell s me o h ∧ Ext h0 h) ?_ us hu h ⟨a, x⟩
  rintro u c h ⟨a, x⟩
  have g := a
  unfold SigSrc.SigCell at g
  cases c with
  | key kv =>
    rw [show Use.run (ctx (F + 1) (n + 4)) (.ref me) (.meth "public_key_generate" [kv]) h =
      call package (F + 1) (n + 4) "GOST34102012.public_key_generate" [.ref me, kv] h by simp only [Use.run]; py [g]]
    obtain ⟨p1, p2⟩ := bytesResult_answers (C104_public_key a p0 hp F n hn kv) fun e he => by
      have := (Sig.C47_public_key_generate _ _ _ _).1 he
      exact ⟨_, this.2⟩
    exact ⟨p1, p2.get g, x.trans p2⟩
  | sign kv dv rv k e =>
    rw [show Use.run (ctx (F + 1) (n + 4)) (.ref me) (.meth "sign" [kv, dv, rv]) h =
      call package (F + 1) (n + 4) "GOST34102012.sign" [.ref me, kv, dv, rv] h by simp only [Use.run]; py [g]]
    have kn : ∀ w, rv = .ref w → w < h.length := fun w hw => Nat.lt_of_lt_of_le (k w hw) x.length
    have he : (pyVal rv h).isEmpty = false := by
      have hb : bytesOf rv h ≠ some [] := by
        rw [bytesOf_same (x.keeps []) fun r hr => ⟨by simp, k r hr⟩]
        exact e
      rw [← pyVal_data] at hb
      cases hv : pyVal rv h with
      | bytes b => rw [hv] at hb; cases b with
        | nil => exact absurd rfl hb
        | cons x l => rfl
      | bytearray b => rw [hv] at hb; cases b with
        | nil => exact absurd rfl hb
        | cons x l => rfl
      | other => rfl
    have f := C104_sign a p0 hp F n hn q0 kv dv rv kn (fun _ => []) (fun h' => by rw [he] at h'; cases h')
    rw [if_neg (by rw [he]; simp)] at f
    obtain ⟨p1, p2⟩ := bytesResult_answers f fun e he => by
      rcases (Sig.C47_sign _ _ _ _ _ _ _).1 he with h | h | h
      · exact ⟨_, h.2⟩
      · exact ⟨_, h.2.2⟩
      · exact ⟨_, h.2.2.2⟩
    exact ⟨p1, p2.get g, x.trans p2⟩
  | verify kv dv gv =>
    rw [show Use.run (ctx (F + 1) (n + 4)) (.ref me) (.meth "verify" [kv, dv, gv]) h =
      call package (F + 1) (n + 4) "GOST34102012.verify" [.ref me, kv, dv, gv] h by simp only [Use.run]; py [g]]
    have f := C104_verify a p0 hp F n hn q0 hq kv dv gv
    unfold SigSrc.BoolResult at f
    generalize er : s.verify F (pyVal kv h) (pyVal dv h) (pyVal gv h) = r at f
    match r, f with
    | some (.ok b), f =>
      obtain ⟨l, f⟩ := f
      rw [f]
      exact ⟨trivial, get_mono g _, x.add l⟩
    | some (.error e), f =>
      obtain ⟨l, f⟩ := f
      rw [f]
      refine ⟨Or.inl ?_, get_mono g _, x.add l⟩
      rcases (Sig.C47_verify _ _ _ _ _ _).1 er with h | h | h
      · exact ⟨_, by rw [h.2]; rfl⟩
      · exact ⟨_, by rw [h.2.2]; rfl⟩
      · exact ⟨_, by rw [h.2.2.2]; rfl⟩
    | none, f =>
      obtain ⟨l, f⟩ := f
      rw [f]
      exact ⟨Or.inr rfl, get_mono g _, x.add l⟩

open SigSrc in
/-- C116, `gostsignature`, for every dictionary of integers with a modulus of up to 2^512, every integer as mode and
with enough nested calls: the constructor returns, or raises the exception of the module, or `ZeroDivisionError` if
the order given is 0; every use of the object returns, raises the exception of the module, or has a loop which does
not end within `F` turns. -/
theorem C116_signature_partial (F n : Nat) (hn : 739 ≤ n) (h : Heap) (mode : Int) {l : List (String × Val)} {c : CurveParams}
    (d : CurveDict l c) (h0 : 0 < c.p.getD 1) (hp : c.p.getD 1 ≤ 2 ^ 512) :
    Answers (fun e => Only "GOSTSignatureError" e ∨ (e = .zeroDiv ∧ findAttr "q" l = some (.int 0)))
      (call package (F + 1) (n + 4) "Signature.new" [.int mode, .dict l] h) ∧
    ∀ o h', call package (F + 1) (n + 4) "Signature.new" [.int mode, .dict l] h = ok o h' →
      ∀ us, (∀ u ∈ us, SigUse h u) →
        AllAnswer (fun e => Only "GOSTSignatureError" e ∨ e = .fuel) (ctx (F + 1) (n + 4)) o us h' := by
  have f := C104_new (F + 1) n hn h mode d h0 hp
  rcases sig_new_cases mode c h0 with ⟨s, e, h1, h2, h3⟩ | ⟨m, e⟩ | ⟨e, hq⟩
  · rw [e] at f
    obtain ⟨h', me, o, f, x, -, -, a, -⟩ := f
    rw [f]
    refine ⟨trivial, fun o' h1' e' => ?_⟩
    cases e'
    exact sig_uses F n hn a x (by omega) (by omega) h2 h3
  · rw [e] at f
    obtain ⟨h', f, -⟩ := f
    rw [f]
    exact ⟨Or.inl ⟨_, rfl⟩, fun o h' e => by cases e⟩
  · rw [e] at f
    obtain ⟨h', f, -⟩ := f
    rw [f]
    refine ⟨Or.inr ⟨rfl, ?_⟩, fun o h' e => by cases e⟩
    rw [d.q]
    cases hc : c.q with
    | none => rw [hc] at hq; cases hq
    | some q => rw [hc] at hq; simp at hq; rw [hq]; rfl

end Gost.Src
