import Verif.Props.Oid

/-! Property C88: the names of object identifiers. -/

namespace Gost
open Oid (digit octet)
open Spec (dotted ValidOid)

/-- The register, read by components: the identifier with these components has this name. -/
def Oid.Names (l : List Nat) (n : String) : Prop := ∃ p ∈ Oid.tc26, p.1.toList = dotted l ∧ p.2 = n

/-- The keys of the register differ, and no name is empty. -/
theorem Oid.tc26_keys : (Oid.tc26.map Prod.fst).Nodup ∧ (Oid.tc26.map Prod.snd).Nodup ∧
    ∀ p ∈ Oid.tc26, p.2 ≠ "" := by
  refine ⟨by decide +kernel, by decide +kernel, by decide +kernel⟩

theorem Oid.nodup_map_inj {α β : Type} (f : α → β) (t : List α) (h : (t.map f).Nodup) {x y : α} (hx : x ∈ t)
    (hy : y ∈ t) (he : f x = f y) : x = y := by
  rw [List.nodup_iff_pairwise_ne, List.pairwise_map] at h
  induction t with
  | nil => cases hx
  | cons a t ih =>
    rw [List.pairwise_cons] at h
    rcases List.mem_cons.1 hx with hxa | hxt <;> rcases List.mem_cons.1 hy with hya | hyt
    · rw [hxa, hya]
    · exact absurd (hxa ▸ he) (h.1 _ hyt)
    · exact absurd (hya ▸ he).symm (h.1 _ hxt)
    · exact ih h.2 hxt hyt

/-- **C88**: for every string, the name is that of the entry of the register with this string as its key, and is
empty exactly when there is none. -/
theorem C88_exact (s : List Char) :
    (∀ n, n ≠ "" → (Oid.name s = n ↔ ∃ p ∈ Oid.tc26, p.1.toList = s ∧ p.2 = n)) ∧
    (Oid.name s = "" ↔ ∀ p ∈ Oid.tc26, p.1.toList ≠ s) := by
  unfold Oid.name
  cases h : Oid.tc26.find? (fun p => decide (p.1.toList = s)) with
  | none =>
    have hn : ∀ p ∈ Oid.tc26, p.1.toList ≠ s := by
      intro p hp
      simpa using List.find?_eq_none.1 h p hp
    refine ⟨fun n hne => ⟨fun hh => absurd hh.symm hne, ?_⟩, by simpa using hn⟩
    rintro ⟨p, hp, h1, -⟩
    exact absurd h1 (hn p hp)
  | some p =>
    have hp := List.mem_of_find?_eq_some h
    have hs : p.1.toList = s := by simpa using List.find?_some h
    refine ⟨fun n hne => ⟨fun hh => ⟨p, hp, hs, hh⟩, ?_⟩, ?_⟩
    · rintro ⟨r, hr, h1, h2⟩
      have : r = p := Oid.nodup_map_inj _ _ Oid.tc26_keys.1 hr hp (String.toList_inj.1 (by rw [h1, hs]))
      rw [← h2, this]
    · exact ⟨fun hh => absurd hh (Oid.tc26_keys.2.2 p hp), fun hh => absurd hs (hh p hp)⟩

/-- **C88**: an identifier in dotted notation has the name under which its components are registered. -/
theorem C88_dotted_partial (l : List Nat) (n : String) (hn : n ≠ "") :
    Oid.name (dotted l) = n ↔ Oid.Names l n := (C88_exact (dotted l)).1 n hn

/-- **C88**: two strings with the same non-empty name are equal, so are their components and encodings. -/
theorem C88_unique (s s' : List Char) (h : Oid.name s = Oid.name s') (hne : Oid.name s ≠ "") :
    s = s' ∧ digit s = digit s' ∧ octet s = octet s' := by
  obtain ⟨p, hp, h1, h2⟩ := ((C88_exact s).1 _ hne).1 rfl
  obtain ⟨r, hr, h3, h4⟩ := ((C88_exact s').1 _ hne).1 h.symm
  have : p = r := Oid.nodup_map_inj _ _ Oid.tc26_keys.2.1 hp hr (by rw [h2, h4])
  have e : s = s' := by rw [← h1, ← h3, this]
  exact ⟨e, by rw [e], by rw [e]⟩

/-- The full statement of C88: the name depends on the identifier, that is, on the components. -/
def C88_statement : Prop :=
  ∀ s l, digit s = .ok (l.map fun n : Nat => (n : Int)) → ∀ n, n ≠ "" → (Oid.name s = n ↔ Oid.Names l n)

/-- The full statement is false: the name is looked up by the string, and `digit` accepts other spellings of the
same components. -/
theorem C88_statement_false : ¬ C88_statement := by
  intro h
  have h1 := (h "01.2.643.7.1".toList [1, 2, 643, 7, 1] (by decide +kernel) "id-tc26" (by decide)).2
    ⟨("1.2.643.7.1", "id-tc26"), by decide +kernel, by decide +kernel, rfl⟩
  exact absurd h1 (by decide +kernel)

example : Oid.name "1.2.643.7.1.1.2.2".toList = "id-tc26-gost3411-12-256" := by decide +kernel
example : Oid.name "1.2.643.7.2".toList = "" :=
  (C88_exact _).2.2 (by decide +kernel)
example : octet "01.2.643.7.1".toList = octet "1.2.643.7.1".toList := by decide +kernel

end Gost
