import Verif.Model.Version

/-! Property C93: the versions of Python on which the package can be imported. -/

namespace Gost

/-- The order of versions: first the major, then the minor number. -/
def Spec.VersionLe (a b : Nat × Nat) : Prop := a.1 < b.1 ∨ (a.1 = b.1 ∧ a.2 ≤ b.2)

/-- C93, exact behaviour: both numbers are compared by themselves. -/
theorem C93_exact (major minor : Nat) : importGoesOn major minor = true ↔ 3 ≤ major ∧ 6 ≤ minor := by
  simp only [importGoesOn, Bool.not_eq_true', Bool.or_eq_false_iff, decide_eq_false_iff_not]
  omega

/-- C93 up to the last version 3. Missing: later major versions, for which the claim is false. -/
theorem C93_partial (major minor : Nat) (h : major ≤ 3) :
    importGoesOn major minor = true ↔ Spec.VersionLe (3, 6) (major, minor) := by
  rw [C93_exact]
  simp only [Spec.VersionLe]
  omega

/-- C93 is false: version 4.0 is later than 3.6, and the package says that 3.6 or higher must be used. -/
theorem C93_statement_false : Spec.VersionLe (3, 6) (4, 0) ∧ importGoesOn 4 0 = false := by
  refine ⟨.inl (by decide), by decide⟩

/-- Both answers occur for versions 3. -/
example : importGoesOn 3 6 = true ∧ importGoesOn 3 5 = false ∧ importGoesOn 2 7 = false := by decide

end Gost
