/-! Two lists whose entries are related one by one. -/

namespace Gost

/-- All objects stand for the entries of the log. -/
def AllRel {α β : Type} (R : α → β → Prop) (objs : List α) (log : List β) : Prop :=
  objs.length = log.length ∧ ∀ (i : Nat) s e, objs[i]? = some s → log[i]? = some e → R s e

namespace AllRel
variable {α β : Type} {R : α → β → Prop} {objs : List α} {log : List β}

theorem nil : AllRel R [] [] := ⟨rfl, by intro i s e h; simp at h⟩

theorem append (h : AllRel R objs log) {s : α} {e : β} (hs : R s e) :
    AllRel R (objs ++ [s]) (log ++ [e]) := by
  refine ⟨by simp [h.1], ?_⟩
  intro i t f ht hf
  rcases Nat.lt_trichotomy i objs.length with hi | hi | hi
  · rw [List.getElem?_append_left hi] at ht
    rw [List.getElem?_append_left (by rw [← h.1]; exact hi)] at hf
    exact h.2 i t f ht hf
  · subst hi
    rw [List.getElem?_append_right (Nat.le_refl _)] at ht
    rw [h.1, List.getElem?_append_right (Nat.le_refl _)] at hf
    simp at ht hf
    subst ht hf
    exact hs
  · rw [List.getElem?_eq_none (by simp; omega)] at ht
    cases ht

theorem set (h : AllRel R objs log) (i : Nat) {s : α} {e : β} (hs : R s e) :
    AllRel R (objs.set i s) (log.set i e) := by
  refine ⟨by simp [h.1], ?_⟩
  intro j t f ht hf
  by_cases hij : i = j
  · subst hij
    rw [List.getElem?_set] at ht hf
    rw [if_pos rfl] at ht hf
    split at ht
    · split at hf
      · cases ht; cases hf; exact hs
      · cases hf
    · cases ht
  · rw [List.getElem?_set_ne hij] at ht hf
    exact h.2 j t f ht hf

theorem get (h : AllRel R objs log) (i : Nat) :
    (objs[i]? = none ∧ log[i]? = none) ∨
      ∃ s e, objs[i]? = some s ∧ log[i]? = some e ∧ R s e := by
  by_cases hi : i < objs.length
  · right
    have hi' : i < log.length := by rw [← h.1]; exact hi
    exact ⟨objs[i], log[i], by simp [hi], by simp [hi'], h.2 i _ _ (by simp [hi]) (by simp [hi'])⟩
  · left
    exact ⟨List.getElem?_eq_none (by omega), List.getElem?_eq_none (by have := h.1; omega)⟩

theorem set_self (h : AllRel R objs log) (i : Nat) {s : α} (hs : objs[i]? = some s) :
    AllRel R (objs.set i s) log := by
  have : objs.set i s = objs := by
    apply List.ext_getElem?
    intro j
    rw [List.getElem?_set]
    split
    · rename_i hij
      subst hij
      split
      · exact hs.symm
      · rename_i hn
        rw [List.getElem?_eq_none (by omega)]
    · rfl
  rw [this]; exact h

theorem set_left (h : AllRel R objs log) (i : Nat) {s : α} {e : β} (he : log[i]? = some e)
    (hs : R s e) : AllRel R (objs.set i s) log := by
  refine ⟨by simp [h.1], ?_⟩
  intro j t f ht hf
  by_cases hij : i = j
  · subst hij
    rw [List.getElem?_set, if_pos rfl] at ht
    rw [he] at hf
    split at ht
    · cases ht; cases hf; exact hs
    · cases ht
  · rw [List.getElem?_set_ne hij] at ht
    exact h.2 j t f ht hf

end AllRel
end Gost
