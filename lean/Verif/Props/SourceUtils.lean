import Verif.SourceProofs.Utils

/-! C95: the text of `utils.py` computes the functions of the model. -/

namespace Gost.Src

/-- C95: every function of utils.py as it is written (`Verif/Source/Text/Utils.lean`), run on any
arguments in any memory, computes the function of the model; results that are byte objects are new, and
everything that was in memory before the call is unchanged. -/
theorem C95_utils (L n : Nat) (h : Heap) :
    (∀ v (size : Nat), call package L (n + 1) "Utils.check_value" [v, .int size] h =
      ok (.bool (checkValue (pyVal v h) size)) h) ∧
    (∀ v b, bytesOf v h = some b → call package L (n + 1) "Utils.msb" [v] h =
      match msb b with
      | .ok x => ok (.int x.toNat) h
      | .error _ => fail .index h) ∧
    (∀ v w a b, bytesOf v h = some a → bytesOf w h = some b →
      NewBytes (call package L (n + 1) "Utils.add_xor" [v, w] h) h (addXor a b)) ∧
    (∀ v b, bytesOf v h = some b →
      NewBytes (call package L (n + 1) "Utils.zero_fill" [v] h) h (zeroFill b)) ∧
    (∀ v, bytesOf v h = none →
      call package L (n + 1) "Utils.zero_fill" [v] h = ok (.bytes []) h) ∧
    (∀ v, (call package L (n + 1) "Utils.zero_fill" [v] h = ok (.bytes (zeroFillVal (pyVal v h))) h ∧
        bytesOf v h = none) ∨
      NewBytes (call package L (n + 1) "Utils.zero_fill" [v] h) h (zeroFillVal (pyVal v h))) ∧
    (∀ v b, bytesOf v h = some b →
      call package L (n + 1) "Utils.bytearray_to_int" [v] h = ok (.int (bytesToInt b)) h) ∧
    (∀ (x : Int) (k : Nat),
      NewBytes (call package L (n + 1) "Utils.int_to_bytearray" [.int x, .int k] h) h (intToBytes x k)) ∧
    (∀ v w a b, bytesOf v h = some a → bytesOf w h = some b →
      ∃ h', call package L (n + 1) "Utils.compare" [v, w] h = ok (.bool (compare a b)) h' ∧ Ext h h') ∧
    (∀ v a, bytesOf v h = some a →
      ∃ h', call package L (n + 1) "Utils.compare_to_zero" [v] h = ok (.bool (compareToZero a)) h' ∧
        Ext h h') := by
  refine ⟨fun v s => check_value_ok L n v s h, fun v b e => ?_, fun v w a b e1 e2 => add_xor_ok L n e1 e2,
    fun v b e => zero_fill_ok L n e, fun v e => zero_fill_other L n e,
    fun v => ?_,
    fun v b e => bytearray_to_int_ok L n e, fun x k => int_to_bytearray_ok L n x k h,
    fun v w a b e1 e2 => compare_ok L n e1 e2, fun v a e => compare_to_zero_ok L n e⟩
  rotate_left
  · unfold zeroFillVal
    rw [pyVal_data]
    cases e : bytesOf v h with
    | none => exact Or.inl ⟨zero_fill_other L n e, rfl⟩
    | some b => exact Or.inr (zero_fill_ok L n e)
  cases b with
  | nil =>
    rw [call_succ Fn.Utils.msb]
    have := getItem_bytes (v := v) (h := h) (k := 0) (by rw [e]; rfl)
    rw [e] at this
    py [Utils.f_msb]
    rw [show getItem v (.int 0) h = _ from this]
    rfl
  | cons y b => exact msb_ok L n e rfl

/-! The functions on given arguments. -/

example : NewBytes (call package 0 (0 + 1) "Utils.add_xor" [.ref 0, .bytes [1, 2, 3]] [.bytearray [4, 6]])
    [.bytearray [4, 6]] [5, 4] := by
  have := (C95_utils 0 0 [.bytearray [4, 6]]).2.2.1 (.ref 0) (.bytes [1, 2, 3]) [4, 6] [1, 2, 3] rfl rfl
  rwa [show addXor [4, 6] [1, 2, 3] = [5, 4] by decide] at this

example : call package 0 (0 + 1) "Utils.msb" [.ref 0] [.bytearray []] = fail .index [.bytearray []] := by
  have := (C95_utils 0 0 [.bytearray []]).2.1 (.ref 0) [] rfl
  exact this

end Gost.Src
