import Verif.Py

/-! Values used in the concrete cases beside the theorems. -/

namespace Gost.Ex

/-- A 32-byte key. -/
def key : Bytes := (List.range 32).map fun i => UInt8.ofNat (7 * i + 3)

/-- Another 32-byte key. -/
def key' : Bytes := (List.range 32).map fun i => UInt8.ofNat (5 * i + 200)

/-- `n` bytes counting up from `a`. -/
def count (a n : Nat) : Bytes := (List.range n).map fun i => UInt8.ofNat (a + i)

theorem key_length : key.length = 32 := by decide
theorem key'_length : key'.length = 32 := by decide
theorem count_length (a n : Nat) : (count a n).length = n := by simp [count]

end Gost.Ex
