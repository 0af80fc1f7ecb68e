/-! The substitution π shared by GOST R 34.12-2015 (Kuznyechik) and GOST R 34.11-2012
(Streebog). -/

namespace Gost.Spec

/-- The table of π from the standards (π(0), π(1), …, π(255)). -/
def piTable : List Nat := [
  252, 238, 221, 17, 207, 110, 49, 22, 251, 196, 250, 218, 35, 197, 4, 77,
  233, 119, 240, 219, 147, 46, 153, 186, 23, 54, 241, 187, 20, 205, 95, 193,
  249, 24, 101, 90, 226, 92, 239, 33, 129, 28, 60, 66, 139, 1, 142, 79,
  5, 132, 2, 174, 227, 106, 143, 160, 6, 11, 237, 152, 127, 212, 211, 31,
  235, 52, 44, 81, 234, 200, 72, 171, 242, 42, 104, 162, 253, 58, 206, 204,
  181, 112, 14, 86, 8, 12, 118, 18, 191, 114, 19, 71, 156, 183, 93, 135,
  21, 161, 150, 41, 16, 123, 154, 199, 243, 145, 120, 111, 157, 158, 178, 177,
  50, 117, 25, 61, 255, 53, 138, 126, 109, 84, 198, 128, 195, 189, 13, 87,
  223, 245, 36, 169, 62, 168, 67, 201, 215, 121, 214, 246, 124, 34, 185, 3,
  224, 15, 236, 222, 122, 148, 176, 188, 220, 232, 40, 80, 78, 51, 10, 74,
  167, 151, 96, 115, 30, 0, 98, 68, 26, 184, 56, 130, 100, 159, 38, 65,
  173, 69, 70, 146, 39, 94, 85, 47, 140, 163, 165, 125, 105, 213, 149, 59,
  7, 88, 179, 64, 134, 172, 29, 247, 48, 55, 107, 228, 136, 217, 231, 137,
  225, 27, 131, 73, 76, 63, 248, 254, 141, 83, 170, 144, 202, 216, 133, 97,
  32, 113, 103, 164, 45, 43, 9, 91, 203, 155, 37, 208, 190, 229, 108, 82,
  89, 166, 116, 210, 230, 244, 180, 192, 209, 102, 175, 194, 57, 75, 99, 182]

/-- π on bytes. -/
def pi (x : UInt8) : UInt8 := UInt8.ofNat (piTable.getD x.toNat 0)

/-! The same substitution from its published algebraic form (L. Perrin, "Partitions in
the S-box of Streebog and Kuznyechik", 2019), used to cross-check the table. The field is
GF(2)[x]/(x^8+x^4+x^3+x^2+1). -/

/-- Multiplication by x in that field. -/
def tkDouble (a : Nat) : Nat := if a < 128 then 2 * a else (2 * a) ^^^ 0x11d

/-- x^n in that field. -/
def tkPow : Nat → Nat
  | 0 => 1
  | n + 1 => tkDouble (tkPow n)

/-- The affine map κ : GF(2)^4 → GF(2)^8. -/
def tkKappa (v : Nat) : Nat :=
  0xfc ^^^ (if v.testBit 0 then 0x12 else 0) ^^^ (if v.testBit 1 then 0x26 else 0)
    ^^^ (if v.testBit 2 then 0x24 else 0) ^^^ (if v.testBit 3 then 0x30 else 0)

/-- The permutation s of {0,…,14}. -/
def tkS : List Nat := [0, 12, 9, 8, 7, 4, 14, 6, 5, 10, 2, 11, 1, 3, 13]

/-- `π(x^(17 j)) = κ(16 - j)` for `1 ≤ j ≤ 15`. -/
def tkRuleA (j : Nat) : Prop := piTable.getD (tkPow (17 * j)) 0 = tkKappa (16 - j)

/-- `π(x^(i + 17 j)) = κ(16 - i) + x^(17 s(j))` for `1 ≤ i ≤ 16`, `0 ≤ j ≤ 14`. -/
def tkRuleB (i j : Nat) : Prop :=
  piTable.getD (tkPow (i + 17 * j)) 0 = tkKappa (16 - i) ^^^ tkPow (17 * tkS.getD j 0)

end Gost.Spec
