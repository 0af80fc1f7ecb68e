/-! Hexadecimal strings, read from left to right: two lower case digits for each byte. -/

namespace Gost.Spec

/-- The value of a lower case hexadecimal digit. -/
def digitValue (c : Char) : Option Nat :=
  "0123456789abcdef".toList.findIdx? (· == c)

/-- The bytes which a hexadecimal string stands for. -/
def unhex : List Char → Option (List UInt8)
  | [] => some []
  | [_] => none
  | a :: b :: r =>
    match digitValue a, digitValue b, unhex r with
    | some x, some y, some l => some (UInt8.ofNat (16 * x + y) :: l)
    | _, _, _ => none

end Gost.Spec
