/-! Byte strings as big-endian and little-endian numbers. -/

namespace Gost.Spec

/-- The number whose big-endian digits to base 256 are the bytes. -/
def beNat : List UInt8 → Nat
  | [] => 0
  | b :: l => b.toNat * 256 ^ l.length + beNat l

/-- The `n` lowest base 256 digits of a number, most significant first. -/
def beBytes : Nat → Nat → List UInt8
  | 0, _ => []
  | n + 1, x => UInt8.ofNat (x / 256 ^ n % 256) :: beBytes n x

/-- The number whose little-endian digits to base 256 are the bytes. -/
def leNat : List UInt8 → Nat
  | [] => 0
  | b :: l => b.toNat + 256 * leNat l

/-- The `n` lowest base 256 digits of a number, least significant first. -/
def leBytes : Nat → Nat → List UInt8
  | 0, _ => []
  | n + 1, x => UInt8.ofNat (x % 256) :: leBytes n (x / 256)

end Gost.Spec
