/-! Splitting a byte string into blocks. -/

namespace Gost.Spec

/-- The whole blocks of `n` bytes of a string, in order. -/
def blocks (n : Nat) (d : List UInt8) : List (List UInt8) :=
  (List.range (d.length / n)).map fun i => (d.drop (n * i)).take n

/-- What is left after the whole blocks. -/
def rest (n : Nat) (d : List UInt8) : List UInt8 := d.drop (n * (d.length / n))

end Gost.Spec
