import Verif.Spec.Bytes

/-! The DER encoding of object identifiers (X.690) and their dotted decimal notation. -/

namespace Gost.Spec

/-- Base 128 digits, most significant first, all with the continuation bit. -/
def b128hi (v : Nat) : List UInt8 :=
  if v = 0 then [] else b128hi (v / 128) ++ [UInt8.ofNat (v % 128 + 128)]
decreasing_by omega

/-- A component: base 128 digits without a leading zero, the continuation bit on all but the last. -/
def b128 (v : Nat) : List UInt8 := b128hi (v / 128) ++ [UInt8.ofNat (v % 128)]

/-- Base 256 digits, most significant first, without leading zeros. -/
def be256 (v : Nat) : List UInt8 :=
  if v = 0 then [] else be256 (v / 256) ++ [UInt8.ofNat (v % 256)]
decreasing_by omega

/-- The shortest definite form of a length. -/
def derLen (n : Nat) : List UInt8 :=
  if n < 128 then [UInt8.ofNat n] else UInt8.ofNat (128 + (be256 n).length) :: be256 n

/-- The numbers which are encoded: the first two components are joined to 40*X+Y. -/
def subIds : List Nat → List Nat
  | x :: y :: rest => (40 * x + y) :: rest
  | _ => []

/-- The contents octets. -/
def derBody (l : List Nat) : List UInt8 := (subIds l).flatMap b128

/-- The whole encoding: tag 6, length, contents. -/
def derOid (l : List Nat) : List UInt8 := 6 :: (derLen (derBody l).length ++ derBody l)

/-- At least two components, the first 0, 1 or 2, the second below 40 unless the first is 2. -/
def ValidOid : List Nat → Prop
  | x :: y :: _ => x ≤ 2 ∧ (x < 2 → y < 40)
  | _ => False

/-! Decimal notation. -/

def decDigit (n : Nat) : Char := Char.ofNat (48 + n)

/-- The decimal digits of a number. -/
def decimal (n : Nat) : List Char :=
  if n < 10 then [decDigit n] else decimal (n / 10) ++ [decDigit (n % 10)]
decreasing_by omega

/-- Components joined by dots. -/
def dotted : List Nat → List Char
  | [] => []
  | [n] => decimal n
  | n :: ns => decimal n ++ '.' :: dotted ns

/-- Digits, with at most one underscore between two of them, and their value. -/
inductive DigitSeq : List Char → Nat → Prop
  | one {d : Nat} : d < 10 → DigitSeq [decDigit d] d
  | more {s : List Char} {n d : Nat} : DigitSeq s n → d < 10 → DigitSeq (s ++ [decDigit d]) (n * 10 + d)
  | under {s : List Char} {n d : Nat} :
      DigitSeq s n → d < 10 → DigitSeq (s ++ ['_', decDigit d]) (n * 10 + d)

/-- A sign and digits. -/
inductive SignedSeq : List Char → Int → Prop
  | plain {s : List Char} {n : Nat} : DigitSeq s n → SignedSeq s n
  | plus {s : List Char} {n : Nat} : DigitSeq s n → SignedSeq ('+' :: s) n
  | minus {s : List Char} {n : Nat} : DigitSeq s n → SignedSeq ('-' :: s) (-n)

/-- ASCII white space. -/
def White (c : Char) : Prop :=
  c = ' ' ∨ c = '\t' ∨ c = '\n' ∨ c = '\x0b' ∨ c = '\x0c' ∨ c = '\r'

/-- The integer literals of Python's `int(str)` over ASCII, with their values. -/
def IntLiteral (s : List Char) (v : Int) : Prop :=
  ∃ a m b, s = a ++ m ++ b ∧ (∀ c ∈ a, White c) ∧ (∀ c ∈ b, White c) ∧ SignedSeq m v

/-- The components of a string between the dots. -/
def IsSplit (s : List Char) (parts : List (List Char)) : Prop :=
  parts ≠ [] ∧ (∀ p ∈ parts, '.' ∉ p) ∧ s = List.intercalate ['.'] parts

/-- Literals and their values, one by one. -/
inductive Components : List (List Char) → List Int → Prop
  | nil : Components [] []
  | cons {p : List Char} {v : Int} {ps : List (List Char)} {vs : List Int} :
      IntLiteral p v → Components ps vs → Components (p :: ps) (v :: vs)

end Gost.Spec
