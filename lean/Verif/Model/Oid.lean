import Verif.Py

/-! Model of `gostoid/oid.py`. Strings are lists of ASCII characters. -/

namespace Gost
namespace Oid

/-- `int.bit_length()` for a non-negative integer. -/
def bitLength (n : Nat) : Nat := if n = 0 then 0 else n.log2 + 1

/-- `_len_int`, oid.py 79-85. -/
def lenInt (value numBit : Nat) : Nat :=
  let result := bitLength value / numBit
  if result = 0 then 1
  else if bitLength value % numBit ≠ 0 then result + 1 else result

/-- The loops `for i in range(n-1, -1, -1): result[i] = value & (2^k-1); value >>= k`
of oid.py 93-95 and 103-105: `n` digits of `k` bits, most significant first. -/
def digits (k : Nat) : Nat → Nat → Bytes
  | 0, _ => []
  | n + 1, value => digits k n (value >>> k) ++ [UInt8.ofNat (value &&& (2 ^ k - 1))]

/-- `_len_oid_octet`, oid.py 88-96 (a length, so never negative). `bytearray` raises
`ValueError` for `0x80 | len` above 255, which needs a length of 2^1016. -/
def lenOidOctet (value : Nat) : Res Bytes :=
  if value < 0x80 then .ok [UInt8.ofNat value]
  else
    let n := lenInt value 8
    if (0x80 ||| n) > 255 then .error .valueError
    else .ok (UInt8.ofNat (0x80 ||| n) :: digits 8 n value)

/-- `_int_to_octet`, oid.py 99-107. `to_bytes` raises `OverflowError` for a negative
number. Only octet 0 gets the bit 0x80. -/
def intToOctet (value : Int) : Res Bytes :=
  if value < 0 then .error .overflowError
  else
    let v := value.toNat
    if v < 0x80 then .ok [UInt8.ofNat v]
    else
      match digits 7 (lenInt v 7) v with
      | [] => .error .indexError
      | b :: bs => .ok ((b ||| 0x80) :: bs)

/-- The loop of `_encode_octet`, oid.py 127-128. -/
def encodeRest : List Int → Bytes → Res Bytes
  | [], result => .ok result
  | v :: vs, result => do
    let o ← intToOctet v
    encodeRest vs (result ++ o)

/-- `_encode_octet`, oid.py 110-129. -/
def encodeOctet (value : List Int) : Res Bytes := do
  let v0 ← pyGet value 0
  let first ←
    if v0 = 0 then do
      let v1 ← pyGet value 1
      if v1 < 40 then pure v1 else .error (.oidError "invalid second SID value")
    else if v0 = 1 then do
      let v1 ← pyGet value 1
      if v1 < 40 then pure (v1 + 40) else .error (.oidError "invalid second SID value")
    else if v0 = 2 then do
      let v1 ← pyGet value 1
      pure (v1 + 80)
    else .error (.oidError "invalid first SID value")
  let result ← intToOctet first
  encodeRest (pyFrom value 2) result

/-- `str.split('.')`. -/
def splitDot : List Char → List (List Char)
  | [] => [[]]
  | c :: cs =>
    if c = '.' then [] :: splitDot cs
    else match splitDot cs with
      | [] => [[c]]
      | w :: ws => (c :: w) :: ws

/-- White space accepted by `int()` around an ASCII literal. -/
def isSpace (c : Char) : Bool :=
  c = ' ' || c = '\t' || c = '\n' || c = '\r' || c = '\x0b' || c = '\x0c'

/-- Value of a decimal digit. -/
def digitVal? (c : Char) : Option Nat :=
  if '0' ≤ c ∧ c ≤ '9' then some (c.toNat - 48) else none

/-- The digits of an integer literal after the first one; single underscores are
allowed between digits. -/
def literalRest : List Char → Nat → Option Nat
  | [], acc => some acc
  | '_' :: c :: cs, acc =>
    match digitVal? c with
    | some d => literalRest cs (acc * 10 + d)
    | none => none
  | c :: cs, acc =>
    match digitVal? c with
    | some d => literalRest cs (acc * 10 + d)
    | none => none

/-- An unsigned decimal literal. -/
def literal : List Char → Option Nat
  | [] => none
  | c :: cs =>
    match digitVal? c with
    | some d => literalRest cs d
    | none => none

/-- `int(item)` for an ASCII string (base 10, optional sign, surrounding white
space; the limit on the number of digits of recent Python versions and non-ASCII
digits are not modelled). `none` is `ValueError`. -/
def pyInt (s : List Char) : Option Int :=
  let s := (s.dropWhile isSpace).reverse.dropWhile isSpace |>.reverse
  match s with
  | '-' :: r => (literal r).map fun n : Nat => -(n : Int)
  | '+' :: r => (literal r).map fun n : Nat => (n : Int)
  | r => (literal r).map fun n : Nat => (n : Int)

/-- `ObjectIdentifier.digit`, oid.py 167-179. -/
def digit (oidStr : List Char) : Res (List Int) :=
  match (splitDot oidStr).mapM pyInt with
  | some l => .ok l
  | none => .error (.oidError "invalid OID value")

/-- `ObjectIdentifier.octet`, oid.py 181-191. -/
def octet (oidStr : List Char) : Res Bytes := do
  let d ← digit oidStr
  let o ← encodeOctet d
  let len ← lenOidOctet o.length
  pure ([0x06] ++ len ++ o)

/-- `OBJECT_IDENTIFIER_TC26`, oid.py 22-74. -/
def tc26 : List (String × String) :=
  [ ("1.2.643.7.1", "id-tc26"),
    ("1.2.643.7.1.0", "modules"),
    ("1.2.643.7.1.0.1", "gostR3410-2012-ParamSetSyntax"),
    ("1.2.643.7.1.0.2", "gostR3410-2012-PKISyntax"),
    ("1.2.643.7.1.0.3", "gostR3410-2012-SignatureSyntax"),
    ("1.2.643.7.1.0.4", "gostR3410-2012-EncryptionSyntax"),
    ("1.2.643.7.1.0.5", "pkcs-12ruSyntax"),
    ("1.2.643.7.1.1", "id-tc26-algorithms"),
    ("1.2.643.7.1.1.1", "id-tc26-sign"),
    ("1.2.643.7.1.1.1.1", "id-tc26-gost3410-12-256"),
    ("1.2.643.7.1.1.1.2", "id-tc26-gost3410-12-512"),
    ("1.2.643.7.1.1.2", "id-tc26-digest"),
    ("1.2.643.7.1.1.2.2", "id-tc26-gost3411-12-256"),
    ("1.2.643.7.1.1.2.3", "id-tc26-gost3411-12-512"),
    ("1.2.643.7.1.1.3", "id-tc26-signwithdigest"),
    ("1.2.643.7.1.1.3.2", "id-tc26-signwithdigest-gost3410-12-256"),
    ("1.2.643.7.1.1.3.3", "id-tc26-signwithdigest-gost3410-12-512"),
    ("1.2.643.7.1.1.4", "id-tc26-mac"),
    ("1.2.643.7.1.1.4.1", "id-tc26-hmac-gost-3411-12-256"),
    ("1.2.643.7.1.1.4.2", "id-tc26-hmac-gost-3411-12-512"),
    ("1.2.643.7.1.1.5", "id-tc26-cipher"),
    ("1.2.643.7.1.1.5.1", "id-tc26-cipher-gostr3412-2015-magma"),
    ("1.2.643.7.1.1.5.1.1", "id-tc26-cipher-gostr3412-2015-magma-ctracpkm"),
    ("1.2.643.7.1.1.5.1.2", "id-tc26-cipher-gostr3412-2015-magma-ctracpkm-omac"),
    ("1.2.643.7.1.1.5.2", "id-tc26-cipher-gostr3412-2015-kuznyechik"),
    ("1.2.643.7.1.1.5.2.1", "id-tc26-cipher-gostr3412-2015-kuznyechik-ctracpkm"),
    ("1.2.643.7.1.1.5.2.2", "id-tc26-cipher-gostr3412-2015-kuznyechik-ctracpkm-omac"),
    ("1.2.643.7.1.1.6", "id-tc26-agreement"),
    ("1.2.643.7.1.1.6.1", "id-tc26-agreement-gost-3410-12-256"),
    ("1.2.643.7.1.1.6.2", "id-tc26-agreement-gost-3410-12-512"),
    ("1.2.643.7.1.1.7", "id-tc26-wrap"),
    ("1.2.643.7.1.1.7.1", "id-tc26-wrap-gostr3412-2015-magma"),
    ("1.2.643.7.1.1.7.1.1", "id-tc26-wrap-gostr3412-2015-magma-kexp15"),
    ("1.2.643.7.1.1.7.2", "id-tc26-wrap-gostr3412-2015-kuznyechik"),
    ("1.2.643.7.1.1.7.2.1", "id-tc26-wrap-gostr3412-2015-kuznyechik-kexp15"),
    ("1.2.643.7.1.2", "id-tc26-constants"),
    ("1.2.643.7.1.2.1", "id-tc26-sign-constants"),
    ("1.2.643.7.1.2.1.1", "id-tc26-gost-3410-12-256-constants"),
    ("1.2.643.7.1.2.1.1.1", "id-tc26-gost-3410-12-256-paramSetA"),
    ("1.2.643.7.1.2.1.1.2", "id-tc26-gost-3410-12-256-paramSetB"),
    ("1.2.643.7.1.2.1.1.3", "id-tc26-gost-3410-12-256-paramSetC"),
    ("1.2.643.7.1.2.1.1.4", "id-tc26-gost-3410-12-256-paramSetD"),
    ("1.2.643.7.1.2.1.2", "id-tc26-gost-3410-12-512-constants"),
    ("1.2.643.7.1.2.1.2.0", "id-tc26-gost-3410-12-512-paramSetTest"),
    ("1.2.643.7.1.2.1.2.1", "id-tc26-gost-3410-12-512-paramSetA"),
    ("1.2.643.7.1.2.1.2.2", "id-tc26-gost-3410-12-512-paramSetB"),
    ("1.2.643.7.1.2.1.2.3", "id-tc26-gost-3410-12-512-paramSetС"),
    ("1.2.643.7.1.2.2", "id-tc26-digset-constants"),
    ("1.2.643.7.1.2.5", "id-tc26-cipher-constants"),
    ("1.2.643.7.1.2.5.1", "id-tc26-gost-28147-constants"),
    ("1.2.643.7.1.2.5.1.1", "id-tc26-gost-28147-param-Z") ]

/-- `ObjectIdentifier.name`, oid.py 154-165: `dict.get(oid, '')`. -/
def name (oidStr : List Char) : String :=
  match tc26.find? (fun p => p.1.toList = oidStr) with
  | some p => p.2
  | none => ""

end Oid
end Gost
