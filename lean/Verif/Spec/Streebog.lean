import Verif.Spec.Bytes
import Verif.Spec.Blocks
import Verif.Spec.Pi

/-! The hash function of GOST R 34.11-2012 (RFC 6986).

A vector of V_512, which the standard writes as a_63 || … || a_0 with the most significant
byte on the left, is the list [a_0, …, a_63]; the bytes of a message are numbered the same
way, the first byte of the message being the least significant one. -/

namespace Gost.Spec.Streebog

/-- Bitwise addition of vectors, X[k]. -/
def xor (a b : List UInt8) : List UInt8 := List.zipWith (fun x y => x ^^^ y) a b

/-- S: the substitution π in every byte. -/
def S (a : List UInt8) : List UInt8 := a.map pi

/-- τ = (0, 8, 16, …, 56, 1, 9, …, 57, …, 7, 15, …, 63). -/
def tau (i : Nat) : Nat := 8 * (i % 8) + i / 8

/-- P: byte i of the result is byte τ(i) of the argument. -/
def P (a : List UInt8) : List UInt8 := (List.range 64).map fun i => a.getD (tau i) 0

/-- The 64 rows of the matrix A of the standard. -/
def A : List Nat := [
  0x8e20faa72ba0b470, 0x47107ddd9b505a38, 0xad08b0e0c3282d1c, 0xd8045870ef14980e,
  0x6c022c38f90a4c07, 0x3601161cf205268d, 0x1b8e0b0e798c13c8, 0x83478b07b2468764,
  0xa011d380818e8f40, 0x5086e740ce47c920, 0x2843fd2067adea10, 0x14aff010bdd87508,
  0x0ad97808d06cb404, 0x05e23c0468365a02, 0x8c711e02341b2d01, 0x46b60f011a83988e,
  0x90dab52a387ae76f, 0x486dd4151c3dfdb9, 0x24b86a840e90f0d2, 0x125c354207487869,
  0x092e94218d243cba, 0x8a174a9ec8121e5d, 0x4585254f64090fa0, 0xaccc9ca9328a8950,
  0x9d4df05d5f661451, 0xc0a878a0a1330aa6, 0x60543c50de970553, 0x302a1e286fc58ca7,
  0x18150f14b9ec46dd, 0x0c84890ad27623e0, 0x0642ca05693b9f70, 0x0321658cba93c138,
  0x86275df09ce8aaa8, 0x439da0784e745554, 0xafc0503c273aa42a, 0xd960281e9d1d5215,
  0xe230140fc0802984, 0x71180a8960409a42, 0xb60c05ca30204d21, 0x5b068c651810a89e,
  0x456c34887a3805b9, 0xac361a443d1c8cd2, 0x561b0d22900e4669, 0x2b838811480723ba,
  0x9bcf4486248d9f5d, 0xc3e9224312c8c1a0, 0xeffa11af0964ee50, 0xf97d86d98a327728,
  0xe4fa2054a80b329c, 0x727d102a548b194e, 0x39b008152acb8227, 0x9258048415eb419d,
  0x492c024284fbaec0, 0xaa16012142f35760, 0x550b8e9e21f7a530, 0xa48b474f9ef5dc18,
  0x70a6a56e2440598e, 0x3853dc371220a247, 0x1ca76e95091051ad, 0x0edd37c48a08a6d8,
  0x07e095624504536c, 0x8d70c431ac02a736, 0xc83862965601dd1b, 0x641c314b2b8ee083]

/-- The map l of V_64: the vector (b_63, …, b_0) times the matrix A, so that b_63
selects the first row and b_0 the last one. `lSum b n` adds the rows for b_0 … b_(n-1). -/
def lSum (b : Nat) : Nat → Nat
  | 0 => 0
  | n + 1 => (if b.testBit n then A.getD (63 - n) 0 else 0) ^^^ lSum b n

def l (b : Nat) : Nat := lSum b 64

/-- L: the map l in each of the eight words of eight bytes. -/
def L (a : List UInt8) : List UInt8 := (blocks 8 a).flatMap fun w => leBytes 8 (l (leNat w))

def LPS (a : List UInt8) : List UInt8 := L (P (S a))

/-- The twelve iteration constants C_1, …, C_12. -/
def cNum : List Nat := [
  0xb1085bda1ecadae9ebcb2f81c0657c1f2f6a76432e45d016714eb88d7585c4fc4b7ce09192676901a2422a08a460d31505767436cc744d23dd806559f2a64507,
  0x6fa3b58aa99d2f1a4fe39d460f70b5d7f3feea720a232b9861d55e0f16b501319ab5176b12d699585cb561c2db0aa7ca55dda21bd7cbcd56e679047021b19bb7,
  0xf574dcac2bce2fc70a39fc286a3d843506f15e5f529c1f8bf2ea7514b1297b7bd3e20fe490359eb1c1c93a376062db09c2b6f443867adb31991e96f50aba0ab2,
  0xef1fdfb3e81566d2f948e1a05d71e4dd488e857e335c3c7d9d721cad685e353fa9d72c82ed03d675d8b71333935203be3453eaa193e837f1220cbebc84e3d12e,
  0x4bea6bacad4747999a3f410c6ca923637f151c1f1686104a359e35d7800fffbdbfcd1747253af5a3dfff00b723271a167a56a27ea9ea63f5601758fd7c6cfe57,
  0xae4faeae1d3ad3d96fa4c33b7a3039c02d66c4f95142a46c187f9ab49af08ec6cffaa6b71c9ab7b40af21f66c2bec6b6bf71c57236904f35fa68407a46647d6e,
  0xf4c70e16eeaac5ec51ac86febf240954399ec6c7e6bf87c9d3473e33197a93c90992abc52d822c3706476983284a05043517454ca23c4af38886564d3a14d493,
  0x9b1f5b424d93c9a703e7aa020c6e41414eb7f8719c36de1e89b4443b4ddbc49af4892bcb929b069069d18d2bd1a5c42f36acc2355951a8d9a47f0dd4bf02e71e,
  0x378f5a541631229b944c9ad8ec165fde3a7d3a1b258942243cd955b7e00d0984800a440bdbb2ceb17b2b8a9aa6079c540e38dc92cb1f2a607261445183235adb,
  0xabbedea680056f52382ae548b2e4f3f38941e71cff8a78db1fffe18a1b3361039fe76702af69334b7a1e6c303b7652f43698fad1153bb6c374b4c7fb98459ced,
  0x7bcd9ed0efc889fb3002c6cd635afe94d8fa6bbbebab076120018021148466798a1d71efea48b9caefbacd1d7d476e98dea2594ac06fd85d6bcaa4cd81f32d1b,
  0x378ee767f11631bad21380b00449b17acda43c32bcdf1d77f82012d430219f9b5d80ef9d1891cc86e71da4aa88e12852faf417d5d9b21b9948bc924af11bd720]

/-- The constant C_i as a vector, `1 ≤ i ≤ 12`. -/
def C (i : Nat) : List UInt8 := leBytes 64 (cNum.getD (i - 1) 0)

/-- The round keys: K_1 = K, K_i = LPS(K_(i-1) ⊕ C_(i-1)). `roundKey K n` is K_(n+1). -/
def roundKey (K : List UInt8) : Nat → List UInt8
  | 0 => K
  | n + 1 => LPS (xor (roundKey K n) (C (n + 1)))

/-- `rounds K m n` is LPSX[K_n] … LPSX[K_1](m). -/
def rounds (K m : List UInt8) : Nat → List UInt8
  | 0 => m
  | n + 1 => LPS (xor (roundKey K n) (rounds K m n))

/-- E(K, m) = X[K_13] LPSX[K_12] … LPSX[K_1](m). -/
def E (K m : List UInt8) : List UInt8 := xor (roundKey K 12) (rounds K m 12)

/-- g_N(h, m) = E(LPS(h ⊕ N), m) ⊕ h ⊕ m. -/
def g (N : Nat) (h m : List UInt8) : List UInt8 :=
  xor (xor (E (LPS (xor h (leBytes 64 N))) m) h) m

/-- The variables of the procedure: h, N and Σ. -/
structure Vars where
  h : List UInt8
  N : Nat
  sum : Nat
deriving DecidableEq, Repr

/-- Stage 2 for one block of 512 bits. -/
def step (v : Vars) (m : List UInt8) : Vars where
  h := g v.N v.h m
  N := (v.N + 512) % 2 ^ 512
  sum := (v.sum + leNat m) % 2 ^ 512

/-- Stage 3 for the remaining part `M` of less than 64 bytes: m = 0…0 || 1 || M. -/
def finish (v : Vars) (M : List UInt8) : List UInt8 :=
  let m := M ++ [1] ++ List.replicate (63 - M.length) 0
  let h := g v.N v.h m
  let N := (v.N + 8 * M.length) % 2 ^ 512
  let sum := (v.sum + leNat m) % 2 ^ 512
  g 0 (g 0 h (leBytes 64 N)) (leBytes 64 sum)

/-- The variables after the whole blocks of a message. -/
def absorb (iv M : List UInt8) : Vars := (blocks 64 M).foldl step ⟨iv, 0, 0⟩

/-- Stages 1, 2 and 3. -/
def hash (iv M : List UInt8) : List UInt8 := finish (absorb iv M) (rest 64 M)

/-- H(M) with a 512-bit result, IV = 0^512. -/
def hash512 (M : List UInt8) : List UInt8 := hash (List.replicate 64 0) M

/-- H(M) with a 256-bit result, IV = (00000001)^64: the 256 most significant bits. -/
def hash256 (M : List UInt8) : List UInt8 := (hash (List.replicate 64 1) M).drop 32

end Gost.Spec.Streebog
