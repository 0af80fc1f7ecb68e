import Verif.Source.Memory

/-! Object identifiers as the constructors of the ciphers, of the modes and of the hash functions make them. -/

namespace Gost.Src

/-- `ObjectIdentifier(s)`. -/
@[pysem] theorem new_oid (L n : Nat) (s : String) (h : Heap) :
    instantiate (ctx L (n + 1)) "ObjectIdentifier" [.str s] h =
      ok (.ref h.length) (h ++ [.inst "ObjectIdentifier" [("_oid_str", .str s)]]) := by
  unfold instantiate
  py []
  rw [call_succ Fn.ObjectIdentifier.__init__]
  py [ObjectIdentifier.m___init__]
  simp

end Gost.Src
