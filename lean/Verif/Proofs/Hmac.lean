import Verif.Model.Hmac
import Verif.Spec.Hmac
import Verif.Proofs.FastHash

/-! The HMAC object against the specification. -/

namespace Gost
open Spec (hashOf IsHashName effective hmacKey xorByte hmac hmacHash IsHmacName)

theorem hmacHash_valid (name : String) : IsHashName (hmacHash name) := by
  unfold hmacHash
  split
  · exact Or.inr rfl
  · exact Or.inl rfl

theorem addXor_const (K : Bytes) (c : UInt8) (n : Nat) (h : K.length ≤ n) :
    addXor K (List.replicate n c) = xorByte K c := by
  unfold addXor xorByte
  induction K generalizing n with
  | nil => simp
  | cons x K ih =>
    cases n with
    | zero => simp at h
    | succ n =>
      simp only [List.replicate_succ, List.zipWith_cons_cons, List.map_cons]
      rw [ih n (by simpa using h)]

theorem addXor_const_take (K : Bytes) (c : UInt8) (n : Nat) :
    addXor K (List.replicate n c) = xorByte (K.take n) c := by
  induction K generalizing n with
  | nil => simp [addXor, xorByte]
  | cons x K ih =>
    cases n with
    | zero => simp [addXor, xorByte]
    | succ n =>
      have := ih n
      simp only [addXor, xorByte] at this ⊢
      simp only [List.replicate_succ, List.zipWith_cons_cons, List.take_succ_cons, List.map_cons, this]

theorem xorByte_length (K : Bytes) (c : UInt8) : (xorByte K c).length = K.length := by
  simp [xorByte]

theorem hmacKey_length (key : Bytes) (h : key.length ≤ 64) : (hmacKey key).length = 64 := by
  simp [hmacKey]; omega

theorem effective_nil (d : Bytes) : effective [] d = d := by simp [effective, Spec.rest]

/-- A whole block in front does not change the effective message. -/
theorem effective_prefix (P M d : Bytes) (hP : P.length % 64 = 0) :
    effective (P ++ M) d = P ++ effective M d := by
  have hr : Spec.rest 64 (P ++ M) = Spec.rest 64 M :=
    rest_append 64 (by omega) P M (Nat.dvd_of_mod_eq_zero hP)
  unfold effective
  rw [hr]
  have e : ((P ++ M).length + d.length) % 64 = (M.length + d.length) % 64 := by
    rw [List.length_append]; omega
  rw [e]
  split <;> simp

theorem effective_prefix_all (P M : Bytes) (ds : List Bytes) (hP : P.length % 64 = 0) :
    ds.foldl effective (P ++ M) = P ++ ds.foldl effective M := by
  induction ds generalizing M with
  | nil => rfl
  | cons d ds ih => rw [List.foldl_cons, List.foldl_cons, effective_prefix P M d hP, ih]

/-- The inner hash object after a reset stands for a message. -/
structure HStands (name : String) (s : HashObj) (M : Bytes) : Prop where
  nm : s.name = name
  holds : HashObj.Holds (HashObj.ivOf name) M s

theorem HStands.init (name : String) : HStands name (HashObj.hashInit name) [] :=
  ⟨rfl, HashObj.hashInit_holds name⟩

theorem HStands.update {name : String} {s : HashObj} {M : Bytes} (h : HStands name s M) (d : Bytes) :
    HStands name (s.updateBytes d) (effective M d) :=
  ⟨by rw [HashObj.updateBytes_name, h.nm], h.holds.update (HashObj.ivOf_length _) d⟩

theorem HStands.digest {name : String} {s : HashObj} {M : Bytes} (h : HStands name s M)
    (hn : IsHashName name) : s.digest = hashOf name M := by
  have := HashObj.Holds.digest (s := s) (M := M) (by rw [h.nm]; exact h.holds)
    (by rw [h.nm]; exact hn)
  rw [this, h.nm]

namespace Hmac

/-- The object has the inner key `K`, its hash object stands for `M`. -/
structure St (hn : String) (K : Bytes) (M : Bytes) (c : Nat) (s : Hmac) : Prop where
  key : s.key = K
  hash : HStands hn s.hasher M
  counter : s.counter = c

theorem initKey_ok (name : String) (hname : IsHmacName name) (v : PyVal) (k : Bytes)
    (hv : v.data? = some k) (hk : k.length ≤ 64) :
    initKey name v = .ok ⟨hmacKey k, HashObj.hashInit (hmacHash name), 0⟩ := by
  unfold initKey
  rw [if_neg (by rcases hname with h | h <;> simp [h])]
  simp only [hv]
  rw [if_neg (by omega)]
  congr 1
  simp only [Hmac.mk.injEq]
  refine ⟨?_, rfl, trivial⟩
  unfold hmacKey
  by_cases h : k.length < 64
  · rw [if_pos h, zeros_nat]
  · rw [if_neg h, show 64 - k.length = 0 by omega]
    simp

theorem new_ok (name : String) (hname : IsHmacName name) (v : PyVal) (k : Bytes)
    (hv : v.data? = some k) (hk : k.length ≤ 64) :
    Hmac.new name v = .ok ⟨hmacKey k, HashObj.hashInit (hmacHash name), 0⟩ := by
  unfold Hmac.new
  rw [initKey_ok name hname v k hv hk]
  rfl

theorem new_st (hn : String) (K : Bytes) : St hn K [] 0 ⟨K, HashObj.hashInit hn, 0⟩ :=
  ⟨rfl, HStands.init hn, rfl⟩

theorem St.first {hn : String} {K : Bytes} {s : Hmac} (h : St hn K [] 0 s) (d : Bytes) :
    St hn K (xorByte (K.take 64) 0x36 ++ d) 1 (s.updateBytes d) := by
  unfold updateBytes
  simp only [h.counter]
  rw [if_pos trivial]
  refine ⟨h.key, ?_, rfl⟩
  have := h.hash.update (addXor s.key iPad ++ d)
  rw [effective_nil, h.key, iPad, addXor_const_take] at this
  simp only [h.key, iPad, addXor_const_take]
  exact this

theorem St.next {hn : String} {K M : Bytes} {c : Nat} {s : Hmac} (h : St hn K M c s) (hc : 0 < c)
    (d : Bytes) : St hn K (effective M d) (c + 1) (s.updateBytes d) := by
  unfold updateBytes
  simp only [h.counter]
  rw [if_neg (by omega)]
  exact ⟨h.key, h.hash.update d, rfl⟩

theorem St.digest {hn : String} {K M : Bytes} {c : Nat} {s : Hmac} (h : St hn K M c s)
    (hv : IsHashName hn) :
    s.digest = hashOf hn (xorByte (K.take 64) 0x5c ++ hashOf hn M) := by
  unfold Hmac.digest
  simp only [h.hash.nm]
  have h1 := (HStands.init hn).update (addXor s.key oPad ++ s.hasher.digest)
  rw [h1.digest hv, effective_nil, h.hash.digest hv, h.key, oPad, addXor_const_take]

theorem St.nexts {hn : String} {K M : Bytes} {c : Nat} {s : Hmac} (h : St hn K M c s) (hc : 0 < c)
    (ds : List Bytes) :
    St hn K (ds.foldl effective M) (c + ds.length) (ds.foldl updateBytes s) := by
  induction ds generalizing M c s with
  | nil => exact h
  | cons d ds ih =>
    have := ih (h.next hc d) (by omega)
    rw [show c + 1 + ds.length = c + (d :: ds).length by simp; omega] at this
    exact this

theorem St.reset {hn : String} {K M : Bytes} {c : Nat} {s : Hmac} (h : St hn K M c s) :
    s.reset = ⟨K, HashObj.hashInit hn, 0⟩ := by
  unfold Hmac.reset HashObj.reset
  rw [h.key, h.hash.nm]

theorem updateBytes_name (s : Hmac) (d : Bytes) : (s.updateBytes d).hasher.name = s.hasher.name := by
  unfold updateBytes
  dsimp only
  split <;> exact HashObj.updateBytes_name _ _

theorem updateBytes_key (s : Hmac) (d : Bytes) : (s.updateBytes d).key = s.key := by
  unfold updateBytes
  dsimp only
  split <;> rfl

end Hmac
end Gost
