import Verif.Spec.Compress
import Verif.Props.Hash
import Verif.Props.Hmac

/-! Property C82: a collision of the hash objects is a collision of the compression function. -/

namespace Gost
open Spec (hashOf IsHashName effective hmac hmacHash IsHmacName xorByte hmacKey blocks rest leNat leBytes)
open Spec.Streebog (Call calls blockCalls lastCalls Vars step g absorb)

/-- The last application gives the hash. -/
theorem calls_last (iv M : Bytes) :
    ((calls iv M).getLast?).map Call.result = some (Spec.Streebog.hash iv M) := by
  unfold calls lastCalls
  simp only [List.getLast?_append, List.getLast?_cons_cons, List.getLast?_singleton, Option.some_or, Option.map_some]
  rfl

/-- Two applications with the same counter and different arguments have the same result. -/
def Collide (c c' : Call) : Prop := c ≠ c' ∧ c.N = c'.N ∧ c.result = c'.result

/-- The chaining values of two equally long sequences of blocks which end in the same value. -/
theorem block_collision (bs : List Bytes) : ∀ (bs' : List Bytes) (v v' : Vars), bs.length = bs'.length → v.N = v'.N →
    (bs.foldl step v).h = (bs'.foldl step v').h →
    (v.h = v'.h ∧ bs = bs') ∨ ∃ c ∈ blockCalls v bs, ∃ c' ∈ blockCalls v' bs', Collide c c' := by
  induction bs with
  | nil =>
    intro bs' v v' hl _ h
    cases bs' with
    | nil => exact Or.inl ⟨h, rfl⟩
    | cons b' bs' => simp at hl
  | cons b bs ih =>
    intro bs' v v' hl hN h
    cases bs' with
    | nil => simp at hl
    | cons b' bs' =>
      rcases ih bs' (step v b) (step v' b') (by simpa using hl) (by simp [step, hN]) h with ⟨h1, h2⟩ | ⟨c, hc, c', hc', hk⟩
      · by_cases he : v.h = v'.h ∧ b = b'
        · exact Or.inl ⟨he.1, by rw [he.2, h2]⟩
        · refine Or.inr ⟨⟨v.N, v.h, b⟩, List.mem_cons_self, ⟨v'.N, v'.h, b'⟩, List.mem_cons_self, ?_, hN, h1⟩
          intro e
          exact he ⟨congrArg Call.h e, congrArg Call.m e⟩
      · exact Or.inr ⟨c, List.mem_cons_of_mem _ hc, c', List.mem_cons_of_mem _ hc', hk⟩

theorem blockCalls_append (bs bs' : List Bytes) (v : Vars) :
    blockCalls v (bs ++ bs') = blockCalls v bs ++ blockCalls (bs.foldl step v) bs' := by
  induction bs generalizing v with
  | nil => rfl
  | cons b bs ih => simp only [List.cons_append, blockCalls, ih, List.foldl_cons]

/-- The padded rest. -/
def lastBlock (R : Bytes) : Bytes := R ++ [1] ++ List.replicate (63 - R.length) 0

theorem lastBlock_inj {R R' : Bytes} (hl : R.length = R'.length) (h : lastBlock R = lastBlock R') : R = R' := by
  unfold lastBlock at h
  rw [List.append_assoc, List.append_assoc] at h
  exact (List.append_inj h hl).1

theorem absorb_N (iv M : Bytes) : (absorb iv M).N = 512 * (M.length / 64) % 2 ^ 512 := by
  unfold absorb
  rw [← blocks_length 64 M]
  generalize blocks 64 M = bs
  suffices h : ∀ v : Vars, v.N < 2 ^ 512 → (bs.foldl step v).N = (v.N + 512 * bs.length) % 2 ^ 512 by
    rw [h _ (Nat.two_pow_pos 512)]
    simp
  induction bs with
  | nil => intro v hv; exact (Nat.mod_eq_of_lt hv).symm
  | cons b bs ih =>
    intro v hv
    rw [List.foldl_cons, ih _ (Nat.mod_lt _ (Nat.two_pow_pos 512))]
    show ((v.N + 512) % 2 ^ 512 + 512 * bs.length) % 2 ^ 512 = _
    rw [Nat.mod_add_mod, List.length_cons, Nat.mul_add, Nat.add_assoc, Nat.add_comm 512 (512 * _)]

theorem total_bits (iv M : Bytes) :
    ((absorb iv M).N + 8 * (rest 64 M).length) % 2 ^ 512 = 8 * M.length % 2 ^ 512 := by
  rw [absorb_N, Nat.mod_add_mod, rest_length]
  congr 1
  have := Nat.div_add_mod M.length 64
  omega

/-- The three last applications and the chaining value before them. -/
theorem collision_core (iv M M' : Bytes) (hM : 8 * M.length < 2 ^ 512) (hM' : 8 * M'.length < 2 ^ 512)
    (hne : M ≠ M') : ∀ (c c' : Call), (calls iv M).getLast? = some c → (calls iv M').getLast? = some c' →
    c ≠ c' ∨ ∃ d ∈ calls iv M, ∃ d' ∈ calls iv M', Collide d d' := by
  intro c c' hc hc'
  by_cases he : c = c'
  · right
    subst he
    -- the last arguments are equal
    have e1 : c = ⟨0, g 0 (g (absorb iv M).N (absorb iv M).h (lastBlock (rest 64 M)))
        (leBytes 64 (((absorb iv M).N + 8 * (rest 64 M).length) % 2 ^ 512)),
        leBytes 64 (((absorb iv M).sum + leNat (lastBlock (rest 64 M))) % 2 ^ 512)⟩ := by
      unfold calls lastCalls at hc
      simp only [List.getLast?_append, List.getLast?_cons_cons, List.getLast?_singleton, Option.some_or] at hc
      exact (Option.some.inj hc).symm
    have e2 : c = ⟨0, g 0 (g (absorb iv M').N (absorb iv M').h (lastBlock (rest 64 M')))
        (leBytes 64 (((absorb iv M').N + 8 * (rest 64 M').length) % 2 ^ 512)),
        leBytes 64 (((absorb iv M').sum + leNat (lastBlock (rest 64 M'))) % 2 ^ 512)⟩ := by
      unfold calls lastCalls at hc'
      simp only [List.getLast?_append, List.getLast?_cons_cons, List.getLast?_singleton, Option.some_or] at hc'
      exact (Option.some.inj hc').symm
    rw [e1] at e2
    have hg : g 0 (g (absorb iv M).N (absorb iv M).h (lastBlock (rest 64 M)))
        (leBytes 64 (((absorb iv M).N + 8 * (rest 64 M).length) % 2 ^ 512)) =
        g 0 (g (absorb iv M').N (absorb iv M').h (lastBlock (rest 64 M')))
        (leBytes 64 (((absorb iv M').N + 8 * (rest 64 M').length) % 2 ^ 512)) := congrArg Call.h e2
    have m1 : (⟨0, g (absorb iv M).N (absorb iv M).h (lastBlock (rest 64 M)),
        leBytes 64 (((absorb iv M).N + 8 * (rest 64 M).length) % 2 ^ 512)⟩ : Call) ∈ calls iv M :=
      List.mem_append_right _ (List.mem_cons_of_mem _ List.mem_cons_self)
    have m2 : (⟨0, g (absorb iv M').N (absorb iv M').h (lastBlock (rest 64 M')),
        leBytes 64 (((absorb iv M').N + 8 * (rest 64 M').length) % 2 ^ 512)⟩ : Call) ∈ calls iv M' :=
      List.mem_append_right _ (List.mem_cons_of_mem _ List.mem_cons_self)
    by_cases hq : (⟨0, g (absorb iv M).N (absorb iv M).h (lastBlock (rest 64 M)),
        leBytes 64 (((absorb iv M).N + 8 * (rest 64 M).length) % 2 ^ 512)⟩ : Call) =
        ⟨0, g (absorb iv M').N (absorb iv M').h (lastBlock (rest 64 M')),
        leBytes 64 (((absorb iv M').N + 8 * (rest 64 M').length) % 2 ^ 512)⟩
    · have hh : g (absorb iv M).N (absorb iv M).h (lastBlock (rest 64 M)) =
          g (absorb iv M').N (absorb iv M').h (lastBlock (rest 64 M')) := congrArg Call.h hq
      have hn := congrArg (fun c => leNat c.m) hq
      dsimp only at hn
      rw [leNat_leBytes, leNat_leBytes, total_bits, total_bits, HashObj.p512, Nat.mod_mod, Nat.mod_mod,
        Nat.mod_eq_of_lt hM, Nat.mod_eq_of_lt hM'] at hn
      have hlen : M.length = M'.length := by omega
      have hr : (rest 64 M).length = (rest 64 M').length := by rw [rest_length, rest_length, hlen]
      have := block_collision (blocks 64 M ++ [lastBlock (rest 64 M)]) (blocks 64 M' ++ [lastBlock (rest 64 M')])
        ⟨iv, 0, 0⟩ ⟨iv, 0, 0⟩ (by simp [blocks_length, hlen]) rfl
        (by rw [List.foldl_append, List.foldl_append]; exact hh)
      rcases this with ⟨-, hb⟩ | ⟨d, hd, d', hd', hk⟩
      · exfalso
        apply hne
        have hb' := List.append_inj hb (by simp [blocks_length, hlen])
        have hR := lastBlock_inj hr (List.cons.inj hb'.2).1
        rw [← flatten_blocks_rest 64 (by decide) M, ← flatten_blocks_rest 64 (by decide) M', hb'.1, hR]
      · have sub : ∀ (M : Bytes) (d : Call), d ∈ blockCalls ⟨iv, 0, 0⟩ (blocks 64 M ++ [lastBlock (rest 64 M)]) →
            d ∈ calls iv M := by
          intro M d hd
          rw [blockCalls_append] at hd
          rcases List.mem_append.1 hd with hd | hd
          · exact List.mem_append_left _ hd
          · refine List.mem_append_right _ ?_
            rw [List.mem_singleton.1 hd]
            exact List.mem_cons_self
        exact ⟨d, sub M d hd, d', sub M' d' hd', hk⟩
    · exact ⟨_, m1, _, m2, hq, rfl, hg⟩
  · exact Or.inl he

theorem calls_last_some (iv M : Bytes) : ∃ c, (calls iv M).getLast? = some c ∧ c ∈ calls iv M ∧ c.N = 0 ∧
    c.result = Spec.Streebog.hash iv M := by
  refine ⟨(lastCalls (absorb iv M) (rest 64 M))[2]'(by simp [lastCalls]), ?_, ?_, rfl, rfl⟩
  · unfold calls lastCalls
    simp only [List.getLast?_append, List.getLast?_cons_cons, List.getLast?_singleton, Option.some_or]
    rfl
  · exact List.mem_append_right _ (List.getElem_mem _)

/-- C82 for the function of the standard. -/
theorem C82_standard (iv M M' : Bytes) (hM : 8 * M.length < 2 ^ 512) (hM' : 8 * M'.length < 2 ^ 512)
    (hne : M ≠ M') (h : Spec.Streebog.hash iv M = Spec.Streebog.hash iv M') :
    ∃ c ∈ calls iv M, ∃ c' ∈ calls iv M', Collide c c' := by
  obtain ⟨c, h1, h2, h3, h4⟩ := calls_last_some iv M
  obtain ⟨c', h1', h2', h3', h4'⟩ := calls_last_some iv M'
  rcases collision_core iv M M' hM hM' hne c c' h1 h1' with hc | hc
  · exact ⟨c, h2, c', h2', hc, by rw [h3, h3'], by rw [h4, h4', h]⟩
  · exact hc

/-- All values which meet in the compression function have 64 bytes, so `_hash_g` computes it. -/
theorem calls_length (iv M : Bytes) (hiv : iv.length = 64) : ∀ c ∈ calls iv M, c.h.length = 64 ∧ c.m.length = 64 := by
  intro c hc
  have hb : ∀ (bs : List Bytes) (v : Vars), v.h.length = 64 → (∀ b ∈ bs, b.length = 64) →
      ∀ c ∈ blockCalls v bs, c.h.length = 64 ∧ c.m.length = 64 := by
    intro bs
    induction bs with
    | nil => intro v _ _ c hc; cases hc
    | cons b bs ih =>
      intro v hv hb c hc
      rcases List.mem_cons.1 hc with rfl | hc
      · exact ⟨hv, hb b List.mem_cons_self⟩
      · exact ih (step v b) (Hash.g_length _ _ _ hv (hb b List.mem_cons_self))
          (fun x hx => hb x (List.mem_cons_of_mem _ hx)) c hc
  rcases List.mem_append.1 hc with hc | hc
  · exact hb _ _ hiv (fun b hb => mem_blocks_length hb) c hc
  · have hh := HashObj.absorb_h_length iv M hiv
    have hr : (rest 64 M).length < 64 := by rw [rest_length]; exact Nat.mod_lt _ (by omega)
    have hm : (rest 64 M ++ [1] ++ List.replicate (63 - (rest 64 M).length) 0).length = 64 := by
      simp; omega
    have hg := Hash.g_length (absorb iv M).N _ _ hh hm
    unfold lastCalls at hc
    simp only [List.mem_cons, List.not_mem_nil, or_false] at hc
    rcases hc with rfl | rfl | rfl
    · exact ⟨hh, hm⟩
    · exact ⟨hg, Hash.leBytes_length _ _⟩
    · exact ⟨Hash.g_length _ _ _ hg (Hash.leBytes_length _ _), Hash.leBytes_length _ _⟩

/-- C82, streebog512: when two objects which hash different messages return the same digest, `_hash_g` returns the
same value for two different arguments, with the same counter, which both occur while these messages are hashed. -/
theorem C82_512 (v v' : PyVal) (M M' : Bytes) (hv : v.data? = some M) (hv' : v'.data? = some M')
    (hM : 8 * M.length < 2 ^ 512) (hM' : 8 * M'.length < 2 ^ 512) (hne : M ≠ M') (s s' : HashObj)
    (hs : HashObj.new "streebog512" (some v) = .ok s) (hs' : HashObj.new "streebog512" (some v') = .ok s')
    (h : s.digest = s'.digest) :
    ∃ c ∈ calls (List.replicate 64 0) M, ∃ c' ∈ calls (List.replicate 64 0) M', c ≠ c' ∧ c.N = c'.N ∧
      Hash.hashG c.h (leBytes 64 c.N) c.m = Hash.hashG c'.h (leBytes 64 c'.N) c'.m := by
  obtain ⟨t, ht, hd⟩ := C23_new "streebog512" (Or.inl rfl) v M hv
  obtain ⟨t', ht', hd'⟩ := C23_new "streebog512" (Or.inl rfl) v' M' hv'
  rw [hs] at ht; cases ht
  rw [hs'] at ht'; cases ht'
  rw [hd, hd', (C23_variants _).1, (C23_variants _).1] at h
  obtain ⟨c, hc, c', hc', h1, h2, h3⟩ := C82_standard _ M M' hM hM' hne h
  refine ⟨c, hc, c', hc', h1, h2, ?_⟩
  obtain ⟨l1, l2⟩ := calls_length _ M (by simp) c hc
  obtain ⟨l1', l2'⟩ := calls_length _ M' (by simp) c' hc'
  rw [Hash.hashG_eq _ _ _ l1 l2, Hash.hashG_eq _ _ _ l1' l2']
  exact h3

/-- C82, streebog256: the same, or the last applications, which add the checksums, are different and agree in the
upper half of their results. -/
theorem C82_256 (v v' : PyVal) (M M' : Bytes) (hv : v.data? = some M) (hv' : v'.data? = some M')
    (hM : 8 * M.length < 2 ^ 512) (hM' : 8 * M'.length < 2 ^ 512) (hne : M ≠ M') (s s' : HashObj)
    (hs : HashObj.new "streebog256" (some v) = .ok s) (hs' : HashObj.new "streebog256" (some v') = .ok s')
    (h : s.digest = s'.digest) :
    ∃ c ∈ calls (List.replicate 64 1) M, ∃ c' ∈ calls (List.replicate 64 1) M', c ≠ c' ∧ c.N = c'.N ∧
      (Hash.hashG c.h (leBytes 64 c.N) c.m = Hash.hashG c'.h (leBytes 64 c'.N) c'.m ∨
        (calls (List.replicate 64 1) M).getLast? = some c ∧ (calls (List.replicate 64 1) M').getLast? = some c' ∧
        (Hash.hashG c.h (leBytes 64 c.N) c.m).drop 32 = (Hash.hashG c'.h (leBytes 64 c'.N) c'.m).drop 32) := by
  obtain ⟨t, ht, hd⟩ := C23_new "streebog256" (Or.inr rfl) v M hv
  obtain ⟨t', ht', hd'⟩ := C23_new "streebog256" (Or.inr rfl) v' M' hv'
  rw [hs] at ht; cases ht
  rw [hs'] at ht'; cases ht'
  rw [hd, hd', (C23_variants _).2, (C23_variants _).2] at h
  obtain ⟨c, h1, h2, h3, h4⟩ := calls_last_some (List.replicate 64 1) M
  obtain ⟨c', h1', h2', h3', h4'⟩ := calls_last_some (List.replicate 64 1) M'
  rcases collision_core _ M M' hM hM' hne c c' h1 h1' with hc | ⟨d, hd, d', hd', k1, k2, k3⟩
  · refine ⟨c, h2, c', h2', hc, by rw [h3, h3'], Or.inr ⟨h1, h1', ?_⟩⟩
    obtain ⟨l1, l2⟩ := calls_length _ M (by simp) c h2
    obtain ⟨l1', l2'⟩ := calls_length _ M' (by simp) c' h2'
    rw [Hash.hashG_eq _ _ _ l1 l2, Hash.hashG_eq _ _ _ l1' l2']
    show c.result.drop 32 = c'.result.drop 32
    rw [h4, h4', h]
  · refine ⟨d, hd, d', hd', k1, k2, Or.inl ?_⟩
    obtain ⟨l1, l2⟩ := calls_length _ M (by simp) d hd
    obtain ⟨l1', l2'⟩ := calls_length _ M' (by simp) d' hd'
    rw [Hash.hashG_eq _ _ _ l1 l2, Hash.hashG_eq _ _ _ l1' l2']
    exact k3

/-- C82, HMAC: when two objects with the same key return the same digest for different non-empty messages, the hash
function has a collision, between the inner inputs or between the outer inputs. -/
theorem C82_hmac (name : String) (hname : IsHmacName name) (kv v v' : PyVal) (k M M' : Bytes)
    (hkv : kv.data? = some k) (hv : v.data? = some M) (hv' : v'.data? = some M')
    (hM : M ≠ []) (hM' : M' ≠ []) (hne : M ≠ M') (s s' : Hmac)
    (hs : Hmac.new name kv (some v) = .ok s) (hs' : Hmac.new name kv (some v') = .ok s') (h : s.digest = s'.digest) :
    let H := hashOf (hmacHash name)
    let inner := fun M => xorByte (hmacKey k) 0x36 ++ M
    let outer := fun M => xorByte (hmacKey k) 0x5c ++ H (inner M)
    (inner M ≠ inner M' ∧ H (inner M) = H (inner M')) ∨ (outer M ≠ outer M' ∧ H (outer M) = H (outer M')) := by
  have hk : k.length ≤ 64 := by
    by_cases hk : k.length ≤ 64
    · exact hk
    · rw [C27_rejects name hname kv (some v) (fun k' hk' => by rw [hkv] at hk'; cases hk'; omega)] at hs
      cases hs
  obtain ⟨t, ht, hd⟩ := (C27_hmac name hname kv v k M hkv hk hv).2 hM
  obtain ⟨t', ht', hd'⟩ := (C27_hmac name hname kv v' k M' hkv hk hv').2 hM'
  rw [hs] at ht; cases ht
  rw [hs'] at ht'; cases ht'
  rw [hd, hd'] at h
  intro H inner outer
  have hi : inner M ≠ inner M' := fun e => hne (List.append_cancel_left e)
  by_cases he : H (inner M) = H (inner M')
  · exact Or.inl ⟨hi, he⟩
  · exact Or.inr ⟨fun e => he (List.append_cancel_left e), h⟩

/-- C82, pieces: this does not hold for messages given in pieces. Whenever a piece completes a started block, the
object returns the digest of another, longer message. -/
theorem C82_pieces (name : String) (hn : IsHashName name) (a b : Bytes) (ha : a.length % 64 ≠ 0)
    (hb : (a.length + b.length) % 64 = 0) :
    a ++ b ≠ a ++ b ++ rest 64 a ∧ ∃ s, HashObj.new name = .ok s ∧
      ((s.updateBytes a).updateBytes b).digest = (s.updateBytes (a ++ b ++ rest 64 a)).digest := by
  constructor
  · intro e
    have := congrArg List.length e
    rw [List.length_append (as := a ++ b), rest_length] at this
    omega
  · obtain ⟨s, h1, h2⟩ := C25_exact name hn [a, b]
    refine ⟨s, h1, ?_⟩
    rw [new_none name hn] at h1
    cases h1
    rw [fresh_update name hn]
    refine h2.trans ?_
    have e1 : effective [] a = a := by simp [effective, Spec.rest]
    show hashOf name (effective (effective [] a) b) = _
    rw [e1]
    unfold effective
    rw [if_pos ⟨by rw [rest_length]; exact ha, hb⟩]

/-- Cases: short messages, two pieces. -/
example : 8 * (Ex.count 0 3).length < 2 ^ 512 ∧ Ex.count 0 3 ≠ Ex.count 0 200 := by
  refine ⟨Nat.lt_of_lt_of_le (m := 2 ^ 10) (by decide) (Nat.pow_le_pow_right (by decide) (by decide)), by decide⟩
example : (Ex.count 0 10).length % 64 ≠ 0 ∧ ((Ex.count 0 10).length + (Ex.count 0 54).length) % 64 = 0 := by decide

end Gost
