import Verif.Props.MacChange

/-! Property C129: a collision of the MAC stays one if the same bytes are appended. -/

namespace Gost
open Spec (Alg blocks rest)

theorem blocks_ne_nil {n : Nat} (a : Bytes) (h0 : a ≠ []) (ha : a.length % n = 0) : blocks n a ≠ [] := by
  intro e
  have := congrArg List.length e
  rw [blocks_length, List.length_nil] at this
  have h3 := Nat.div_add_mod a.length n
  rw [this, ha] at h3
  exact h0 (List.length_eq_zero_iff.1 (by omega))

/-- Of messages of whole blocks the MAC says whether the chain ends in the same block. -/
theorem omac_eq_iff {n : Nat} {E : Bytes → Bytes} (hE : PermOn n E) (a b : Bytes) (ha0 : a ≠ []) (hb0 : b ≠ [])
    (ha : a.length % n = 0) (hb : b.length % n = 0) :
    Spec.omac E n a = Spec.omac E n b ↔
      Spec.macChain E (List.replicate n 0) (blocks n a) = Spec.macChain E (List.replicate n 0) (blocks n b) := by
  have hz : (List.replicate n (0 : UInt8)).length = n := by simp
  have hK : (Spec.macKey1 E n).length = n := macDouble_length _ _
  have form : ∀ c : Bytes, c ≠ [] → c.length % n = 0 → ∃ u : Bytes, u.length = n ∧
      Spec.macChain E (List.replicate n 0) (blocks n c) = E u ∧ Spec.omac E n c = E (Spec.xor u (Spec.macKey1 E n)) := by
    intro c h0 hc
    have hl : ∀ b ∈ blocks n c, b.length = n := fun b hb => mem_blocks_length hb
    have hB := blocks_ne_nil c h0 hc
    refine ⟨Spec.xor ((blocks n c).getLastD []) (Spec.macChain E (List.replicate n 0) (blocks n c).dropLast), ?_, ?_, ?_⟩
    · rw [specXor_length, macChain_len hE _ _ hz (fun b hb => hl b (List.dropLast_subset _ hb)),
        List.getLastD_eq_getLast?, List.getLast?_eq_some_getLast hB, Option.getD_some, hl _ (List.getLast_mem hB),
        Nat.min_self]
    · conv => lhs; rw [← List.dropLast_concat_getLast hB]
      rw [List.getLastD_eq_getLast?, List.getLast?_eq_some_getLast hB, Option.getD_some]
      unfold Spec.macChain
      rw [List.foldl_append]
      rfl
    · unfold Spec.omac
      rw [if_pos ⟨h0, hc⟩]
  obtain ⟨u, lu, e1, e2⟩ := form a ha0 ha
  obtain ⟨v, lv, f1, f2⟩ := form b hb0 hb
  rw [e1, e2, f1, f2]
  constructor
  · intro h
    have h := hE.inj _ _ (by rw [specXor_length, lu, hK, Nat.min_self]) (by rw [specXor_length, lv, hK, Nat.min_self]) h
    rw [xor_inj_right lu lv hK h]
  · intro h
    rw [hE.inj _ _ lu lv h]

/-- The MAC of a longer message depends on the whole blocks at its beginning through the end of the chain only, and
different ends give different MACs. -/
theorem omac_append_iff {n : Nat} (hn : 0 < n) {E : Bytes → Bytes} (hE : PermOn n E) (a b x : Bytes) (hx : x ≠ [])
    (ha : a.length % n = 0) (hb : b.length % n = 0) :
    Spec.omac E n (a ++ x) = Spec.omac E n (b ++ x) ↔
      Spec.macChain E (List.replicate n 0) (blocks n a) = Spec.macChain E (List.replicate n 0) (blocks n b) := by
  have hz : (List.replicate n (0 : UInt8)).length = n := by simp
  have hm : ∀ c : Bytes, c.length % n = 0 → (c ++ x).length % n = x.length % n := fun c hc => by
    rw [List.length_append, Nat.add_mod, hc, Nat.zero_add, Nat.mod_mod]
  have hne : macBlocks n x ≠ [] := by
    unfold macBlocks
    split
    · next h => exact blocks_ne_nil x hx h
    · simp
  rw [omac_eq_macEnd E n _ (by simp [hx]), omac_eq_macEnd E n _ (by simp [hx]), hm a ha, hm b hb,
    macBlocks_append n hn a x ha, macBlocks_append n hn b x hb]
  have hl : ∀ c ∈ macBlocks n x, c.length = n := fun c hc => macBlocks_length hn hc
  obtain ⟨B, z, hB⟩ : ∃ B z, macBlocks n x = B ++ [z] :=
    ⟨_, _, (List.dropLast_concat_getLast hne).symm⟩
  rw [hB] at hl ⊢
  have lz : z.length = n := hl z (by simp)
  have lB : ∀ c ∈ B, c.length = n := fun c hc => hl c (by simp [hc])
  have e : ∀ c : Bytes, ∀ K, macEnd E n K (blocks n c ++ (B ++ [z])) =
      E (Spec.xor (Spec.xor z (Spec.macChain E (Spec.macChain E (List.replicate n 0) (blocks n c)) B)) K) := by
    intro c K
    unfold macEnd
    rw [← List.append_assoc, List.getLastD_concat, List.dropLast_concat]
    unfold Spec.macChain
    rw [List.foldl_append]
  rw [e, e]
  generalize hK' : (if x.length % n = 0 then Spec.macKey1 E n else Spec.macKey2 E n) = K
  have lK : K.length = n := by
    rw [← hK']
    split
    · exact macDouble_length _ _
    · exact macDouble_length _ _
  have la := macChain_len hE (blocks n a) _ hz (fun b hb => mem_blocks_length hb)
  have lb := macChain_len hE (blocks n b) _ hz (fun b hb => mem_blocks_length hb)
  constructor
  · intro h
    have ca := macChain_len hE B _ la lB
    have cb := macChain_len hE B _ lb lB
    have l1 := (specXor_length z (Spec.macChain E (Spec.macChain E (List.replicate n 0) (blocks n a)) B)).trans
      (by rw [lz, ca, Nat.min_self] : _ = n)
    have l2 := (specXor_length z (Spec.macChain E (Spec.macChain E (List.replicate n 0) (blocks n b)) B)).trans
      (by rw [lz, cb, Nat.min_self] : _ = n)
    have h1 := hE.inj _ _ (by rw [specXor_length, l1, lK, Nat.min_self]) (by rw [specXor_length, l2, lK, Nat.min_self]) h
    exact macChain_inj hE B _ _ la lb lB (xor_inj_left ca cb lz (xor_inj_right l1 l2 lK h1))
  · intro h
    rw [h]

theorem permOn_alg (a : Alg) (kv : PyVal) (key : Bytes) (hk : kv.data? = some key) (hkl : key.length = 32) :
    PermOn a.blockSize (a.encrypt key) := by
  obtain ⟨o, D, hg, hbs, hI, _, _⟩ := new_mac a kv key hk hkl none none
  rw [← hbs]
  refine ⟨hI.enc_len, fun b c hb hc h => ?_⟩
  rw [← hI.D_E b hb, h, hI.D_E c hc]

theorem omac_length {n : Nat} (hn : 0 < n) {E : Bytes → Bytes} (hE : PermOn n E) (M : Bytes) (hM : M ≠ []) :
    (Spec.omac E n M).length = n := by
  have hz : (List.replicate n (0 : UInt8)).length = n := by simp
  rw [omac_eq_macEnd _ _ _ hM]
  have hne : macBlocks n M ≠ [] := by
    unfold macBlocks
    split
    · next h => exact blocks_ne_nil M hM h
    · simp
  refine hE.len _ ?_
  rw [specXor_length, specXor_length, macChain_len hE _ _ hz
      (fun b hb => macBlocks_length hn (List.dropLast_subset _ hb)),
    List.getLastD_eq_getLast?, List.getLast?_eq_some_getLast hne, Option.getD_some,
    macBlocks_length hn (List.getLast_mem hne)]
  split
  · rw [Spec.macKey1, macDouble_length]; omega
  · rw [Spec.macKey2, macDouble_length]; omega

/-- A MAC object made with the message m gives the MAC r of full length. -/
def MacIs (a : Alg) (kv : PyVal) (m r : Bytes) : Prop :=
  ∃ s, newCipher a.name kv modeMac (data := some (.bytes m)) = .ok (.mac s) ∧ (s.digest a.blockSize).2 = .ok r

theorem macIs_iff (a : Alg) (kv : PyVal) (key m r : Bytes) (hk : kv.data? = some key) (hkl : key.length = 32)
    (hm : a.blockSize ≤ m.length) : MacIs a kv m r ↔ r = Spec.omac (a.encrypt key) a.blockSize m := by
  have hn : 0 < a.blockSize := by cases a <;> decide
  obtain ⟨⟨s, n₁, d₁⟩, _⟩ := C17_omac_partial a kv (.bytes m) key _ hk hkl rfl (Or.inr hm) a.blockSize (Nat.le_refl _)
  have h0 : m ≠ [] := fun e => by rw [e, List.length_nil] at hm; omega
  rw [List.take_of_length_le (Nat.le_of_eq (omac_length hn (permOn_alg a kv key hk hkl) m h0))] at d₁
  constructor
  · rintro ⟨t, e1, e2⟩
    have hst : t = s := by
      have := Except.ok.inj (e1.symm.trans n₁)
      injection this
    rw [hst, d₁] at e2
    exact (Except.ok.inj e2).symm
  · intro h
    rw [h]
    exact ⟨s, n₁, d₁⟩

/-- C129: two non-empty messages of whole blocks have the same MAC of full length exactly if they have the same one
after the same bytes x are appended to both. -/
theorem C129_extend (a : Alg) (kv : PyVal) (key : Bytes) (hk : kv.data? = some key) (hkl : key.length = 32)
    (m m' x : Bytes) (h0 : m ≠ []) (h0' : m' ≠ []) (hm : m.length % a.blockSize = 0) (hm' : m'.length % a.blockSize = 0)
    (hx : x ≠ []) :
    ∃ r r' q q', MacIs a kv m r ∧ MacIs a kv m' r' ∧ MacIs a kv (m ++ x) q ∧ MacIs a kv (m' ++ x) q' ∧
      (r = r' ↔ q = q') := by
  have hn : 0 < a.blockSize := by cases a <;> decide
  have hE := permOn_alg a kv key hk hkl
  have len : ∀ c : Bytes, c ≠ [] → c.length % a.blockSize = 0 → a.blockSize ≤ c.length := fun c h0 hc =>
    Nat.le_of_dvd (List.length_pos_iff.2 h0) (Nat.dvd_of_mod_eq_zero hc)
  have l1 := len m h0 hm
  have l2 := len m' h0' hm'
  refine ⟨_, _, _, _, (macIs_iff a kv key m _ hk hkl l1).2 rfl, (macIs_iff a kv key m' _ hk hkl l2).2 rfl,
    (macIs_iff a kv key (m ++ x) _ hk hkl (by simp; omega)).2 rfl,
    (macIs_iff a kv key (m' ++ x) _ hk hkl (by simp; omega)).2 rfl, ?_⟩
  rw [omac_eq_iff hE m m' h0 h0' hm hm', omac_append_iff hn hE m m' x hx hm hm']

/-- C129: the appended bytes show nothing else: with two ends x and y, of which neither is empty, the messages m and m'
agree in the MAC for the one exactly if for the other. -/
theorem C129_any_end (a : Alg) (kv : PyVal) (key : Bytes) (hk : kv.data? = some key) (hkl : key.length = 32)
    (m m' x y r r' q q' : Bytes) (h0 : m ≠ []) (h0' : m' ≠ []) (hm : m.length % a.blockSize = 0)
    (hm' : m'.length % a.blockSize = 0) (hx : x ≠ []) (hy : y ≠ []) (h1 : MacIs a kv (m ++ x) r)
    (h2 : MacIs a kv (m' ++ x) r') (h3 : MacIs a kv (m ++ y) q) (h4 : MacIs a kv (m' ++ y) q') : r = r' ↔ q = q' := by
  have hn : 0 < a.blockSize := by cases a <;> decide
  have hE := permOn_alg a kv key hk hkl
  have len : ∀ c z : Bytes, c ≠ [] → c.length % a.blockSize = 0 → a.blockSize ≤ (c ++ z).length := fun c z h0 hc => by
    have := Nat.le_of_dvd (List.length_pos_iff.2 h0) (Nat.dvd_of_mod_eq_zero hc)
    simp; omega
  rw [macIs_iff a kv key _ _ hk hkl (len _ _ h0 hm)] at h1 h3
  rw [macIs_iff a kv key _ _ hk hkl (len _ _ h0' hm')] at h2 h4
  rw [h1, h2, h3, h4, omac_append_iff hn hE m m' x hx hm hm', omac_append_iff hn hE m m' y hy hm hm']

/-- C129: such messages exist, for every key: with c and c' the encrypted blocks b and b', the messages b, d and
b', d ⊕ c ⊕ c' have the same MAC for every block d, and go on to have it whatever is appended. -/
theorem C129_exist (a : Alg) (kv : PyVal) (key : Bytes) (hk : kv.data? = some key) (hkl : key.length = 32)
    (b b' d x : Bytes) (hb : b.length = a.blockSize) (hb' : b'.length = a.blockSize) (hd : d.length = a.blockSize) :
    ∃ r, MacIs a kv (b ++ d ++ x) r ∧
      MacIs a kv (b' ++ Spec.xor d (Spec.xor (a.encrypt key b) (a.encrypt key b')) ++ x) r := by
  have hn : 0 < a.blockSize := by cases a <;> decide
  have hE := permOn_alg a kv key hk hkl
  have lc := hE.len b hb
  have lc' := hE.len b' hb'
  generalize hd' : Spec.xor d (Spec.xor (a.encrypt key b) (a.encrypt key b')) = d'
  have ld' : d'.length = a.blockSize := by
    rw [← hd', specXor_length, specXor_length, lc, lc', hd, Nat.min_self, Nat.min_self]
  have hz : ∀ u : Bytes, u.length = a.blockSize → Spec.xor u (List.replicate a.blockSize 0) = u := fun u hu =>
    addXor_zeros u _ (Nat.le_of_eq hu)
  have two : ∀ u v : Bytes, u.length = a.blockSize → v.length = a.blockSize → blocks a.blockSize (u ++ v) = [u, v] := by
    intro u v hu hv
    have h := blocks_cons _ v [] hn hv
    rw [List.append_nil, blocks_nil] at h
    rw [blocks_cons _ u v hn hu, h]
  have chain : Spec.macChain (a.encrypt key) (List.replicate a.blockSize 0) (blocks a.blockSize (b ++ d)) =
      Spec.macChain (a.encrypt key) (List.replicate a.blockSize 0) (blocks a.blockSize (b' ++ d')) := by
    rw [two b d hb hd, two b' d' hb' ld']
    simp only [Spec.macChain, List.foldl_cons, List.foldl_nil]
    rw [hz b hb, hz b' hb', ← hd']
    congr 1
    show addXor d (a.encrypt key b) = addXor (addXor d (addXor _ _)) _
    rw [addXor_assoc, addXor_assoc, show addXor (a.encrypt key b') (a.encrypt key b') =
      List.replicate a.blockSize 0 from ?_, addXor_zeros _ _ (Nat.le_of_eq lc)]
    rw [← lc']
    generalize a.encrypt key b' = w
    induction w with
    | nil => rfl
    | cons y w ih => rw [addXor_cons, ih, UInt8.xor_self, List.length_cons, List.replicate_succ]
  have l1 : (b ++ d).length % a.blockSize = 0 := by rw [List.length_append, hb, hd, Nat.add_mod_right, Nat.mod_self]
  have l2 : (b' ++ d').length % a.blockSize = 0 := by rw [List.length_append, hb', ld', Nat.add_mod_right, Nat.mod_self]
  refine ⟨_, (macIs_iff a kv key _ _ hk hkl (by simp [hb])).2 rfl,
    (macIs_iff a kv key _ _ hk hkl (by simp [hb'])).2 ?_⟩
  have n1 : b ++ d ≠ [] := fun e => by have := congrArg List.length e; rw [List.length_append, hb, List.length_nil] at this; omega
  have n2 : b' ++ d' ≠ [] := fun e => by have := congrArg List.length e; rw [List.length_append, hb', List.length_nil] at this; omega
  by_cases hx : x = []
  · rw [hx, List.append_nil, List.append_nil]
    exact (omac_eq_iff hE _ _ n1 n2 l1 l2).2 chain
  · exact (omac_append_iff hn hE _ _ x hx l1 l2).2 chain

/-- A case: two messages of one block and three bytes appended. -/
example : ∃ r r' q q', MacIs .magma (.bytes Ex.key) (Ex.count 1 8) r ∧ MacIs .magma (.bytes Ex.key) (Ex.count 2 8) r' ∧
    MacIs .magma (.bytes Ex.key) (Ex.count 1 8 ++ [1, 2, 3]) q ∧ MacIs .magma (.bytes Ex.key) (Ex.count 2 8 ++ [1, 2, 3]) q' ∧
    (r = r' ↔ q = q') :=
  C129_extend .magma (.bytes Ex.key) Ex.key rfl (by decide) _ _ _ (by decide) (by decide) (by decide) (by decide) (by decide)

/-- A case of equal ones. -/
example : ∃ r, MacIs .kuznechik (.bytes Ex.key) (Ex.count 1 16 ++ Ex.count 5 16 ++ [7]) r ∧
    MacIs .kuznechik (.bytes Ex.key) (Ex.count 9 16 ++ Spec.xor (Ex.count 5 16)
      (Spec.xor (Alg.kuznechik.encrypt Ex.key (Ex.count 1 16)) (Alg.kuznechik.encrypt Ex.key (Ex.count 9 16))) ++ [7]) r :=
  C129_exist .kuznechik (.bytes Ex.key) Ex.key rfl (by decide) _ _ _ _ (by decide) (by decide) (by decide)

end Gost
