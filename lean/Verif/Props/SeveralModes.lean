import Verif.Props.TwoObjects
import Verif.Props.Mac
import Verif.Props.MacMask
import Verif.Props.Malleability

/-! Property C119: one key in several modes. What an object in one mode tells about an object in another one. -/

namespace Gost
open Spec (Alg blocks rest)

/-! ### Helper lemmas -/

theorem feed_unique {E : Bytes → Bytes} {V X Y : List Bytes} {k : Nat} (hV : V ≠ []) (hx : X.length = k) (hy : Y.length = k)
    (eX : X = ((V ++ X).take k).map E) (eY : Y = ((V ++ Y).take k).map E) : X = Y := by
  have hv : 0 < V.length := by
    cases V with
    | nil => exact absurd rfl hV
    | cons => simp
  have get : ∀ {Z : List Bytes}, Z.length = k → Z = ((V ++ Z).take k).map E → ∀ i : Nat, i < k → Z[i]? = ((V ++ Z)[i]?).map E := by
    intro Z hz e i hi
    conv => lhs; rw [e]
    rw [List.getElem?_map, List.getElem?_take, if_pos hi]
  have main : ∀ i : Nat, X[i]? = Y[i]? := by
    intro i
    induction i using Nat.strongRecOn with
    | ind i ih =>
      by_cases hi : i < k
      · rw [get hx eX i hi, get hy eY i hi]
        by_cases hc : i < V.length
        · rw [List.getElem?_append_left hc, List.getElem?_append_left hc]
        · rw [List.getElem?_append_right (by omega), List.getElem?_append_right (by omega), ih _ (by omega)]
      · rw [List.getElem?_eq_none (by omega), List.getElem?_eq_none (by omega)]
  exact List.ext_getElem? main

/-- The blocks of a string of zeros. -/
theorem blocks_zeros (n k : Nat) (hn : 0 < n) : blocks n (List.replicate k 0) = List.replicate (k / n) (List.replicate n 0) := by
  apply List.eq_replicate_iff.2
  refine ⟨by rw [blocks_length]; simp, fun b hb => ?_⟩
  apply List.eq_replicate_iff.2
  refine ⟨mem_blocks_length hb, fun x hx => ?_⟩
  have : x ∈ (blocks n (List.replicate k 0)).flatten := List.mem_flatten.2 ⟨b, hb, hx⟩
  have h2 : x ∈ (blocks n (List.replicate k 0)).flatten ++ rest n (List.replicate k 0) := List.mem_append_left _ this
  rw [flatten_blocks_rest n hn] at h2
  exact (List.mem_replicate.1 h2).2

theorem rest_zeros (n k : Nat) (hn : 0 < n) : ∀ x ∈ rest n (List.replicate k 0), x = 0 := by
  intro x hx
  have h2 : x ∈ (blocks n (List.replicate k 0)).flatten ++ rest n (List.replicate k 0) := List.mem_append_right _ hx
  rw [flatten_blocks_rest n hn] at h2
  exact (List.mem_replicate.1 h2).2

theorem xor_zero_block {n : Nat} {x : Bytes} (h : x.length = n) : Spec.xor x (List.replicate n 0) = x := by
  have := addXor_zeros x n (by omega)
  rw [addXor_comm] at this
  rw [show Spec.xor x (List.replicate n 0) = addXor x (List.replicate n 0) from rfl]
  first | exact this | (rw [addXor_comm]; exact this)

/-- A list fed by itself, with zeros as the other argument. -/
theorem feed_zeros {f : Bytes → Bytes → Bytes} {E : Bytes → Bytes} {n k : Nat} {V X : List Bytes}
    (hf : ∀ x : Bytes, x.length = n → f x (List.replicate n 0) = E x) (hV : ∀ x ∈ V, x.length = n) (hX : ∀ x ∈ X, x.length = n)
    (e : X = List.zipWith f (V ++ X) (List.replicate k (List.replicate n 0))) : X = ((V ++ X).take k).map E := by
  have g : ∀ l : List Bytes, (∀ x ∈ l, x.length = n) → ∀ k,
      List.zipWith f l (List.replicate k (List.replicate n 0)) = (l.take k).map E := by
    intro l
    induction l with
    | nil => intro _ k; simp
    | cons x l ih =>
      intro hl k
      cases k with
      | zero => simp
      | succ k =>
        rw [List.replicate_succ, List.zipWith_cons_cons, List.take_succ_cons, List.map_cons, hf x (hl x (by simp)),
          ih (fun y hy => hl y (by simp [hy]))]
  rw [g _ (by
    intro x hx
    rcases List.mem_append.1 hx with h | h
    · exact hV x h
    · exact hX x h)] at e
  exact e

theorem vector_blocks {n : Nat} {iv : Bytes} (h0 : 0 < iv.length) (hm : iv.length % n = 0) : blocks n iv ≠ [] := by
  intro e
  have := congrArg List.length e
  rw [blocks_length] at this
  have q := Nat.div_add_mod iv.length n
  rw [hm, this] at q
  simp at q
  omega

/-! ### Feedback modes on zeros -/

/-- C119: on a message of zeros of any length, objects in CFB and OFB mode with the same key and vector give the same
result, the keystream of OFB; if the message is one or more whole blocks, so does the object in CBC mode with PAD_MODE_1.
So the holder of an object in one of the modes can read messages of the other. -/
theorem C119_zeros (a : Alg) (kv ivv : PyVal) (key iv : Bytes) (hk : kv.data? = some key) (hkl : key.length = 32)
    (hiv : ivv.data? = some iv) (hiv0 : 0 < iv.length) (hivl : iv.length % a.blockSize = 0) (k : Nat) (v : PyVal)
    (hv : v.data? = some (List.replicate k 0)) :
    ∃ c f o c' f' o' out, newCipher a.name kv modeCfb (initVect := some ivv) = .ok (.cfb f) ∧
      newCipher a.name kv modeOfb (initVect := some ivv) = .ok (.ofb o) ∧
      newCipher a.name kv modeCbc (padMode := some padMode1) (initVect := some ivv) = .ok (.cbc c) ∧
      Cfb.encrypt f v = (f', .ok out) ∧ Ofb.encrypt o v = (o', .ok out) ∧
      (0 < k → k % a.blockSize = 0 → c.encrypt v = (c', .ok out)) := by
  have hpos := Alg.blockSize_pos a
  have hV := vector_blocks hiv0 hivl
  obtain ⟨hE, -⟩ := encrypt_perm a key hkl
  obtain ⟨f, f', out, n1, e1, l1, b1, r1, -⟩ := C16_cfb_encrypt a kv ivv key iv hk hkl hiv hiv0 hivl v _ hv
  obtain ⟨o, o', out2, Y, n2, e2, -, y1, y2, l2, b2, r2, -⟩ := C16_ofb a kv ivv key iv hk hkl hiv hiv0 hivl v _ hv
  obtain ⟨c, c', out3, M, n3, e3, z, -, l3, b3, -⟩ :=
    C16_cbc_encrypt a kv ivv key iv padMode1 hk hkl hiv hiv0 hivl (Or.inl rfl) v _ hv
  have hVl : ∀ x ∈ blocks a.blockSize iv, x.length = a.blockSize := fun x hx => mem_blocks_length hx
  rw [List.length_replicate] at l1 l2 r1 y1 y2 r2
  rw [blocks_zeros _ _ hpos] at b1 b2
  -- CFB
  have f1 := feed_zeros (E := a.encrypt key) (fun x hx => xor_zero_block (hE x hx)) hVl (fun x hx => mem_blocks_length hx) b1
  -- OFB
  have same : blocks a.blockSize out = Y := feed_unique hV (by rw [blocks_length, l1]) y1 f1 y2
  have f2 : blocks a.blockSize out2 = Y := by
    rw [b2]
    have : ∀ l : List Bytes, (∀ x ∈ l, x.length = a.blockSize) →
        List.zipWith Spec.xor l (List.replicate l.length (List.replicate a.blockSize 0)) = l := by
      intro l
      induction l with
      | nil => intro _; rfl
      | cons x l ih =>
        intro hl
        rw [List.length_cons, List.replicate_succ, List.zipWith_cons_cons, xor_zero_block (hl x (by simp)),
          ih fun y hy => hl y (by simp [hy])]
    rw [← y1]
    exact this Y (by rw [← same]; exact fun x hx => mem_blocks_length hx)
  have h12 : out2 = out := by
    rw [← flatten_blocks_rest a.blockSize hpos out2, ← flatten_blocks_rest a.blockSize hpos out, r1, r2, f2, same]
  subst h12
  refine ⟨c, f, o, c', f', o', out2, n1, n2, n3, e1, e2, fun k0 hk0 => ?_⟩
  obtain ⟨j, rfl, hd, hj, -⟩ := z rfl
  have hj := hj (by
    intro e
    have := congrArg List.length e
    rw [List.length_replicate] at this
    simp at this
    omega)
  have j0 : j = 0 := by
    rw [List.length_append, List.length_replicate, List.length_replicate] at hd
    have := (Nat.dvd_add_right (Nat.dvd_of_mod_eq_zero hk0)).1 hd
    exact Nat.eq_zero_of_dvd_of_lt this hj
  subst j0
  rw [List.replicate_zero, List.append_nil] at l3 b3
  rw [List.length_replicate] at l3
  rw [blocks_zeros _ _ hpos] at b3
  have f3 := feed_zeros (E := a.encrypt key) (fun x hx => by rw [xor_zero_block hx]) hVl (fun x hx => mem_blocks_length hx) b3
  have h3 : blocks a.blockSize out3 = Y := feed_unique hV (by rw [blocks_length, l3]) y1 f3 y2
  have h23 : out3 = out2 := by
    rw [← flatten_blocks a.blockSize hpos out3 (by rw [l3]; exact Nat.dvd_of_mod_eq_zero hk0),
      ← flatten_blocks a.blockSize hpos out2 (by rw [l2]; exact Nat.dvd_of_mod_eq_zero hk0), h3, same]
  rw [e3, h23]

/-- A case: Magma, a vector of two blocks, three blocks of zeros. -/
example : (Ex.count 1 16).length % Alg.magma.blockSize = 0 ∧ 24 % Alg.magma.blockSize = 0 := by decide

/-- C119, what follows: the keystream with which an object in OFB mode hides and reads messages is what an object in CFB
mode with the same key and vector makes of zeros. -/
theorem C119_read (a : Alg) (kv ivv : PyVal) (key iv : Bytes) (hk : kv.data? = some key) (hkl : key.length = 32)
    (hiv : ivv.data? = some iv) (hiv0 : 0 < iv.length) (hivl : iv.length % a.blockSize = 0) (v : PyVal) (d : Bytes)
    (hv : v.data? = some d) :
    ∃ f o f' ks, newCipher a.name kv modeCfb (initVect := some ivv) = .ok (.cfb f) ∧
      newCipher a.name kv modeOfb (initVect := some ivv) = .ok (.ofb o) ∧
      Cfb.encrypt f (.bytes (List.replicate d.length 0)) = (f', .ok ks) ∧
      (Ofb.encrypt o v).2 = .ok (Spec.xor d ks) ∧ (Ofb.decrypt o v).2 = .ok (Spec.xor d ks) := by
  obtain ⟨c, f, o, c', f', o', ks, n1, n2, -, e1, e2, -⟩ :=
    C119_zeros a kv ivv key iv hk hkl hiv hiv0 hivl d.length (.bytes (List.replicate d.length 0)) rfl
  obtain ⟨b, D, h1, -⟩ := new_ofb a kv ivv key iv hk hkl hiv hivl none none
  rw [h1] at n2
  cases n2
  obtain ⟨g, next, hg⟩ := C51_ofb_keystream _ (.new h1) (by rintro rfl; simp at hiv0)
  have hz := (hg (.bytes (List.replicate d.length 0)) _ rfl).1
  rw [e2, List.length_replicate] at hz
  have hks : ks = (List.range d.length).map g := by
    have := Except.ok.inj (Prod.mk.inj hz).2
    rw [this, show ∀ x y, Spec.xor x y = Spec.xor y x from fun x y => addXor_comm x y]
    exact xor_zero_block (by simp)
  refine ⟨f, _, f', ks, n1, h1, e1, ?_, ?_⟩
  · rw [(hg v d hv).1, hks]
  · rw [(hg v d hv).2, hks]

example : ∃ f o f' ks, newCipher Alg.magma.name (.bytes Ex.key) modeCfb (initVect := some (.bytes (Ex.count 1 16))) =
      .ok (.cfb f) ∧
    newCipher Alg.magma.name (.bytes Ex.key) modeOfb (initVect := some (.bytes (Ex.count 1 16))) = .ok (.ofb o) ∧
    Cfb.encrypt f (.bytes (List.replicate 11 0)) = (f', .ok ks) ∧
    (Ofb.encrypt o (.bytes (Ex.count 5 11))).2 = .ok (Spec.xor (Ex.count 5 11) ks) ∧
    (Ofb.decrypt o (.bytes (Ex.count 5 11))).2 = .ok (Spec.xor (Ex.count 5 11) ks) :=
  C119_read .magma (.bytes Ex.key) (.bytes (Ex.count 1 16)) Ex.key (Ex.count 1 16) rfl (by decide) rfl (by decide)
    (by decide) (.bytes (Ex.count 5 11)) (Ex.count 5 11) rfl

/-! ### CTR and ECB -/

/-- The counter blocks of `m` blocks, as the code makes them. -/
def counters (n : Nat) (iv : Bytes) (m : Nat) : Bytes :=
  ((List.range m).map fun j => iv ++ List.replicate (n / 2 - 1) 0 ++ [UInt8.ofNat j]).flatten

/-- C119: what an object in CTR mode adds to a message is what the object in ECB mode makes of the counter blocks. -/
theorem C119_ctr (a : Alg) (kv ivv : PyVal) (key iv : Bytes) (hk : kv.data? = some key) (hkl : key.length = 32)
    (hiv : ivv.data? = some iv) (hivl : iv.length = a.blockSize / 2) (v : PyVal) (d : Bytes) (hv : v.data? = some d) :
    ∃ e c ks, newCipher a.name kv modeEcb (padMode := some padMode1) = .ok (.ecb e) ∧
      newCipher a.name kv modeCtr (initVect := some ivv) = .ok (.ctr c) ∧
      e.encrypt (.bytes (counters a.blockSize iv (Spec.blockCount a.blockSize d))) = (e, .ok ks) ∧
      (c.encrypt v).2 = .ok (Spec.xor d ks) := by
  have hpos := Alg.blockSize_pos a
  have heven : 2 ∣ a.blockSize ∧ 2 ≤ a.blockSize := by cases a <;> decide
  obtain ⟨c, c', out, n1, e1, x1, -⟩ := C13_exact a kv ivv key iv hk hkl hiv hivl [] [] rfl v d hv
  cases e1
  obtain ⟨e, n2, f, -⟩ := C54_ecb_blockwise a kv key padMode1 hk hkl (Or.inl rfl)
  obtain ⟨M, ks, e2, z, -, lk, bk⟩ := f (.bytes (counters a.blockSize iv (Spec.blockCount a.blockSize d))) _ rfl
  refine ⟨e, c, ks, n2, n1, e2, ?_⟩
  rw [x1]
  simp only [List.map_nil, List.sum_nil, Nat.zero_add]
  obtain ⟨j, rfl, hd, hj, hj0⟩ := z rfl
  have hlen : ∀ b ∈ (List.range (Spec.blockCount a.blockSize d)).map
      (fun j => iv ++ List.replicate (a.blockSize / 2 - 1) 0 ++ [UInt8.ofNat j]), b.length = a.blockSize := by
    intro b hb
    obtain ⟨j, -, rfl⟩ := List.mem_map.1 hb
    simp [hivl]
    omega
  by_cases h0 : d = []
  · subst h0
    rfl
  · have hm : 0 < Spec.blockCount a.blockSize d := by
      unfold Spec.blockCount
      have := List.length_pos_iff.2 h0
      exact Nat.div_pos (by omega) hpos
    have hcl : (counters a.blockSize iv (Spec.blockCount a.blockSize d)).length =
        a.blockSize * Spec.blockCount a.blockSize d := by
      unfold counters
      rw [flatten_length_const _ _ hlen]
      simp
    have j0 : j = 0 := by
      rw [List.length_append, List.length_replicate, hcl] at hd
      have := (Nat.dvd_add_right (Nat.dvd_mul_right ..)).1 hd
      refine Nat.eq_zero_of_dvd_of_lt this (hj ?_)
      intro e
      rw [e, List.length_nil] at hcl
      have := Nat.mul_pos hpos hm
      omega
    subst j0
    rw [List.replicate_zero, List.append_nil] at bk lk
    have hks : ks = ((List.range (Spec.blockCount a.blockSize d)).map fun j =>
        a.encrypt key (iv ++ List.replicate (a.blockSize / 2 - 1) 0 ++ [UInt8.ofNat j])).flatten := by
      rw [← flatten_blocks a.blockSize hpos ks (by rw [lk, hcl]; exact Nat.dvd_mul_right ..), bk]
      unfold counters
      rw [blocks_flatten _ hpos _ hlen, List.map_map]
      rfl
    rw [hks]

/-! ### The MAC -/

theorem xor_swap (x l c : Bytes) : Spec.xor (Spec.xor l c) x = Spec.xor c (Spec.xor l x) := by
  show addXor (addXor l c) x = addXor c (addXor l x)
  rw [addXor_comm l c, addXor_assoc]

theorem chain_last {E : Bytes → Bytes} (P : List Bytes) : ∀ (v : Bytes) (X : List Bytes), X.length = P.length →
    X = List.zipWith (fun x p => E (Spec.xor x p)) (v :: X) P → X.getLastD v = Spec.macChain E v P := by
  induction P with
  | nil =>
    intro v X hl _
    cases X with
    | nil => rfl
    | cons => simp at hl
  | cons p P ih =>
    intro v X hl e
    cases X with
    | nil => simp at hl
    | cons x X =>
      rw [List.zipWith_cons_cons] at e
      obtain ⟨e1, e2⟩ := List.cons.inj e
      have := ih x X (by simpa using hl) e2
      rw [List.getLastD_cons, this, Spec.macChain, Spec.macChain, List.foldl_cons, e1]
      rw [show Spec.xor v p = Spec.xor p v from addXor_comm v p]

/-- C119: an object in CTR mode with the vector zero shows the value from which the two keys of the MAC with the same
key are made. -/
theorem C119_mac_keys (a : Alg) (kv ivv : PyVal) (key : Bytes) (hk : kv.data? = some key) (hkl : key.length = 32)
    (hiv : ivv.data? = some (List.replicate (a.blockSize / 2) 0)) (dat : Option PyVal) (m : Mac)
    (hm : newCipher a.name kv modeMac (data := dat) = .ok (.mac m)) :
    ∃ c r, newCipher a.name kv modeCtr (initVect := some ivv) = .ok (.ctr c) ∧
      (c.encrypt (.bytes (List.replicate a.blockSize 0))).2 = .ok r ∧
      m.key1 = Spec.macDouble a.blockSize r ∧ m.key2 = Spec.macDouble a.blockSize (Spec.macDouble a.blockSize r) := by
  have hpos := Alg.blockSize_pos a
  obtain ⟨hE, -⟩ := encrypt_perm a key hkl
  have heven : 2 ∣ a.blockSize ∧ 2 ≤ a.blockSize := by cases a <;> decide
  obtain ⟨c, c', out, n1, e1, x1, -⟩ := C13_exact a kv ivv key _ hk hkl hiv (by simp) [] [] rfl
    (.bytes (List.replicate a.blockSize 0)) _ rfl
  cases e1
  obtain ⟨k1, k2⟩ := mac_keys_of_new a kv key hk hkl dat m hm
  have hz : List.replicate (a.blockSize / 2) 0 ++ List.replicate (a.blockSize / 2 - 1) 0 ++ [UInt8.ofNat (0 + 0)] =
      List.replicate a.blockSize 0 := by
    apply List.eq_replicate_iff.2
    constructor
    · simp
      omega
    · intro b hb
      rw [List.mem_append, List.mem_append] at hb
      rcases hb with (h | h) | h
      · exact List.eq_of_mem_replicate h
      · exact List.eq_of_mem_replicate h
      · exact List.mem_singleton.1 h
  have h1 : Spec.blockCount a.blockSize (List.replicate a.blockSize 0) = 1 := by
    unfold Spec.blockCount
    rw [List.length_replicate]
    exact Nat.div_eq_of_lt_le (by omega) (by omega)
  refine ⟨c, a.encrypt key (List.replicate a.blockSize 0), n1, ?_, k1, k2⟩
  rw [x1, h1]
  simp only [List.map_nil, List.sum_nil, List.range_one, List.map_cons, List.flatten_cons, List.flatten_nil, List.append_nil]
  rw [hz]
  have := xor_zero_block (hE (List.replicate a.blockSize 0) (by simp))
  rw [show ∀ x, Spec.xor (List.replicate a.blockSize 0) x = Spec.xor x (List.replicate a.blockSize 0) from
    fun x => addXor_comm _ x, this]

/-- C119: the MAC of a message of whole blocks is the last block which an object in CBC mode with the same key and the
vector zero makes of the message with the first key of the MAC added to the last block. -/
theorem C119_mac_cbc (a : Alg) (kv ivv mv : PyVal) (key p l : Bytes) (hk : kv.data? = some key) (hkl : key.length = 32)
    (hiv : ivv.data? = some (List.replicate a.blockSize 0)) (hp : p.length % a.blockSize = 0) (hl : l.length = a.blockSize)
    (hm : mv.data? = some (p ++ l)) :
    ∃ m c c' out, newCipher a.name kv modeMac (data := some mv) = .ok (.mac m) ∧
      newCipher a.name kv modeCbc (padMode := some padMode1) (initVect := some ivv) = .ok (.cbc c) ∧
      c.encrypt (.bytes (p ++ Spec.xor l m.key1)) = (c', .ok out) ∧
      (m.digest a.blockSize).2 = .ok ((blocks a.blockSize out).getLastD []) := by
  have hpos := Alg.blockSize_pos a
  obtain ⟨hE, -⟩ := encrypt_perm a key hkl
  obtain ⟨⟨m, n1, d1⟩, -⟩ := C17_omac_partial a kv mv key (p ++ l) hk hkl hm (Or.inr (by simp [hl])) a.blockSize (Nat.le_refl _)
  obtain ⟨k1, -⟩ := mac_keys_of_new a kv key hk hkl (some mv) m n1
  have k1l : m.key1.length = a.blockSize := by rw [k1]; exact macDouble_length _ _
  have xl : (Spec.xor l m.key1).length = a.blockSize := by simp [Spec.xor, hl, k1l]
  obtain ⟨c, c', out, M, n3, e3, z, -, l3, b3, -⟩ :=
    C16_cbc_encrypt a kv ivv key _ padMode1 hk hkl hiv (by simpa using hpos) (by simp) (Or.inl rfl)
      (.bytes (p ++ Spec.xor l m.key1)) _ rfl
  refine ⟨m, c, c', out, n1, n3, e3, ?_⟩
  rw [d1]
  obtain ⟨j, rfl, hd, hj, -⟩ := z rfl
  have hdp : a.blockSize ∣ p.length := Nat.dvd_of_mod_eq_zero hp
  have j0 : j = 0 := by
    rw [List.length_append, List.length_replicate, List.length_append, xl] at hd
    have := (Nat.dvd_add_right ((Nat.dvd_add_right hdp).2 (Nat.dvd_refl _))).1 hd
    refine Nat.eq_zero_of_dvd_of_lt this (hj ?_)
    intro e
    have := congrArg List.length e
    rw [List.length_append, xl, List.length_nil] at this
    omega
  subst j0
  rw [List.replicate_zero, List.append_nil] at l3 b3
  have one : ∀ b : Bytes, b.length = a.blockSize → blocks a.blockSize b = [b] := by
    intro b hb
    have := blocks_cons a.blockSize b [] hpos hb
    rwa [List.append_nil, blocks_nil] at this
  rw [blocks_append _ hpos p _ hdp, one _ xl, one _ (List.length_replicate ..)] at b3
  have last := chain_last _ _ _ (by
    rw [blocks_length, l3, List.length_append, xl, List.length_append, List.length_singleton, blocks_length]
    rw [Nat.add_div_right _ hpos]) b3
  have ne : blocks a.blockSize out ≠ [] := by
    intro e
    rw [e] at b3
    cases hq : blocks a.blockSize p <;> rw [hq] at b3 <;> simp at b3
  have lastD : (blocks a.blockSize out).getLastD [] = (blocks a.blockSize out).getLastD (List.replicate a.blockSize 0) := by
    cases h : blocks a.blockSize out with
    | nil => exact absurd h ne
    | cons x X => rw [List.getLastD_cons, List.getLastD_cons]
  rw [lastD, last]
  unfold Spec.omac
  rw [if_pos ⟨by
    intro e
    have := congrArg List.length e
    rw [List.length_append, hl, List.length_nil] at this
    omega, by rw [List.length_append, hl, Nat.add_mod_right]; exact hp⟩]
  rw [blocks_append _ hpos p l hdp, one l hl, List.dropLast_concat, List.getLastD_concat, Spec.macChain, Spec.macChain,
    List.foldl_concat, ← k1, xor_swap, List.take_of_length_le]
  · rw [show ∀ x y, Spec.xor x y = Spec.xor y x from fun x y => addXor_comm x y]
  · have hf : ∀ (P : List Bytes) (z : Bytes), z.length = a.blockSize → (∀ x ∈ P, x.length = a.blockSize) →
        (P.foldl (fun c p => a.encrypt key (Spec.xor p c)) z).length = a.blockSize := by
      intro P
      induction P with
      | nil => exact fun _ h _ => h
      | cons x P ih =>
        intro z hz hP
        rw [List.foldl_cons]
        refine ih _ (hE _ ?_) fun y hy => hP y (by simp [hy])
        simp [Spec.xor, hz, hP x (by simp)]
    refine Nat.le_of_eq (hE _ ?_)
    · have := hf (blocks a.blockSize p) (List.replicate a.blockSize 0) (by simp) fun x hx => mem_blocks_length hx
      simp only [Spec.xor, List.length_zipWith] at this xl ⊢
      rw [this, xl, Nat.min_self]

/-- A case: a message of three blocks of Kuznechik. -/
example : (Ex.count 1 32).length % Alg.kuznechik.blockSize = 0 ∧ (Ex.count 7 16).length = Alg.kuznechik.blockSize := by
  decide

example : ∃ m c c' out,
    newCipher Alg.magma.name (.bytes Ex.key) modeMac (data := some (.bytes (Ex.count 1 16 ++ Ex.count 3 8))) = .ok (.mac m) ∧
    newCipher Alg.magma.name (.bytes Ex.key) modeCbc (padMode := some padMode1)
      (initVect := some (.bytes (List.replicate 8 0))) = .ok (.cbc c) ∧
    c.encrypt (.bytes (Ex.count 1 16 ++ Spec.xor (Ex.count 3 8) m.key1)) = (c', .ok out) ∧
    (m.digest 8).2 = .ok ((blocks 8 out).getLastD []) :=
  C119_mac_cbc .magma (.bytes Ex.key) (.bytes (List.replicate 8 0)) _ Ex.key (Ex.count 1 16) (Ex.count 3 8) rfl (by decide)
    rfl (by decide) (by decide) rfl

end Gost
