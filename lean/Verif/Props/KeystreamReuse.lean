import Verif.Proofs.KeyStream
import Verif.Props.CipherStore

/-! Property C15, the exact statements: which keystream block each call of an OFB or CFB object uses, and when two
of them are equal. -/

namespace Gost.Spec

/-- `E` applied `k` times. -/
def iter (E : List UInt8 → List UInt8) : Nat → List UInt8 → List UInt8
  | 0, x => x
  | k + 1, x => E (iter E k x)

/-- The keystream block number `i` of OFB with a register of `m` blocks `iv` (GOST R 34.13-2015, clause 5.3): the
block `i mod m` of the initialisation vector, encrypted `i / m + 1` times. -/
def ofbBlock (E : List UInt8 → List UInt8) (m : Nat) (iv : List (List UInt8)) (i : Nat) : List UInt8 :=
  iter E (i / m + 1) (iv.getD (i % m) [])

/-- A sequence of blocks of `n` bytes laid over data of the length `l`. -/
def overlay (n l : Nat) (K : Nat → List UInt8) : List UInt8 :=
  (List.range l).map fun i => (K (i / n)).getD (i % n) 0

/-- A call on an OFB object at the position `N` of its keystream. Only whole blocks move the position. -/
def ofbStreamCall (E : List UInt8 → List UInt8) (n m : Nat) (iv : List (List UInt8)) (N : Nat) (op : CipherOp) :
    Nat × List UInt8 :=
  (N + op.data.length / n, xor op.data (overlay n op.data.length fun j => ofbBlock E m iv (N + j)))

end Gost.Spec

namespace Gost
open Spec (Alg blocks rest CipherOp opsRun iter ofbBlock overlay ofbStreamCall feed tap cfbCall)

theorem ofbReg_succ (E : Bytes → Bytes) (R : List Bytes) (i : Nat) :
    ofbReg E R (i + 1) = (ofbReg E R i).tail ++ [E ((ofbReg E R i).headD [])] := by
  induction i generalizing R with
  | zero => rfl
  | succ i ih => exact ih _

theorem ofbReg_add (E : Bytes → Bytes) (R : List Bytes) (i j : Nat) :
    ofbReg E R (i + j) = ofbReg E (ofbReg E R i) j := by
  induction i generalizing R with
  | zero => simp [ofbReg]
  | succ i ih => rw [Nat.succ_add]; exact ih _

theorem iter_succ (E : Bytes → Bytes) (k : Nat) (x : Bytes) : iter E (k + 1) x = E (iter E k x) := rfl

/-- The register after `i` steps holds the next `m` inputs of the cipher. -/
theorem ofbReg_get (E : Bytes → Bytes) (R : List Bytes) (hR : R ≠ []) (i : Nat) :
    ofbReg E R i = (List.range R.length).map
      fun j => iter E ((i + j) / R.length) (R.getD ((i + j) % R.length) []) := by
  have hm : 0 < R.length := List.length_pos_iff.2 hR
  induction i with
  | zero =>
    apply List.ext_getElem
    · simp [ofbReg]
    · intro j h1 h2
      simp only [ofbReg] at h1
      simp only [List.getElem_map, List.getElem_range, Nat.zero_add, Nat.div_eq_of_lt h1, Nat.mod_eq_of_lt h1,
        iter, ofbReg]
      simp [List.getD_eq_getElem?_getD, List.getElem?_eq_getElem h1]
  | succ i ih =>
    rw [ofbReg_succ, ih]
    generalize hl : R.length = m at *
    obtain ⟨m, rfl⟩ : ∃ k, m = k + 1 := ⟨m - 1, by omega⟩
    conv => lhs; rw [List.range_succ_eq_map]
    conv => rhs; rw [List.range_succ]
    rw [List.map_cons, List.tail_cons, List.headD_cons, List.map_append, List.map_map]
    congr 1
    · apply List.map_congr_left
      intro j _
      simp only [Function.comp, Nat.succ_eq_add_one]
      rw [show i + (j + 1) = i + 1 + j by omega]
    · simp only [List.map_cons, List.map_nil, Nat.add_zero]
      rw [show i + 1 + m = i + (m + 1) by omega, Nat.add_div_right _ (by omega), Nat.add_mod_right]
      rfl

theorem ofbReg_head (E : Bytes → Bytes) (R : List Bytes) (hR : R ≠ []) (i : Nat) :
    E ((ofbReg E R i).headD []) = ofbBlock E R.length R i := by
  have hm : 0 < R.length := List.length_pos_iff.2 hR
  rw [ofbReg_get E R hR]
  unfold ofbBlock
  rw [iter_succ]
  congr 1
  obtain ⟨k, hk⟩ : ∃ k, R.length = k + 1 := ⟨R.length - 1, by omega⟩
  generalize R.length = m at *
  subst hk
  rw [List.range_succ_eq_map]
  rfl

/-- C15, OFB, exactly: the calls of an OFB object, in any mixture, walk along one keystream; a call starts at the
block where the whole blocks of the calls before it end. So a call with a short last block and the next call share
that keystream block, and calls of whole blocks share no position. Equality of blocks at different positions is the
subject of `C15_ofb_blocks`. -/
theorem C15_ofb_exact (a : Alg) (kv ivv : PyVal) (key iv : Bytes) (hk : kv.data? = some key)
    (hl : key.length = 32) (hv : ivv.data? = some iv) (h0 : 0 < iv.length)
    (hiv : iv.length % a.blockSize = 0) (pad : Option Int) (dat : Option PyVal) :
    ∃ s, newCipher a.name kv modeOfb pad (some ivv) dat = .ok (.ofb s) ∧
      ∀ cs ops, cs.map CipherCall.op? = ops.map some →
        runHistory Ofb.encrypt Ofb.decrypt Fb.clear s cs =
          (opsRun (ofbStreamCall (a.encrypt key) a.blockSize (iv.length / a.blockSize)
            (blocks a.blockSize iv)) 0 ops).2.map .ok := by
  obtain ⟨o, D, h1, _, h3, hI⟩ := new_ofb a kv ivv key iv hk hl hv hiv pad dat
  have hpos : 0 < o.blockSize := Implements.pos
  rw [← h3] at hiv ⊢
  refine ⟨_, h1, ?_⟩
  intro cs ops hc
  obtain ⟨hR0, hRf⟩ := goodReg_blocks hpos h0 hiv
  generalize hRd : blocks o.blockSize iv = R0 at *
  have hm : R0.length = iv.length / o.blockSize := by rw [← hRd]; exact blocks_length _ _
  have hstep : ∀ (s : Fb) (N : Nat) (v : PyVal) (d : Bytes) (op : CipherOp), op.data = d →
      (s.obj = o ∧ s.iv = (ofbReg (a.encrypt key) R0 N).flatten) → v.data? = some d →
      ((Ofb.encrypt s v).1.obj = o ∧ (Ofb.encrypt s v).1.iv = (ofbReg (a.encrypt key) R0
        (ofbStreamCall (a.encrypt key) o.blockSize (iv.length / o.blockSize) R0 N op).1).flatten) ∧
      (Ofb.encrypt s v).2 =
        .ok (ofbStreamCall (a.encrypt key) o.blockSize (iv.length / o.blockSize) R0 N op).2 := by
    intro s N v d op hop h hv
    subst hop
    obtain ⟨rfl, hsiv⟩ := h
    rw [Ofb.encrypt_stream s hI _ (ofbReg_good hI R0 hR0 N) hsiv v _ hv]
    refine ⟨⟨rfl, ?_⟩, ?_⟩
    · show (ofbReg _ (ofbReg _ _ _) _).flatten = _
      rw [← ofbReg_add]; rfl
    · show Except.ok _ = Except.ok _
      congr 1
      show addXor op.data _ = addXor op.data _
      congr 1
      unfold overlay
      apply List.map_congr_left
      intro i _
      unfold gammaByte
      simp only
      rw [← ofbReg_add, ofbReg_head (a.encrypt key) R0 hR0.1, hm]
  exact (history_sim (fun (s : Fb) N => s.obj = o ∧ s.iv = (ofbReg (a.encrypt key) R0 N).flatten)
    Ofb.encrypt Ofb.decrypt Fb.clear
    (ofbStreamCall (a.encrypt key) o.blockSize (iv.length / o.blockSize) R0)
    (fun s N v d h hv => hstep s N v d (.encrypt d) rfl h hv)
    (fun s N v d h hv => by rw [Ofb.decrypt_eq s v d hv]; exact hstep s N v d (.decrypt d) rfl h hv)
    ⟨o, iv⟩ 0 ⟨rfl, hRf.symm⟩ cs ops hc).2

theorem iter_length {o : CipherObj} {E D : Bytes → Bytes} (hI : Implements o E D) (k : Nat) (x : Bytes)
    (hx : x.length = o.blockSize) : (iter E k x).length = o.blockSize := by
  induction k with
  | zero => exact hx
  | succ k ih => exact hI.enc_len _ ih

theorem iter_cancel {o : CipherObj} {E D : Bytes → Bytes} (hI : Implements o E D) (k l : Nat) (x y : Bytes)
    (hx : x.length = o.blockSize) (hy : y.length = o.blockSize) :
    iter E k x = iter E (l + k) y ↔ x = iter E l y := by
  induction k with
  | zero => rfl
  | succ k ih =>
    rw [← ih]
    constructor
    · intro h
      exact hI.E_inj _ _ (iter_length hI k x hx) (iter_length hI (l + k) y hy) h
    · intro h
      show E _ = E _
      rw [h]
      rfl

/-- C15, OFB: when two blocks of the keystream are equal. The blocks of the initialisation vector run along cycles of
the cipher, and a block is used twice only if a cycle closes or passes another block of the initialisation vector. -/
theorem C15_ofb_blocks (a : Alg) (key iv : Bytes) (hl : key.length = 32) (h0 : 0 < iv.length)
    (hiv : iv.length % a.blockSize = 0) (i j : Nat) (hij : i ≤ j) :
    ofbBlock (a.encrypt key) (iv.length / a.blockSize) (blocks a.blockSize iv) i =
        ofbBlock (a.encrypt key) (iv.length / a.blockSize) (blocks a.blockSize iv) j ↔
      (blocks a.blockSize iv).getD (i % (iv.length / a.blockSize)) [] =
        iter (a.encrypt key) (j / (iv.length / a.blockSize) - i / (iv.length / a.blockSize))
          ((blocks a.blockSize iv).getD (j % (iv.length / a.blockSize)) []) := by
  obtain ⟨o, D, -, -, h3, hI⟩ := new_ofb a (.bytes key) (.bytes iv) key iv rfl hl rfl hiv none none
  have hpos : 0 < o.blockSize := Implements.pos
  rw [← h3] at hiv ⊢
  have hlen := blocks_length o.blockSize iv
  have hm : 0 < iv.length / o.blockSize :=
    Nat.div_pos (Nat.le_of_dvd h0 (Nat.dvd_of_mod_eq_zero hiv)) hpos
  generalize iv.length / o.blockSize = m at *
  have hb : ∀ k, ((blocks o.blockSize iv).getD (k % m) []).length = o.blockSize := by
    intro k
    have hk : k % m < (blocks o.blockSize iv).length := by rw [hlen]; exact Nat.mod_lt _ hm
    rw [List.getD_eq_getElem?_getD, List.getElem?_eq_getElem hk]
    exact mem_blocks_length (List.getElem_mem hk)
  have hd : i / m ≤ j / m := Nat.div_le_div_right hij
  unfold ofbBlock
  rw [← iter_cancel hI (i / m + 1) (j / m - i / m) _ _ (hb i) (hb j),
    show j / m - i / m + (i / m + 1) = j / m + 1 by omega]

/-! ### CFB -/

/-- The log of a run of blocks and the blocks which were used. -/
theorem feed_get {m : Nat} (g h : Bytes → Bytes → Bytes) (hm : 0 < m) (X : List Bytes) (hX : m ≤ X.length)
    (bl : List Bytes) :
    ∃ Y, (feed m g h X bl).1 = X ++ Y ∧ Y.length = bl.length ∧
      (feed m g h X bl).2 = List.zipWith g
        ((List.range bl.length).map fun j => (X ++ Y).getD (X.length - m + j) []) bl := by
  induction bl generalizing X with
  | nil => exact ⟨[], by simp [feed], rfl, rfl⟩
  | cons b bl ih =>
    obtain ⟨Y, h1, h2, h3⟩ := ih (X ++ [h (tap m X) b]) (by simp; omega)
    refine ⟨h (tap m X) b :: Y, ?_, by simp [h2], ?_⟩
    · simp only [feed]; rw [h1]; simp
    · simp only [feed]
      rw [h3, List.length_cons, List.range_succ_eq_map, List.map_cons, List.zipWith_cons_cons, List.map_map]
      congr 1
      · congr 1
        unfold tap
        rw [Nat.add_zero, List.getD_eq_getElem?_getD, List.getD_eq_getElem?_getD,
          List.getElem?_append_left (by omega)]
      · congr 1
        apply List.map_congr_left
        intro j _
        simp only [Function.comp, List.append_assoc, List.singleton_append, List.length_append,
          List.length_singleton]
        congr 1
        omega

theorem feed_same {m : Nat} (g : Bytes → Bytes → Bytes) (X bl : List Bytes) :
    (feed m g g X bl).1 = X ++ (feed m g g X bl).2 := by
  induction bl generalizing X with
  | nil => simp [feed]
  | cons b bl ih => simp only [feed]; rw [ih]; simp

theorem feed_snd {m : Nat} (g : Bytes → Bytes → Bytes) (X bl : List Bytes) :
    (feed m g (fun _ b => b) X bl).1 = X ++ bl := by
  induction bl generalizing X with
  | nil => simp [feed]
  | cons b bl ih => simp only [feed]; rw [ih]; simp

theorem feed_mem {m n : Nat} (g h : Bytes → Bytes → Bytes)
    (hlen : ∀ r b : Bytes, r.length = n → b.length = n → (h r b).length = n) (hm : 0 < m) (X : List Bytes)
    (hX : m ≤ X.length) (hXl : ∀ b ∈ X, b.length = n) (bl : List Bytes) (hbl : ∀ b ∈ bl, b.length = n) :
    ∀ b ∈ (feed m g h X bl).1, b.length = n := by
  induction bl generalizing X with
  | nil => exact hXl
  | cons b bl ih =>
    simp only [feed]
    have ht : (tap m X).length = n := by
      unfold tap
      rw [List.getD_eq_getElem?_getD, List.getElem?_eq_getElem (show X.length - m < X.length by omega)]
      exact hXl _ (List.getElem_mem _)
    refine ih _ (by simp; omega) ?_ (fun c hc => hbl c (List.mem_cons_of_mem _ hc))
    intro c hc
    rcases List.mem_append.1 hc with hc | hc
    · exact hXl c hc
    · rw [List.mem_singleton.1 hc]
      exact hlen _ _ ht (hbl b List.mem_cons_self)

/-- Blocks masked one after the other, and a short block at the end, are the data masked as a whole. -/
theorem mask_overlay {n : Nat} (hn : 0 < n) (d : Bytes) (K : Nat → Bytes)
    (hK : ∀ j, j ≤ d.length / n → (K j).length = n) :
    (List.zipWith (fun k b => Spec.xor k b) ((List.range (blocks n d).length).map K) (blocks n d)).flatten ++
        Spec.xor (K (d.length / n)) (rest n d) =
      Spec.xor d (overlay n d.length K) := by
  have hbl : (blocks n d).length = d.length / n := blocks_length _ _
  have hq : d.length / n = d.length / n := rfl
  let K' : Nat → Bytes := fun j => if j ≤ d.length / n then K j else List.replicate n 0
  have hK' : ∀ j, (K' j).length = n := by
    intro j
    show (if _ then _ else _ : Bytes).length = n
    split
    · exact hK j (by assumption)
    · simp
  have ho : overlay n d.length K = (List.range d.length).map (gammaByte n K') := by
    apply List.map_congr_left
    intro i hi
    have : i / n ≤ d.length / n := Nat.div_le_div_right (by have := List.mem_range.1 hi; omega)
    show _ = (if _ then _ else _ : Bytes).getD _ _
    rw [if_pos this]
  have hm : (List.range (blocks n d).length).map K = (List.range (blocks n d).length).map K' := by
    apply List.map_congr_left
    intro i hi
    show _ = (if _ then _ else _ : Bytes)
    rw [if_pos (by have := List.mem_range.1 hi; omega)]
  have hl : K (d.length / n) = K' (d.length / n) := by
    show _ = (if _ then _ else _ : Bytes)
    rw [if_pos (Nat.le_refl _)]
  rw [ho, hm, hl]
  show _ = addXor d _
  rw [← addXor_gamma n hn _ hK' (d.length / n + 1) d
    (by rw [Nat.mul_succ]; have := Nat.div_add_mod d.length n
        have := Nat.mod_lt d.length hn; omega)]
  generalize d.length / n = q at hbl ⊢
  conv => rhs; rw [← flatten_blocks_rest n hn d]
  rw [List.range_succ, List.map_append, List.flatten_append, addXor_append,
    ← addXor_flatten_zip _ _ n, hbl]
  · simp only [List.map_cons, List.map_nil, List.flatten_singleton]
    congr 1
    · congr 1
      rw [List.zipWith_comm]
      congr 1
      funext k b
      exact addXor_comm _ _
    · exact addXor_comm _ _
  · intro k hk
    obtain ⟨i, _, rfl⟩ := List.mem_map.1 hk
    exact hK' i
  · simp [hbl]
  · intro b hb
    exact mem_blocks_length ((List.dropLast_sublist _).mem hb)
  · intro b hb
    exact Nat.le_of_eq (mem_blocks_length hb)
  · rw [flatten_length_const n _ (fun b hb => mem_blocks_length hb), hbl,
      flatten_length_const n]
    · simp
    · intro k hk
      obtain ⟨i, _, rfl⟩ := List.mem_map.1 hk
      exact hK' i

theorem cfbCall_stream {o : CipherObj} {E D : Bytes → Bytes} (hI : Implements o E D) {m : Nat} (hm : 0 < m)
    (X : List Bytes) (hX : m ≤ X.length) (hXl : ∀ b ∈ X, b.length = o.blockSize) (op : CipherOp) :
    ∃ Y, (cfbCall E o.blockSize m X op).1 = X ++ Y ∧ Y.length = op.data.length / o.blockSize ∧
      (∀ b ∈ X ++ Y, b.length = o.blockSize) ∧
      (cfbCall E o.blockSize m X op).2 = Spec.xor op.data
        (overlay o.blockSize op.data.length fun j => E ((X ++ Y).getD (X.length - m + j) [])) := by
  have hpos : 0 < o.blockSize := Implements.pos
  have key : ∀ (h : Bytes → Bytes → Bytes) (d : Bytes)
      (hlen : ∀ r b : Bytes, r.length = o.blockSize → b.length = o.blockSize → (h r b).length = o.blockSize),
      ∃ Y, (feed m (fun t b => Spec.xor (E t) b) h X (blocks o.blockSize d)).1 = X ++ Y ∧
        Y.length = d.length / o.blockSize ∧ (∀ b ∈ X ++ Y, b.length = o.blockSize) ∧
        (feed m (fun t b => Spec.xor (E t) b) h X (blocks o.blockSize d)).2.flatten ++
          Spec.xor (E (tap m (feed m (fun t b => Spec.xor (E t) b) h X (blocks o.blockSize d)).1))
            (rest o.blockSize d) =
        Spec.xor d (overlay o.blockSize d.length fun j => E ((X ++ Y).getD (X.length - m + j) [])) := by
    intro h d hlen
    obtain ⟨Y, h1, h2, h3⟩ := feed_get (fun t b => Spec.xor (E t) b) h hm X hX (blocks o.blockSize d)
    have hbl : (blocks o.blockSize d).length = d.length / o.blockSize := blocks_length _ _
    have h4 := feed_mem (fun t b => Spec.xor (E t) b) h hlen hm X hX hXl (blocks o.blockSize d)
      (fun b hb => mem_blocks_length hb)
    rw [h1] at h4
    refine ⟨Y, h1, by omega, h4, ?_⟩
    rw [← mask_overlay hpos d _ ?_, h3, h1]
    · congr 1
      · congr 1
        rw [List.zipWith_map_left, List.zipWith_map_left]
      · congr 2
        unfold tap
        congr 1
        simp only [List.length_append]
        omega
    · intro j hj
      refine hI.enc_len _ ?_
      have hlt : X.length - m + j < (X ++ Y).length := by simp only [List.length_append]; omega
      rw [List.getD_eq_getElem?_getD, List.getElem?_eq_getElem hlt]
      exact h4 _ (List.getElem_mem hlt)
  cases op with
  | encrypt d =>
    exact key (fun t b => Spec.xor (E t) b) d (fun r b hr hb => by
      show (addXor (E r) b).length = _
      simp [hI.enc_len r hr, hb])
  | decrypt d => exact key (fun _ b => b) d (fun r b _ hb => hb)

/-- The ciphertext of a call: what an encryption returns, what a decryption gets. -/
def _root_.Gost.Spec.CipherOp.cipherText (op : CipherOp) (out : Bytes) : Bytes :=
  match op with
  | .encrypt _ => out
  | .decrypt d => d

theorem cfbCall_log {o : CipherObj} {E D : Bytes → Bytes} (hI : Implements o E D) {m : Nat} (hm : 0 < m)
    (X : List Bytes) (hX : m ≤ X.length) (hXl : ∀ b ∈ X, b.length = o.blockSize) (op : CipherOp) :
    (cfbCall E o.blockSize m X op).1 =
      X ++ blocks o.blockSize (op.cipherText (cfbCall E o.blockSize m X op).2) := by
  have hpos : 0 < o.blockSize := Implements.pos
  cases op with
  | encrypt d =>
    have h1 := feed_same (m := m) (fun t b => Spec.xor (E t) b) X (blocks o.blockSize d)
    have h2 := feed_mem (m := m) (fun t b => Spec.xor (E t) b) (fun t b => Spec.xor (E t) b) (fun r b hr hb => by
      show (addXor (E r) b).length = _
      simp [hI.enc_len r hr, hb]) hm X hX hXl (blocks o.blockSize d) (fun b hb => mem_blocks_length hb)
    show (feed _ _ _ _ _).1 = X ++ blocks o.blockSize (_ ++ _)
    rw [h1] at h2 ⊢
    have h3 : (rest o.blockSize d).length < o.blockSize := by
      rw [rest_length]
      exact Nat.mod_lt _ hpos
    have h4 : ∀ t : Bytes, (Spec.xor t (rest o.blockSize d)).length < o.blockSize := by
      intro t
      show (addXor t _).length < _
      simp only [addXor_length]
      omega
    rw [blocks_flatten_append o.blockSize hpos _ (fun b hb => h2 b (List.mem_append_right _ hb)),
      blocks_of_lt _ _ (h4 _), List.append_nil]
  | decrypt d => exact feed_snd _ _ _

/-- C15, CFB, exactly. After any calls there is a log: the blocks of the initialisation vector and of the ciphertext of
all calls. The next call, in either direction, masks its data by the encryptions of blocks of the log (continued by its
own ciphertext), starting `m` blocks before the end; two of these keystream blocks are equal exactly when the blocks
of the log are. A short last block does not enter the log, so that the next call starts with the same keystream
block. -/
theorem C15_cfb_exact (a : Alg) (kv ivv : PyVal) (key iv : Bytes) (hk : kv.data? = some key)
    (hl : key.length = 32) (hv : ivv.data? = some iv) (h0 : 0 < iv.length)
    (hiv : iv.length % a.blockSize = 0) (pad : Option Int) (dat : Option PyVal) :
    ∃ s, newCipher a.name kv modeCfb pad (some ivv) dat = .ok (.cfb s) ∧
      ∀ cs ops, cs.map CipherCall.op? = ops.map some →
        ∃ outs : List Bytes, runHistory Cfb.encrypt Cfb.decrypt Fb.clear s cs = outs.map .ok ∧
          outs.length = ops.length ∧
        ∀ X, X = blocks a.blockSize iv ++
            (List.zipWith (fun (op : CipherOp) out => blocks a.blockSize (op.cipherText out)) ops outs).flatten →
          ∀ (c : CipherCall) (op : CipherOp), c.op? = some op →
            ∃ out, runHistory Cfb.encrypt Cfb.decrypt Fb.clear s (cs ++ [c]) = outs.map .ok ++ [.ok out] ∧
              (∀ b ∈ X ++ blocks a.blockSize (op.cipherText out), b.length = a.blockSize) ∧
              out = Spec.xor op.data (overlay a.blockSize op.data.length fun j =>
                a.encrypt key ((X ++ blocks a.blockSize (op.cipherText out)).getD
                  (X.length - iv.length / a.blockSize + j) [])) := by
  obtain ⟨s, h1, h2⟩ := C65_cfb a kv ivv key iv hk hl hv h0 hiv pad dat
  obtain ⟨o, D, -, -, h3, hI⟩ := new_cfb a kv ivv key iv hk hl hv hiv pad dat
  have hpos : 0 < o.blockSize := Implements.pos
  rw [← h3] at hiv h2 ⊢
  have hm : 0 < iv.length / o.blockSize :=
    Nat.div_pos (Nat.le_of_dvd h0 (Nat.dvd_of_mod_eq_zero hiv)) hpos
  have hrun : ∀ (ops : List CipherOp) (X : List Bytes), iv.length / o.blockSize ≤ X.length →
      (∀ b ∈ X, b.length = o.blockSize) →
      (opsRun (cfbCall (a.encrypt key) o.blockSize (iv.length / o.blockSize)) X ops).1 =
        X ++ (List.zipWith (fun (op : CipherOp) out => blocks o.blockSize (op.cipherText out)) ops
          (opsRun (cfbCall (a.encrypt key) o.blockSize (iv.length / o.blockSize)) X ops).2).flatten ∧
      (opsRun (cfbCall (a.encrypt key) o.blockSize (iv.length / o.blockSize)) X ops).2.length = ops.length ∧
      (∀ b ∈ (opsRun (cfbCall (a.encrypt key) o.blockSize (iv.length / o.blockSize)) X ops).1,
        b.length = o.blockSize) ∧
      ∀ op, (opsRun (cfbCall (a.encrypt key) o.blockSize (iv.length / o.blockSize)) X (ops ++ [op])).2 =
        (opsRun (cfbCall (a.encrypt key) o.blockSize (iv.length / o.blockSize)) X ops).2 ++
          [(cfbCall (a.encrypt key) o.blockSize (iv.length / o.blockSize)
            (opsRun (cfbCall (a.encrypt key) o.blockSize (iv.length / o.blockSize)) X ops).1 op).2] := by
    intro ops
    induction ops with
    | nil => intro X _ hXl; exact ⟨by simp [opsRun], rfl, hXl, fun op => rfl⟩
    | cons op ops ih =>
      intro X hX hXl
      have e1 := cfbCall_log hI hm X hX hXl op
      obtain ⟨Y, e2, -, e3, -⟩ := cfbCall_stream hI hm X hX hXl op
      obtain ⟨i1, i2, i3, i4⟩ := ih (cfbCall (a.encrypt key) o.blockSize (iv.length / o.blockSize) X op).1
        (by rw [e2]; simp only [List.length_append]; omega) (by rw [e2]; exact e3)
      refine ⟨?_, ?_, i3, fun op' => ?_⟩
      · simp only [opsRun, List.zipWith_cons_cons, List.flatten_cons]
        rw [← List.append_assoc, ← e1]
        exact i1
      · simp only [opsRun, List.length_cons, i2]
      · simp only [opsRun, List.cons_append]
        rw [i4]
  have hX0 : iv.length / o.blockSize ≤ (blocks o.blockSize iv).length := by rw [blocks_length]; exact Nat.le_refl _
  have hXl0 : ∀ b ∈ blocks o.blockSize iv, b.length = o.blockSize := fun b hb => mem_blocks_length hb
  refine ⟨s, h1, fun cs ops hc => ?_⟩
  obtain ⟨r1, r2, r3, r4⟩ := hrun ops _ hX0 hXl0
  refine ⟨_, (h2 cs ops hc).1, r2, ?_⟩
  rintro X hX c op hop
  rw [← r1] at hX
  have hlen : iv.length / o.blockSize ≤ X.length := by
    rw [hX, r1, List.length_append]; omega
  rw [← hX] at r3
  obtain ⟨Y, e1, -, e3, e4⟩ := cfbCall_stream hI hm X hlen r3 op
  have e5 := cfbCall_log hI hm X hlen r3 op
  have e6 : Y = blocks o.blockSize
      (op.cipherText (cfbCall (a.encrypt key) o.blockSize (iv.length / o.blockSize) X op).2) := by
    rw [e1] at e5
    exact List.append_cancel_left e5
  refine ⟨(cfbCall (a.encrypt key) o.blockSize (iv.length / o.blockSize) X op).2, ?_, by rw [← e6]; exact e3,
    by rw [← e6]; exact e4⟩
  have := (h2 (cs ++ [c]) (ops ++ [op]) (by simp [hc, hop])).1
  rw [this, r4 op, ← hX]
  simp

/-- C15, CFB: two keystream blocks are equal exactly when the blocks they come from are. -/
theorem C15_cfb_blocks (a : Alg) (key : Bytes) (hl : key.length = 32) (x y : Bytes) (hx : x.length = a.blockSize)
    (hy : y.length = a.blockSize) : a.encrypt key x = a.encrypt key y ↔ x = y := by
  obtain ⟨o, D, -, -, h3, hI⟩ := new_cfb a (.bytes key) (.bytes []) key [] rfl hl rfl (by simp) none none
  rw [← h3] at hx hy
  exact ⟨hI.E_inj x y hx hy, fun h => by rw [h]⟩

/-- C15 is false of CFB also for calls of whole blocks, and no implementation of the standard could change this: there
is a first block (its ciphertext is the initialisation vector) after which the second call uses the keystream block of
the first again. -/
theorem C15_cfb_negation (a : Alg) (kv ivv : PyVal) (key iv : Bytes) (hk : kv.data? = some key)
    (hl : key.length = 32) (hv : ivv.data? = some iv) (hiv : iv.length = a.blockSize) :
    ∃ (s : Fb) (d₁ k : Bytes), newCipher a.name kv modeCfb (initVect := some ivv) = .ok (.cfb s) ∧
      d₁.length = a.blockSize ∧ k.length = a.blockSize ∧
      ∀ d₂ : Bytes, d₂.length = a.blockSize →
        runHistory Cfb.encrypt Cfb.decrypt Fb.clear s [.encrypt (.bytes d₁), .encrypt (.bytes d₂)] =
          [.ok (Spec.xor k d₁), .ok (Spec.xor k d₂)] := by
  have hn := Alg.blockSize_pos a
  have hb : ∀ d : Bytes, d.length = a.blockSize → blocks a.blockSize d = [d] := by
    intro d hd
    have := blocks_cons a.blockSize d [] hn hd
    rwa [List.append_nil, blocks_nil] at this
  have hr : ∀ d : Bytes, d.length = a.blockSize → rest a.blockSize d = [] := by
    intro d hd
    have := rest_length a.blockSize d
    rw [hd, Nat.mod_self] at this
    exact List.eq_nil_of_length_eq_zero this
  obtain ⟨o, D, -, -, h3, hI⟩ := new_cfb a kv ivv key iv hk hl hv (by rw [hiv, Nat.mod_self]) none none
  have hE : (a.encrypt key iv).length = a.blockSize := by rw [← h3] at hiv ⊢; exact hI.enc_len iv hiv
  obtain ⟨s, h1, h2⟩ := C65_cfb a kv ivv key iv hk hl hv (by omega) (by rw [hiv, Nat.mod_self]) none none
  refine ⟨s, Spec.xor (a.encrypt key iv) iv, a.encrypt key iv, h1, ?_, hE, fun d₂ hd₂ => ?_⟩
  · show (addXor _ _).length = _
    rw [addXor_length, hE, hiv, Nat.min_self]
  · have hd₁ : (Spec.xor (a.encrypt key iv) iv).length = a.blockSize := by
      show (addXor _ _).length = _
      rw [addXor_length, hE, hiv, Nat.min_self]
    have hx : Spec.xor (a.encrypt key iv) (Spec.xor (a.encrypt key iv) iv) = iv := by
      exact addXor_cancel (a.encrypt key iv) iv (by omega)
    have hnil : ∀ x : Bytes, Spec.xor x [] = [] := fun x => by
      show addXor x [] = []
      simp [addXor]
    rw [(h2 _ [.encrypt (Spec.xor (a.encrypt key iv) iv), .encrypt d₂] rfl).1, hiv, Nat.div_self hn, hb iv hiv]
    simp only [opsRun, cfbCall, hb _ hd₁, hb _ hd₂, hr _ hd₁, hr _ hd₂, feed, hnil, List.map_cons, List.map_nil,
      List.flatten_cons, List.flatten_nil, List.append_nil, tap, List.length_singleton, List.length_append,
      Nat.sub_self, List.singleton_append]
    show [Except.ok (Spec.xor (a.encrypt key iv) (Spec.xor (a.encrypt key iv) iv)),
      Except.ok (Spec.xor (a.encrypt key (Spec.xor (a.encrypt key iv) (Spec.xor (a.encrypt key iv) iv))) d₂)] = _
    rw [hx]

/-- A register of two blocks: the third keystream block of OFB is the encryption of the first. -/
example (E : Bytes → Bytes) (x y : Bytes) : ofbBlock E 2 [x, y] 0 = E x ∧ ofbBlock E 2 [x, y] 1 = E y ∧
    ofbBlock E 2 [x, y] 2 = E (E x) := ⟨rfl, rfl, rfl⟩

/-- Arguments as in the theorems exist, with a register of three blocks. -/
example : Ex.key.length = 32 ∧ 0 < (Ex.count 9 24).length ∧ (Ex.count 9 24).length % Alg.magma.blockSize = 0 := by
  decide

/-- A call of 20 bytes after one of 19 bytes on a Magma object: the first starts at block 0, the second at block 2,
which the first has used in part. -/
example (E : Bytes → Bytes) (iv : List Bytes) :
    (opsRun (ofbStreamCall E 8 1 iv) 0 [.encrypt (List.replicate 19 0), .encrypt (List.replicate 20 0)]).1 = 4 ∧
    (opsRun (ofbStreamCall E 8 1 iv) 0 [.encrypt (List.replicate 19 0), .encrypt (List.replicate 20 0)]).2.map
      List.length = [19, 20] := by
  constructor
  · rfl
  · simp [opsRun, ofbStreamCall, Spec.xor, overlay, CipherOp.data]

end Gost
