import Verif.Props.RegisterEq
import Verif.Props.Malleability
import Verif.Props.Modes
import Verif.Props.MacChange

/-! Property C114: two objects made with the same key. What the initialisation vectors decide about their results. -/

namespace Gost
open Spec (Alg blocks rest)

/-- The initialisation vectors which the code takes when none is given, gost_34_13_2015.py 61-95. -/
def Spec.defaultIv (a : Alg) (mode : Int) : Bytes :=
  if mode = modeCtr then (match a with | .kuznechik => defaultIvCtrKuz | .magma => defaultIvCtrMagma)
  else if mode = modeCbc then (match a with | .kuznechik => defaultIvKuz | .magma => defaultIvCbcMagma)
  else match a with | .kuznechik => defaultIvKuz | .magma => defaultIvMagma

/-- C114: an object made without an initialisation vector is the object made with a constant one, the same for all keys
and all objects; it is one which the mode takes. -/
theorem C114_default (a : Alg) (kv : PyVal) (mode : Int)
    (hm : mode = modeCbc ∨ mode = modeCfb ∨ mode = modeOfb ∨ mode = modeCtr) (pad : Option Int) (dat : Option PyVal) :
    newCipher a.name kv mode pad none dat =
        newCipher a.name kv mode pad (some (.bytearray (Spec.defaultIv a mode))) dat ∧
      0 < (Spec.defaultIv a mode).length ∧
      if mode = modeCtr then (Spec.defaultIv a mode).length = a.blockSize / 2
      else (Spec.defaultIv a mode).length % a.blockSize = 0 := by
  rcases hm with rfl | rfl | rfl | rfl <;> cases a <;> exact ⟨rfl, by decide, by decide⟩

/-! ### Different vectors -/

theorem codeCtr_apart (n : Nat) {iv iv' : Bytes} (hl : iv.length = iv'.length) (hne : iv ≠ iv') (i j : Nat) :
    codeCtr n iv i ≠ codeCtr n iv' j := by
  intro h
  unfold codeCtr at h
  rw [List.append_assoc, List.append_assoc] at h
  exact hne (List.append_inj h hl).1

/-- **C114**, CTR: the keystreams of two objects with the same key and different initialisation vectors have no block in
common, however long they are. -/
theorem C114_ctr_apart (a : Alg) (kv ivv ivv' : PyVal) (key iv iv' : Bytes) (hk : kv.data? = some key)
    (hkl : key.length = 32) (hiv : ivv.data? = some iv) (hivl : iv.length = a.blockSize / 2)
    (hiv' : ivv'.data? = some iv') (hivl' : iv'.length = a.blockSize / 2) (hne : iv ≠ iv') (n m : Nat) :
    ∃ s s' out out', newCipher a.name kv modeCtr (initVect := some ivv) = .ok (.ctr s) ∧
      newCipher a.name kv modeCtr (initVect := some ivv') = .ok (.ctr s') ∧
      (s.encrypt (.bytes (List.replicate (n * a.blockSize) 0))).2 = .ok out ∧
      (s'.encrypt (.bytes (List.replicate (m * a.blockSize) 0))).2 = .ok out' ∧
      (blocks a.blockSize out).length = n ∧ (blocks a.blockSize out').length = m ∧
      ∀ x ∈ blocks a.blockSize out, x ∉ blocks a.blockSize out' := by
  have key_fact : ∀ (ivv : PyVal) (iv : Bytes), ivv.data? = some iv → iv.length = a.blockSize / 2 → ∀ n,
      ∃ s out, newCipher a.name kv modeCtr (initVect := some ivv) = .ok (.ctr s) ∧
        (s.encrypt (.bytes (List.replicate (n * a.blockSize) 0))).2 = .ok out ∧
        blocks a.blockSize out = (List.range n).map fun j => a.encrypt key (codeCtr a.blockSize iv j) := by
    intro ivv iv hiv hivl n
    obtain ⟨o, D, h1, hg, h3, hI⟩ := new_ctr a kv ivv key iv hk hkl hiv hivl none none
    have hpos := Alg.blockSize_pos a
    have hc := ctr0_length a iv hivl
    have hE : ∀ b : Bytes, b.length = a.blockSize → (a.encrypt key b).length = a.blockSize :=
      fun b hb => by rw [← h3] at hb ⊢; exact hI.enc_len b hb
    have hs := Ctr.encrypt_stream ⟨o, iv, ctr0 a.blockSize iv⟩ hI (by simp only [h3]; exact hc)
      (.bytes (List.replicate (n * a.blockSize) 0)) _ rfl
    have hcnt : ((List.replicate (n * a.blockSize) (0 : UInt8)).length + a.blockSize - 1) / a.blockSize = n := by
      rw [List.length_replicate, show n * a.blockSize + a.blockSize - 1 = a.blockSize * n + (a.blockSize - 1) by
        rw [Nat.mul_comm]; omega, Nat.mul_add_div hpos, Nat.div_eq_of_lt (by omega), Nat.add_zero]
    simp only [h3, hcnt] at hs
    have e0 : ctrStream (a.encrypt key) (ctr0 a.blockSize iv) n =
        ((List.range n).map fun j => a.encrypt key (codeCtr a.blockSize iv (0 + j))).flatten :=
      ctrStream_eq a (a.encrypt key) iv 0 n
    simp only [Nat.zero_add] at e0
    have l1 : ∀ b ∈ (List.range n).map (fun j => a.encrypt key (codeCtr a.blockSize iv j)), b.length = a.blockSize := by
      intro b hb
      obtain ⟨j, _, rfl⟩ := List.mem_map.1 hb
      exact hE _ (codeCtr_length a iv hivl _)
    have hlen : (ctrStream (a.encrypt key) (ctr0 a.blockSize iv) n).length = n * a.blockSize := by
      rw [e0, flatten_length_const _ _ l1]; simp; rw [Nat.mul_comm]
    rw [addXor_comm, addXor_zeros _ _ (by omega), e0] at hs
    exact ⟨_, _, h1, by rw [hs], blocks_flatten _ hpos _ l1⟩
  obtain ⟨s, out, h1, h2, h3⟩ := key_fact ivv iv hiv hivl n
  obtain ⟨s', out', h1', h2', h3'⟩ := key_fact ivv' iv' hiv' hivl' m
  obtain ⟨o, D, -, -, hb, hI⟩ := new_ctr a kv ivv key iv hk hkl hiv hivl none none
  refine ⟨s, s', out, out', h1, h1', h2, h2', by rw [h3]; simp, by rw [h3']; simp, ?_⟩
  rw [h3, h3']
  intro x hx hx'
  obtain ⟨i, -, rfl⟩ := List.mem_map.1 hx
  obtain ⟨j, -, e⟩ := List.mem_map.1 hx'
  refine codeCtr_apart a.blockSize (by rw [hivl, hivl']) hne i j (hI.E_inj _ _ ?_ ?_ e.symm)
  · rw [hb]; exact codeCtr_length a iv hivl _
  · rw [hb]; exact codeCtr_length a iv' hivl' _

/-! ### Equal vectors -/

theorem xor_cancel4 (a b k : UInt8) : (a ^^^ k) ^^^ (b ^^^ k) = a ^^^ b := by
  rw [UInt8.xor_comm b k, UInt8.xor_assoc, ← UInt8.xor_assoc k k b, UInt8.xor_self, UInt8.zero_xor]

theorem xor_streams (g : Nat → UInt8) (d d' : Bytes) :
    Spec.xor (Spec.xor d ((List.range d.length).map g)) (Spec.xor d' ((List.range d'.length).map g)) =
      Spec.xor d d' := by
  apply List.ext_getElem
  · simp [Spec.xor]
  · intro i h1 h2
    simp only [Spec.xor, List.getElem_zipWith, List.getElem_map, List.getElem_range]
    exact xor_cancel4 _ _ _

/-- **C114**, CTR and OFB: two objects in the same state (in particular two new objects with the same key and the same
vector, or without one) use the same keystream: the exclusive or of the results is that of the messages. -/
theorem C114_streams_equal (d d' : Bytes) (v v' : PyVal) (hv : v.data? = some d) (hv' : v'.data? = some d') :
    (∀ s : Ctr, Ctr.Reachable s → ∃ t t' out out', s.encrypt v = (t, .ok out) ∧ s.encrypt v' = (t', .ok out') ∧
      Spec.xor out out' = Spec.xor d d') ∧
    ∀ s : Fb, Ofb.Reachable s → s.iv ≠ [] → ∃ t t' out out', Ofb.encrypt s v = (t, .ok out) ∧
      Ofb.encrypt s v' = (t', .ok out') ∧ Spec.xor out out' = Spec.xor d d' := by
  constructor
  · intro s hs
    obtain ⟨g, next, h⟩ := C51_ctr_keystream s hs
    exact ⟨_, _, _, _, (h v d hv).1, (h v' d' hv').1, xor_streams g d d'⟩
  · intro s hs hiv
    obtain ⟨g, next, h⟩ := C51_ofb_keystream s hs hiv
    exact ⟨_, _, _, _, (h v d hv).1, (h v' d' hv').1, xor_streams g d d'⟩

/-- Two chains with the same start: as long as the inputs agree the outputs do, and where the inputs differ first, the
outputs differ. -/
theorem chain_prefix {f : Bytes → Bytes → Bytes} {n : Nat} {V C C' P P' : List Bytes} (hV : V ≠ [])
    (hVl : ∀ b ∈ V, b.length = n) (hCl : ∀ b ∈ C, b.length = n)
    (hP : ∀ b ∈ P, b.length = n) (hP' : ∀ b ∈ P', b.length = n)
    (hf : ∀ x p q : Bytes, x.length = n → p.length = n → q.length = n → f x p = f x q → p = q)
    (h : C = List.zipWith f (V ++ C) P) (h' : C' = List.zipWith f (V ++ C') P')
    (hC : C.length = P.length) (hC' : C'.length = P'.length) (k : Nat) (hk : k ≤ P.length) (hk' : k ≤ P'.length) :
    C.take k = C'.take k ↔ P.take k = P'.take k := by
  have hV1 : 0 < V.length := List.length_pos_iff.2 hV
  induction k with
  | zero => simp
  | succ k ih =>
    replace ih := ih (by omega) (by omega)
    have a1 : k < C.length := by omega
    have a2 : k < C'.length := by omega
    have b1 : k < P.length := by omega
    have b2 : k < P'.length := by omega
    have d1 : k < (V ++ C).length := by rw [List.length_append]; omega
    have d2 : k < (V ++ C').length := by rw [List.length_append]; omega
    have e1 : C[k] = f (V ++ C)[k] P[k] := by
      have := List.getElem_of_eq h a1
      rw [List.getElem_zipWith] at this
      exact this
    have e2 : C'[k] = f (V ++ C')[k] P'[k] := by
      have := List.getElem_of_eq h' a2
      rw [List.getElem_zipWith] at this
      exact this
    have len : (V ++ C)[k].length = n := by
      rcases List.mem_append.mp (List.getElem_mem d1) with m | m
      · exact hVl _ m
      · exact hCl _ m
    have snoc : ∀ {α : Type} (l m : List α) (hl : k < l.length) (hm : k < m.length),
        l.take (k + 1) = m.take (k + 1) ↔ l.take k = m.take k ∧ l[k] = m[k] := by
      intro α l m hl hm
      rw [List.take_succ_eq_append_getElem hl, List.take_succ_eq_append_getElem hm]
      constructor
      · intro e
        have := List.append_inj e (by rw [List.length_take, List.length_take]; omega)
        exact ⟨this.1, List.cons.inj this.2 |>.1⟩
      · rintro ⟨e, e'⟩
        rw [e, e']
    rw [snoc C C' a1 a2, snoc P P' b1 b2, propext ih]
    constructor
    · rintro ⟨e, e'⟩
      refine ⟨e, ?_⟩
      have q : (V ++ C)[k] = (V ++ C')[k] := by
        have t := ih.mpr e
        by_cases c : k < V.length
        · rw [List.getElem_append_left c, List.getElem_append_left c]
        · rw [List.getElem_append_right (by omega), List.getElem_append_right (by omega)]
          have := congrArg (fun l : List Bytes => l[k - V.length]?) t
          simp only [List.getElem?_take] at this
          rw [if_pos (by omega), if_pos (by omega), List.getElem?_eq_getElem (by omega),
            List.getElem?_eq_getElem (by omega)] at this
          exact Option.some.inj this
      rw [e1, e2, ← q] at e'
      exact hf _ _ _ len (hP _ (List.getElem_mem b1)) (hP' _ (List.getElem_mem b2)) e'
    · rintro ⟨e, e'⟩
      refine ⟨e, ?_⟩
      have q : (V ++ C)[k] = (V ++ C')[k] := by
        have t := ih.mpr e
        by_cases c : k < V.length
        · rw [List.getElem_append_left c, List.getElem_append_left c]
        · rw [List.getElem_append_right (by omega), List.getElem_append_right (by omega)]
          have := congrArg (fun l : List Bytes => l[k - V.length]?) t
          simp only [List.getElem?_take] at this
          rw [if_pos (by omega), if_pos (by omega), List.getElem?_eq_getElem (by omega),
            List.getElem?_eq_getElem (by omega)] at this
          exact Option.some.inj this
      rw [e1, e2, q, e']

theorem take_blocks (n : Nat) (hn : 0 < n) (d : Bytes) (k : Nat) (hk : k ≤ d.length / n) :
    blocks n (d.take (k * n)) = (blocks n d).take k ∧ ((blocks n d).take k).flatten = d.take (k * n) := by
  have hkn : k * n ≤ d.length := (Nat.le_div_iff_mul_le hn).1 hk
  have hl : (d.take (k * n)).length = k * n := by rw [List.length_take]; omega
  have e : blocks n (d.take (k * n)) = (blocks n d).take k := by
    have h := blocks_append n hn (d.take (k * n)) (d.drop (k * n)) (by rw [hl]; exact Nat.dvd_mul_left ..)
    rw [List.take_append_drop] at h
    rw [h, List.take_left' (by rw [blocks_length, hl, Nat.mul_div_cancel _ hn])]
  refine ⟨e, ?_⟩
  rw [← e]
  exact flatten_blocks n hn _ (by rw [hl]; exact Nat.dvd_mul_left ..)

theorem take_blocks_iff (n : Nat) (hn : 0 < n) (d d' : Bytes) (k : Nat) (hk : k ≤ d.length / n)
    (hk' : k ≤ d'.length / n) : (blocks n d).take k = (blocks n d').take k ↔ d.take (k * n) = d'.take (k * n) := by
  constructor
  · intro h
    rw [← (take_blocks n hn d k hk).2, h, (take_blocks n hn d' k hk').2]
  · intro h
    rw [← (take_blocks n hn d k hk).1, h, (take_blocks n hn d' k hk').1]

theorem encrypt_perm (a : Alg) (key : Bytes) (hkl : key.length = 32) :
    (∀ b : Bytes, b.length = a.blockSize → (a.encrypt key b).length = a.blockSize) ∧
      ∀ b c : Bytes, b.length = a.blockSize → c.length = a.blockSize → a.encrypt key b = a.encrypt key c → b = c := by
  obtain ⟨o, D, -, -, h3, hI⟩ := baseInit_implements a (.bytes key) key rfl hkl
  rw [← h3]
  exact ⟨hI.enc_len, hI.E_inj⟩

/-- **C114**, CBC: two objects with the same key, the same vector and the same padding. As long as the messages agree
the results agree, and from the first block in which the messages differ the results differ; the results so show the
length of the common beginning (in whole blocks) of the two messages. -/
theorem C114_cbc_equal (a : Alg) (kv ivv : PyVal) (key iv : Bytes) (pad : Int) (hk : kv.data? = some key)
    (hkl : key.length = 32) (hiv : ivv.data? = some iv) (hiv0 : 0 < iv.length) (hivl : iv.length % a.blockSize = 0)
    (hpad : pad = padMode1 ∨ pad = padMode2) (v v' : PyVal) (d d' : Bytes) (hv : v.data? = some d)
    (hv' : v'.data? = some d') :
    ∃ s t t' out out', newCipher a.name kv modeCbc (padMode := some pad) (initVect := some ivv) = .ok (.cbc s) ∧
      s.encrypt v = (t, .ok out) ∧ s.encrypt v' = (t', .ok out') ∧
      ∀ k, k * a.blockSize ≤ d.length → k * a.blockSize ≤ d'.length →
        (out.take (k * a.blockSize) = out'.take (k * a.blockSize) ↔
          d.take (k * a.blockSize) = d'.take (k * a.blockSize)) := by
  have hpos := Alg.blockSize_pos a
  obtain ⟨hE, hinj⟩ := encrypt_perm a key hkl
  obtain ⟨s, t, out, M, h1, h2, z, m, hl, hc, -⟩ := C16_cbc_encrypt a kv ivv key iv pad hk hkl hiv hiv0 hivl hpad v d hv
  obtain ⟨s₂, t', out', M', h1', h2', z', m', hl', hc', -⟩ :=
    C16_cbc_encrypt a kv ivv key iv pad hk hkl hiv hiv0 hivl hpad v' d' hv'
  rw [h1] at h1'
  cases h1'
  refine ⟨s, t, t', out, out', h1, h2, h2', fun k hkd hkd' => ?_⟩
  have hM : ∃ p, M = d ++ p := by
    rcases hpad with e | e
    · obtain ⟨_, e, _⟩ := z e; exact ⟨_, e⟩
    · obtain ⟨_, e, _⟩ := m e; exact ⟨_, e⟩
  have hM' : ∃ p, M' = d' ++ p := by
    rcases hpad with e | e
    · obtain ⟨_, e, _⟩ := z' e; exact ⟨_, e⟩
    · obtain ⟨_, e, _⟩ := m' e; exact ⟨_, e⟩
  obtain ⟨p, rfl⟩ := hM
  obtain ⟨p', rfl⟩ := hM'
  have le1 : k ≤ (d ++ p).length / a.blockSize :=
    (Nat.le_div_iff_mul_le hpos).2 (by rw [List.length_append]; omega)
  have le2 : k ≤ (d' ++ p').length / a.blockSize :=
    (Nat.le_div_iff_mul_le hpos).2 (by rw [List.length_append]; omega)
  have hV : blocks a.blockSize iv ≠ [] := by
    intro e
    have := congrArg List.length e
    rw [blocks_length] at this
    have q := Nat.div_add_mod iv.length a.blockSize
    rw [hivl, this] at q
    simp at q; omega
  have main := chain_prefix (f := fun x p => a.encrypt key (Spec.xor x p)) (n := a.blockSize) hV
    (fun b hb => mem_blocks_length hb) (fun b hb => mem_blocks_length hb)
    (fun b hb => mem_blocks_length hb) (fun b hb => mem_blocks_length hb)
    (fun x p q hx hp hq e => by
      refine xor_inj_left hp hq hx (hinj _ _ ?_ ?_ e)
      · simp [Spec.xor, hx, hp]
      · simp [Spec.xor, hx, hq])
    hc hc' (by rw [blocks_length, blocks_length, hl]) (by rw [blocks_length, blocks_length, hl']) k
    (by rw [blocks_length]; exact le1) (by rw [blocks_length]; exact le2)
  rw [take_blocks_iff _ hpos out out' k (by rw [hl]; exact le1) (by rw [hl']; exact le2),
    take_blocks_iff _ hpos _ _ k le1 le2, List.take_append_of_le_length hkd, List.take_append_of_le_length hkd'] at main
  exact main

/-- Number `k` of the blocks, the last one possibly shorter. -/
def Spec.chunk (n : Nat) (d : Bytes) (k : Nat) : Bytes := (d.drop (n * k)).take n

theorem cfb_chunk {n : Nat} (hn : 0 < n) {E : Bytes → Bytes} {V : List Bytes} {out d : Bytes} (hV : V ≠ [])
    (hl : out.length = d.length)
    (hb : blocks n out = List.zipWith (fun x p => Spec.xor (E x) p) (V ++ blocks n out) (blocks n d))
    (hr : rest n out = Spec.xor (E ((V ++ blocks n out).getD (d.length / n) [])) (rest n d))
    (k : Nat) (hk : k * n ≤ d.length) :
    Spec.chunk n out k = Spec.xor (E ((V ++ blocks n out).getD k [])) (Spec.chunk n d k) := by
  have hV1 : 0 < V.length := List.length_pos_iff.2 hV
  have hk' : k ≤ d.length / n := (Nat.le_div_iff_mul_le hn).2 hk
  have hlen : (blocks n out).length = d.length / n := by rw [blocks_length, hl]
  by_cases c : k < d.length / n
  · have a1 : k < (blocks n out).length := by omega
    have b1 : k < (blocks n d).length := by rw [blocks_length]; exact c
    have d1 : k < (V ++ blocks n out).length := by rw [List.length_append]; omega
    have e : (blocks n out)[k] = Spec.xor (E (V ++ blocks n out)[k]) (blocks n d)[k] := by
      have := List.getElem_of_eq hb a1
      rw [List.getElem_zipWith] at this
      exact this
    rw [List.getD_eq_getElem?_getD, List.getElem?_eq_getElem d1, Option.getD_some]
    rw [blocks_getElem, blocks_getElem] at e
    exact e
  · have ek : k = d.length / n := by omega
    have shape : ∀ x : Bytes, x.length = d.length → Spec.chunk n x k = rest n x := by
      intro x hx
      unfold Spec.chunk rest
      rw [hx, ← ek, List.take_of_length_le]
      rw [List.length_drop, hx, ek]
      have := Nat.div_add_mod d.length n
      have := Nat.mod_lt d.length hn
      omega
    rw [shape out hl, shape d rfl, hr, ek]

theorem xor_chunks {K p q : Bytes} (hp : p.length ≤ K.length) (hq : q.length ≤ K.length) :
    Spec.xor (Spec.xor K p) (Spec.xor K q) = Spec.xor p q := by
  apply List.ext_getElem
  · simp [Spec.xor]; omega
  · intro i h1 h2
    simp only [Spec.xor, List.getElem_zipWith]
    rw [UInt8.xor_comm _ (p[i]'_), UInt8.xor_comm _ (q[i]'_)]
    exact xor_cancel4 _ _ _

/-- **C114**, CFB: two objects with the same key and the same vector. The results agree in as many whole blocks as the
messages do, and the exclusive or of the two blocks which follow (those which differ first, possibly shorter than a
block) is that of the blocks of the messages. -/
theorem C114_cfb_equal (a : Alg) (kv ivv : PyVal) (key iv : Bytes) (hk : kv.data? = some key)
    (hkl : key.length = 32) (hiv : ivv.data? = some iv) (hiv0 : 0 < iv.length) (hivl : iv.length % a.blockSize = 0)
    (v v' : PyVal) (d d' : Bytes) (hv : v.data? = some d) (hv' : v'.data? = some d') :
    ∃ s t t' out out', newCipher a.name kv modeCfb (initVect := some ivv) = .ok (.cfb s) ∧
      Cfb.encrypt s v = (t, .ok out) ∧ Cfb.encrypt s v' = (t', .ok out') ∧
      ∀ k, k * a.blockSize ≤ d.length → k * a.blockSize ≤ d'.length →
        (out.take (k * a.blockSize) = out'.take (k * a.blockSize) ↔
          d.take (k * a.blockSize) = d'.take (k * a.blockSize)) ∧
        (d.take (k * a.blockSize) = d'.take (k * a.blockSize) →
          Spec.xor (Spec.chunk a.blockSize out k) (Spec.chunk a.blockSize out' k) =
            Spec.xor (Spec.chunk a.blockSize d k) (Spec.chunk a.blockSize d' k)) := by
  have hpos := Alg.blockSize_pos a
  obtain ⟨hE, hinj⟩ := encrypt_perm a key hkl
  obtain ⟨s, t, out, h1, h2, hl, hc, hr, -⟩ := C16_cfb_encrypt a kv ivv key iv hk hkl hiv hiv0 hivl v d hv
  obtain ⟨s₂, t', out', h1', h2', hl', hc', hr', -⟩ := C16_cfb_encrypt a kv ivv key iv hk hkl hiv hiv0 hivl v' d' hv'
  rw [h1] at h1'
  cases h1'
  refine ⟨s, t, t', out, out', h1, h2, h2', fun k hkd hkd' => ?_⟩
  have le1 : k ≤ d.length / a.blockSize := (Nat.le_div_iff_mul_le hpos).2 hkd
  have le2 : k ≤ d'.length / a.blockSize := (Nat.le_div_iff_mul_le hpos).2 hkd'
  have hV : blocks a.blockSize iv ≠ [] := by
    intro e
    have := congrArg List.length e
    rw [blocks_length] at this
    have q := Nat.div_add_mod iv.length a.blockSize
    rw [hivl, this] at q
    simp at q; omega
  have main := chain_prefix (f := fun x p => Spec.xor (a.encrypt key x) p) (n := a.blockSize) hV
    (fun b hb => mem_blocks_length hb) (fun b hb => mem_blocks_length hb)
    (fun b hb => mem_blocks_length hb) (fun b hb => mem_blocks_length hb)
    (fun x p q hx hp hq e => xor_inj_left hp hq (hE x hx) e)
    hc hc' (by rw [blocks_length, blocks_length, hl]) (by rw [blocks_length, blocks_length, hl']) k
    (by rw [blocks_length]; exact le1) (by rw [blocks_length]; exact le2)
  have iff := main
  rw [take_blocks_iff _ hpos out out' k (by rw [hl]; exact le1) (by rw [hl']; exact le2),
    take_blocks_iff _ hpos _ _ k le1 le2] at iff
  refine ⟨iff, fun heq => ?_⟩
  have hsame : (blocks a.blockSize out).take k = (blocks a.blockSize out').take k :=
    (take_blocks_iff _ hpos out out' k (by rw [hl]; exact le1) (by rw [hl']; exact le2)).2 (iff.2 heq)
  have hV1 : 0 < (blocks a.blockSize iv).length := List.length_pos_iff.2 hV
  have reg : (blocks a.blockSize iv ++ blocks a.blockSize out).getD k [] =
      (blocks a.blockSize iv ++ blocks a.blockSize out').getD k [] := by
    rw [List.getD_eq_getElem?_getD, List.getD_eq_getElem?_getD]
    by_cases c : k < (blocks a.blockSize iv).length
    · rw [List.getElem?_append_left c, List.getElem?_append_left c]
    · rw [List.getElem?_append_right (by omega), List.getElem?_append_right (by omega)]
      have := congrArg (fun l : List Bytes => l[k - (blocks a.blockSize iv).length]?) hsame
      simp only [List.getElem?_take] at this
      rw [if_pos (by omega), if_pos (by omega)] at this
      rw [this]
  have regl : ((blocks a.blockSize iv ++ blocks a.blockSize out).getD k []).length = a.blockSize := by
    have d1 : k < (blocks a.blockSize iv ++ blocks a.blockSize out).length := by
      rw [List.length_append, blocks_length _ out, hl]; omega
    rw [List.getD_eq_getElem?_getD, List.getElem?_eq_getElem d1, Option.getD_some]
    rcases List.mem_append.mp (List.getElem_mem d1) with q | q
    · exact mem_blocks_length q
    · exact mem_blocks_length q
  rw [cfb_chunk hpos hV hl hc hr k hkd, cfb_chunk hpos hV hl' hc' hr' k hkd', ← reg]
  apply xor_chunks
  · rw [hE _ regl]; unfold Spec.chunk; rw [List.length_take]; omega
  · rw [hE _ regl]; unfold Spec.chunk; rw [List.length_take]; omega

/-- C114, what follows for the defaults: two CTR objects (or two OFB objects) made with the same key and without a vector
encrypt with the same keystream, whatever the key is. -/
theorem C114_default_streams (a : Alg) (kv : PyVal) (key : Bytes) (hk : kv.data? = some key) (hkl : key.length = 32)
    (v v' : PyVal) (d d' : Bytes) (hv : v.data? = some d) (hv' : v'.data? = some d') :
    (∃ s t t' out out', newCipher a.name kv modeCtr = .ok (.ctr s) ∧ s.encrypt v = (t, .ok out) ∧
      s.encrypt v' = (t', .ok out') ∧ Spec.xor out out' = Spec.xor d d') ∧
    ∃ s t t' out out', newCipher a.name kv modeOfb = .ok (.ofb s) ∧ Ofb.encrypt s v = (t, .ok out) ∧
      Ofb.encrypt s v' = (t', .ok out') ∧ Spec.xor out out' = Spec.xor d d' := by
  obtain ⟨e1, -, l1⟩ := C114_default a kv modeCtr (by simp) none none
  obtain ⟨e2, p2, l2⟩ := C114_default a kv modeOfb (by simp) none none
  rw [if_pos rfl] at l1
  rw [if_neg (by decide)] at l2
  obtain ⟨o, D, h1, -⟩ := new_ctr a kv (.bytearray (Spec.defaultIv a modeCtr)) key _ hk hkl rfl l1 none none
  obtain ⟨o', D', h1', -⟩ := new_ofb a kv (.bytearray (Spec.defaultIv a modeOfb)) key _ hk hkl rfl l2 none none
  obtain ⟨c, f⟩ := C114_streams_equal d d' v v' hv hv'
  rw [← e1] at h1
  rw [← e2] at h1'
  obtain ⟨t, t', out, out', r⟩ := c _ (.new h1)
  obtain ⟨u, u', w, w', r'⟩ := f _ (.new h1') (fun e => by simp only at e; rw [e] at p2; simp at p2)
  exact ⟨⟨_, t, t', out, out', h1, r⟩, _, u, u', w, w', h1', r'⟩

/-! Cases which meet the hypotheses. -/

example : ∃ s s' out out', newCipher Alg.magma.name (.bytes Ex.key) modeCtr (initVect := some (.bytes (Ex.count 1 4))) =
      .ok (.ctr s) ∧
    newCipher Alg.magma.name (.bytes Ex.key) modeCtr (initVect := some (.bytes (Ex.count 2 4))) = .ok (.ctr s') ∧
    (s.encrypt (.bytes (List.replicate (300 * 8) 0))).2 = .ok out ∧
    (s'.encrypt (.bytes (List.replicate (5 * 8) 0))).2 = .ok out' ∧
    (blocks 8 out).length = 300 ∧ (blocks 8 out').length = 5 ∧ ∀ x ∈ blocks 8 out, x ∉ blocks 8 out' :=
  C114_ctr_apart .magma (.bytes Ex.key) (.bytes (Ex.count 1 4)) (.bytes (Ex.count 2 4)) _ _ _ rfl (by decide) rfl
    (by decide) rfl (by decide) (by decide) 300 5

/-- Two messages which begin with the same two blocks and differ in the third: so do the results. -/
example : ∃ s t t' out out', newCipher Alg.magma.name (.bytes Ex.key) modeCbc (padMode := some padMode1)
      (initVect := some (.bytes (Ex.count 9 24))) = .ok (.cbc s) ∧
    s.encrypt (.bytes (Ex.count 1 24)) = (t, .ok out) ∧
    s.encrypt (.bytes (Ex.count 1 16 ++ Ex.count 7 30)) = (t', .ok out') ∧
    out.take 16 = out'.take 16 ∧ out.take 24 ≠ out'.take 24 := by
  obtain ⟨s, t, t', out, out', h1, h2, h3, h⟩ := C114_cbc_equal .magma (.bytes Ex.key) (.bytes (Ex.count 9 24)) _ _
    padMode1 rfl (by decide) rfl (by decide) (by decide) (.inl rfl) (.bytes (Ex.count 1 24))
    (.bytes (Ex.count 1 16 ++ Ex.count 7 30)) _ _ rfl rfl
  exact ⟨s, t, t', out, out', h1, h2, h3, (h 2 (by decide) (by decide)).2 (by decide),
    fun e => absurd ((h 3 (by decide) (by decide)).1 e) (by decide)⟩

example : ∃ s t t' out out', newCipher Alg.kuznechik.name (.bytes Ex.key) modeCfb
      (initVect := some (.bytes (Ex.count 9 16))) = .ok (.cfb s) ∧
    Cfb.encrypt s (.bytes (Ex.count 1 20)) = (t, .ok out) ∧
    Cfb.encrypt s (.bytes (Ex.count 1 16 ++ Ex.count 7 4)) = (t', .ok out') ∧
    Spec.xor (Spec.chunk 16 out 1) (Spec.chunk 16 out' 1) = [22, 26, 26, 30] := by
  obtain ⟨s, t, t', out, out', h1, h2, h3, h⟩ := C114_cfb_equal .kuznechik (.bytes Ex.key) (.bytes (Ex.count 9 16)) _ _
    rfl (by decide) rfl (by decide) (by decide) (.bytes (Ex.count 1 20))
    (.bytes (Ex.count 1 16 ++ Ex.count 7 4)) _ _ rfl rfl
  exact ⟨s, t, t', out, out', h1, h2, h3, ((h 1 (by decide) (by decide)).2 (by decide)).trans (by decide)⟩

end Gost
