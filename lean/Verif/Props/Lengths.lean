import Verif.Proofs.Stream
import Verif.Props.Examples
import Verif.Props.RoundTrip

/-! Properties C77 and C78: lengths of the results of the modes; empty initialisation vectors. -/

namespace Gost
open Spec (Alg blocks rest)

/-- The least multiple of `n` which is not below `L` and not zero. -/
def roundUp (n L : Nat) : Nat := n * max 1 ((L + n - 1) / n)

/-- `roundUp` is what its comment says. -/
theorem roundUp_least (n L : Nat) (hn : 0 < n) :
    n ∣ roundUp n L ∧ L ≤ roundUp n L ∧ 0 < roundUp n L ∧
      ∀ m, n ∣ m → L ≤ m → 0 < m → roundUp n L ≤ m := by
  unfold roundUp
  refine ⟨Nat.dvd_mul_right .., ?_, Nat.mul_pos hn (by omega), ?_⟩
  · have h1 := Nat.div_add_mod (L + n - 1) n
    have h2 := Nat.mod_lt (L + n - 1) hn
    have h3 : n * ((L + n - 1) / n) ≤ n * max 1 ((L + n - 1) / n) := Nat.mul_le_mul_left _ (by omega)
    omega
  · rintro m ⟨k, rfl⟩ hL hm
    refine Nat.mul_le_mul_left _ ?_
    have hk : 0 < k := Nat.pos_of_mul_pos_left hm
    have : (L + n - 1) / n < k + 1 := by
      rw [Nat.div_lt_iff_lt_mul hn, Nat.succ_mul, Nat.mul_comm k n]
      omega
    omega

theorem padded_length (n : Nat) (hn : 0 < n) (d : Bytes) (m : Int) (hm : PadOk m) :
    (setPadding n d m).length = if m = padMode1 then roundUp n d.length else roundUp n d.length + n := by
  have key : d.length + getPadSize n d = roundUp n d.length := by
    obtain ⟨h1, h2, h3, h4⟩ := roundUp_least n d.length hn
    refine Nat.le_antisymm ?_ (h4 _ (getPadSize_dvd n hn d) (by omega) ?_)
    · obtain ⟨a, ha⟩ := getPadSize_dvd n hn d
      obtain ⟨b, hb⟩ := h1
      by_cases h0 : d = []
      · subst h0
        rw [getPadSize_nil n hn, List.length_nil, Nat.zero_add]
        exact Nat.le_of_dvd h3 ⟨b, hb⟩
      · have hlt : getPadSize n d < n := (getPadSize_lt n d h0).resolve_right (by omega)
        rw [ha, hb]
        refine Nat.mul_le_mul_left _ ?_
        have : n * a < n * (b + 1) := by rw [Nat.mul_succ, ← ha, ← hb]; omega
        have := Nat.lt_of_mul_lt_mul_left this
        omega
    · by_cases h0 : d = []
      · subst h0
        rw [getPadSize_nil n hn]; simpa using hn
      · have := List.length_pos_iff.2 h0
        omega
  have hne : padMode2 ≠ padMode1 := by decide
  rcases hm with rfl | rfl
  · rw [setPadding_1, if_pos rfl, List.length_append, List.length_replicate, key]
  · rw [setPadding_2 n hn, if_neg hne, List.length_append, List.length_cons, List.length_replicate, ← key]
    omega

theorem mul_div_self {n L : Nat} (h : n ∣ L) : n * (L / n) = L := Nat.mul_div_cancel' h

/-- C77 for ECB. In every reachable object, cleared or not, `encrypt` and `decrypt` of byte data
succeed. The result of `encrypt` has the length rounded up to a whole number of blocks, at least
one, and with PAD_MODE_2 one block more; `decrypt` drops an incomplete last block. -/
theorem C77_ecb (s : Ecb) (hs : Ecb.Reachable s) (v : PyVal) (d : Bytes) (hv : v.data? = some d) :
    (∃ c, (s.encrypt v).2 = .ok c ∧ c.length =
      if s.padMode = padMode1 then roundUp s.obj.blockSize d.length
      else roundUp s.obj.blockSize d.length + s.obj.blockSize) ∧
    (∃ m, (s.decrypt v).2 = .ok m ∧ m.length = d.length - d.length % s.obj.blockSize) := by
  obtain ⟨hg, hp⟩ := hs.inv
  have hpos : 0 < s.obj.blockSize := Implements.pos
  refine ⟨⟨_, congrArg Prod.snd (Ecb.encrypt_ok s hg.implements v d hv), ?_⟩,
    ⟨_, congrArg Prod.snd (Ecb.decrypt_ok s hg.implements v d hv), ?_⟩⟩
  · rw [flatten_length_const s.obj.blockSize, List.length_map, blocks_length,
      mul_div_self (setPadding_dvd _ hpos d _ hp), padded_length _ hpos d _ hp]
    intro b hb
    obtain ⟨x, hx, rfl⟩ := List.mem_map.1 hb
    exact hg.implements.enc_len x (mem_blocks_length hx)
  · rw [flatten_length_const s.obj.blockSize, List.length_map, blocks_length]
    · have := Nat.div_add_mod d.length s.obj.blockSize
      omega
    · intro b hb
      obtain ⟨x, hx, rfl⟩ := List.mem_map.1 hb
      exact hg.implements.dec_len x (mem_blocks_length hx)

/-- C77 for CBC: as in ECB if the register is not empty. -/
theorem C77_cbc (s : Cbc) (hs : Cbc.Reachable s) (hiv : s.iv ≠ []) (v : PyVal) (d : Bytes)
    (hv : v.data? = some d) :
    (∃ c, (s.encrypt v).2 = .ok c ∧ c.length =
      if s.padMode = padMode1 then roundUp s.obj.blockSize d.length
      else roundUp s.obj.blockSize d.length + s.obj.blockSize) ∧
    (∃ m, (s.decrypt v).2 = .ok m ∧ m.length = d.length - d.length % s.obj.blockSize) := by
  obtain ⟨hg, hp, hR⟩ := hs.inv
  obtain ⟨R, hR, hiv⟩ := hR.reg hiv
  have hpos : 0 < s.obj.blockSize := Implements.pos
  refine ⟨⟨_, congrArg Prod.snd (Cbc.encrypt_ok s hg.implements R hR hiv v d hv), ?_⟩,
    ⟨_, congrArg Prod.snd (Cbc.decrypt_ok s hg.implements R hR hiv v d hv), ?_⟩⟩
  · rw [flatten_length_const s.obj.blockSize, mapAccum_length, blocks_length,
      mul_div_self (setPadding_dvd _ hpos d _ hp), padded_length _ hpos d _ hp]
    exact (regRun_good s.obj.blockSize s.obj.blockSize (cbcG s.obj.E) (cbcG s.obj.E)
      (fun r b hr hb => cbcG_length hg.implements r b hr hb)
      (fun r b hr hb => cbcG_length hg.implements r b hr hb) R _ hR
      (fun b hb => mem_blocks_length hb)).2
  · rw [flatten_length_const s.obj.blockSize, mapAccum_length, blocks_length]
    · have := Nat.div_add_mod d.length s.obj.blockSize
      omega
    · exact (regRun_good s.obj.blockSize s.obj.blockSize (cbcG' s.obj.D) sndB (fun _ _ _ hb => hb)
        (fun r b hr hb => by simp [cbcG', hr, hg.implements.dec_len b hb]) R _ hR
        (fun b hb => mem_blocks_length hb)).2

/-- The length of the result of a CFB or OFB call. -/
theorem fb_length (o : CipherObj) (hg : o.Good) (h : Bytes → Bytes → Bytes)
    (hlen : ∀ r b, r.length = o.blockSize → b.length = o.blockSize → (h r b).length = o.blockSize)
    (R : List Bytes) (hR : GoodReg o.blockSize R) (d : Bytes) :
    ((mapAccum (regStep (maskG o.E) h) R (blocks o.blockSize d)).2.flatten ++
      maskG o.E ((mapAccum (regStep (maskG o.E) h) R (blocks o.blockSize d)).1.headD [])
        (rest o.blockSize d)).length = d.length := by
  have hpos : 0 < o.blockSize := Implements.pos
  have hl : ∀ r b : Bytes, r.length = o.blockSize → b.length = o.blockSize →
      (maskG o.E r b).length = o.blockSize :=
    fun r b hr hb => by rw [maskG_length hg.implements r b hr (by omega), hb]
  obtain ⟨h1, h2⟩ := regRun_good o.blockSize o.blockSize (maskG o.E) h hlen hl R
    (blocks o.blockSize d) hR (fun b hb => mem_blocks_length hb)
  have hm := Nat.mod_lt d.length hpos
  rw [List.length_append, flatten_length_const _ _ h2, mapAccum_length, blocks_length,
    maskG_length hg.implements _ _ h1.head (by rw [rest_length]; omega), rest_length]
  exact Nat.div_add_mod _ _

theorem maskE_length (o : CipherObj) (hg : o.Good) (r b : Bytes) (hr : r.length = o.blockSize)
    (hb : b.length = o.blockSize) : (maskG o.E r b).length = o.blockSize := by
  rw [maskG_length hg.implements r b hr (by omega), hb]

/-- C77 for CFB: `encrypt` and `decrypt` keep the length. -/
theorem C77_cfb (s : Fb) (hs : Cfb.Reachable s) (hiv : s.iv ≠ []) (v : PyVal) (d : Bytes)
    (hv : v.data? = some d) :
    (∃ c, (Cfb.encrypt s v).2 = .ok c ∧ c.length = d.length) ∧
    (∃ m, (Cfb.decrypt s v).2 = .ok m ∧ m.length = d.length) := by
  obtain ⟨hg, hR⟩ := hs.inv
  obtain ⟨R, hR, hiv⟩ := hR.reg hiv
  exact ⟨⟨_, congrArg Prod.snd (Cfb.encrypt_ok s hg.implements R hR hiv v d hv),
      fb_length s.obj hg _ (maskE_length s.obj hg) R hR d⟩,
    ⟨_, congrArg Prod.snd (Cfb.decrypt_ok s hg.implements R hR hiv v d hv),
      fb_length s.obj hg _ (fun _ _ _ hb => hb) R hR d⟩⟩

/-- C77 for OFB. -/
theorem C77_ofb (s : Fb) (hs : Ofb.Reachable s) (hiv : s.iv ≠ []) (v : PyVal) (d : Bytes)
    (hv : v.data? = some d) :
    (∃ c, (Ofb.encrypt s v).2 = .ok c ∧ c.length = d.length) ∧
    (∃ m, (Ofb.decrypt s v).2 = .ok m ∧ m.length = d.length) := by
  obtain ⟨hg, hR⟩ := hs.inv
  obtain ⟨R, hR, hiv⟩ := hR.reg hiv
  have h := Ofb.encrypt_ok s hg.implements R hR hiv v d hv
  have hl := fb_length s.obj hg (ofbH s.obj.E) (fun r _ hr _ => hg.implements.enc_len r hr) R hR d
  rw [Ofb.decrypt_eq s v d hv]
  exact ⟨⟨_, congrArg Prod.snd h, hl⟩, ⟨_, congrArg Prod.snd h, hl⟩⟩

/-- C77 for CTR. -/
theorem C77_ctr (s : Ctr) (hs : Ctr.Reachable s) (v : PyVal) (d : Bytes) (hv : v.data? = some d) :
    (∃ c, (s.encrypt v).2 = .ok c ∧ c.length = d.length) ∧
    (∃ m, (s.decrypt v).2 = .ok m ∧ m.length = d.length) := by
  obtain ⟨hg, hc⟩ := hs.inv
  have hpos : 0 < s.obj.blockSize := Implements.pos
  have h := Ctr.encrypt_stream s hg.implements hc v d hv
  have hl : (addXor d (ctrStream s.obj.E s.counter
      ((d.length + s.obj.blockSize - 1) / s.obj.blockSize))).length = d.length := by
    unfold ctrStream
    rw [addXor_length, flatten_length_const s.obj.blockSize, List.length_map, List.length_range]
    · have h1 := Nat.div_add_mod (d.length + s.obj.blockSize - 1) s.obj.blockSize
      have h2 := Nat.mod_lt (d.length + s.obj.blockSize - 1) hpos
      omega
    · intro b hb
      obtain ⟨i, _, rfl⟩ := List.mem_map.1 hb
      exact hg.implements.enc_len _ (by rw [ctrAt_length, hc])
  rw [Ctr.decrypt_eq s v d hv]
  exact ⟨⟨_, congrArg Prod.snd h, hl⟩, ⟨_, congrArg Prod.snd h, hl⟩⟩

/-- An object as in the theorems: OFB, a call with eleven bytes, then a refused call. -/
example : ∃ s : Fb, Ofb.Reachable s ∧ s.iv ≠ [] := by
  obtain ⟨o, D, h1, h2, h3, hI⟩ := new_ofb .magma (.bytes Ex.key) (.bytes (Ex.count 9 16)) _ _ rfl
    (by decide) rfl (by decide) none none
  refine ⟨_, ((Ofb.Reachable.new h1).clear), ?_⟩
  show Ex.count 9 16 ≠ []
  decide

/-- Lengths of some results: a message of eight bytes in both padding modes, an empty one. -/
example : roundUp 8 8 = 8 ∧ roundUp 8 9 = 16 ∧ roundUp 8 0 = 8 := by decide

/-! ### C78 -/

/-- C78: an object whose initialisation vector is empty, in any reachable state in which the register
is still empty. CBC `encrypt`, and CFB and OFB with at least one byte, raise `IndexError` and change
nothing. -/
theorem C78_refused (v : PyVal) (d : Bytes) (hv : v.data? = some d) :
    (∀ s : Cbc, Cbc.Reachable s → s.iv = [] → s.encrypt v = (s, .error .indexError)) ∧
    (∀ s : Fb, Cfb.Reachable s → s.iv = [] →
      Cfb.encrypt s v = (s, if d = [] then .ok [] else .error .indexError) ∧
      Cfb.decrypt s v = (s, if d = [] then .ok [] else .error .indexError)) ∧
    (∀ s : Fb, Ofb.Reachable s → s.iv = [] →
      Ofb.encrypt s v = (s, if d = [] then .ok [] else .error .indexError) ∧
      Ofb.decrypt s v = (s, if d = [] then .ok [] else .error .indexError)) := by
  refine ⟨fun s hs h0 => ?_, fun s hs h0 => ?_, fun s hs h0 => ?_⟩
  · exact Cbc.encrypt_empty s hs.inv.1 hs.inv.2.1 h0 v d hv
  · exact ⟨Cfb.encrypt_empty s hs.inv.1 h0 v d hv, Cfb.decrypt_empty s hs.inv.1 h0 v d hv⟩
  · rw [Ofb.decrypt_eq s v d hv]
    exact ⟨Ofb.encrypt_empty s hs.inv.1 h0 v d hv, Ofb.encrypt_empty s hs.inv.1 h0 v d hv⟩

/-- C78, CBC decryption: with an empty register the first block of the data is taken as the
initialisation vector. `decrypt` of `b ++ d` on the object is `decrypt` of `d` on the object whose
register is `b`, in result and in the object left behind; less than a block gives the empty result
and changes nothing. -/
theorem C78_cbc_decrypt (s : Cbc) (hs : Cbc.Reachable s) (h0 : s.iv = []) (v : PyVal) (m : Bytes)
    (hv : v.data? = some m) :
    (m.length < s.obj.blockSize → s.decrypt v = (s, .ok [])) ∧
    (∀ b d : Bytes, m = b ++ d → b.length = s.obj.blockSize →
      s.decrypt v = ({ s with iv := b } : Cbc).decrypt (.bytes d)) := by
  obtain ⟨hg, hp, -⟩ := hs.inv
  have hpos : 0 < s.obj.blockSize := Implements.pos
  have h := Cbc.decrypt_empty s hg.implements h0 v m hv
  constructor
  · intro hlt
    rw [h, blocks_of_lt _ _ hlt]
  · rintro b d rfl hb
    rw [h, blocks_cons _ b d hpos hb]
    have h2 := Cbc.decrypt_ok { s with iv := b } (E := s.obj.E) (D := s.obj.D) hg.implements [b]
      ⟨by simp, by simpa using hb⟩ (by simp) (.bytes d) d rfl
    rw [h2]
    rfl

/-- Such an object: `new` accepts the empty vector. -/
example : ∃ s : Cbc, Cbc.Reachable s ∧ s.iv = [] := by
  have h : (match newCipher Alg.magma.name (.bytes Ex.key) modeCbc (initVect := some (.bytes [])) with
      | .ok (.cbc s) => decide (s.iv = [])
      | _ => false) = true := by decide +kernel
  split at h
  · next s hs => exact ⟨s, .new hs, by simpa using h⟩
  · cases h

/-! ### C50, both modes and both kinds of padding -/

/-- C50 is false of the code in both modes: for every key, vector and input whose length is not a multiple of the block
size, decryption returns a shorter result instead of an error. -/
theorem C50_negation_modes (a : Alg) (kv ivv cv : PyVal) (key iv d : Bytes)
    (hk : kv.data? = some key) (hkl : key.length = 32) (hiv : ivv.data? = some iv)
    (hiv0 : 0 < iv.length) (hivl : iv.length % a.blockSize = 0) (hd : cv.data? = some d)
    (pad : Int) (hp : pad = padMode1 ∨ pad = padMode2) (hbad : d.length % a.blockSize ≠ 0) :
    (∃ s out, newCipher a.name kv modeEcb (padMode := some pad) = .ok (.ecb s) ∧
      (s.decrypt cv).2 = .ok out ∧ out.length < d.length) ∧
    (∃ s out, newCipher a.name kv modeCbc (padMode := some pad) (initVect := some ivv) = .ok (.cbc s) ∧
      (s.decrypt cv).2 = .ok out ∧ out.length < d.length) := by
  obtain ⟨⟨s, out, e1, e2, e3, -⟩, t, t', out', f1, f2, f3, -⟩ :=
    C50_truncated_exact a kv ivv cv key iv d hk hkl hiv hiv0 hivl hd pad hp
  have := Nat.div_add_mod' d.length a.blockSize
  exact ⟨⟨s, out, e1, by rw [e2], by omega⟩, t, out', f1, by rw [f2], by omega⟩

/-- The part of C50 which holds, in both modes: block-aligned input is preserved in full. Missing: the error for other
lengths, which the code does not raise. -/
theorem C50_aligned_modes_partial (a : Alg) (kv ivv cv : PyVal) (key iv d : Bytes)
    (hk : kv.data? = some key) (hkl : key.length = 32) (hiv : ivv.data? = some iv)
    (hiv0 : 0 < iv.length) (hivl : iv.length % a.blockSize = 0) (hd : cv.data? = some d)
    (pad : Int) (hp : pad = padMode1 ∨ pad = padMode2) (hal : d.length % a.blockSize = 0) :
    (∃ s out, newCipher a.name kv modeEcb (padMode := some pad) = .ok (.ecb s) ∧
      (s.decrypt cv).2 = .ok out ∧ out.length = d.length) ∧
    (∃ s out, newCipher a.name kv modeCbc (padMode := some pad) (initVect := some ivv) = .ok (.cbc s) ∧
      (s.decrypt cv).2 = .ok out ∧ out.length = d.length) := by
  obtain ⟨⟨s, out, e1, e2, e3, -⟩, t, t', out', f1, f2, f3, -⟩ :=
    C50_truncated_exact a kv ivv cv key iv d hk hkl hiv hiv0 hivl hd pad hp
  have := Nat.div_add_mod' d.length a.blockSize
  exact ⟨⟨s, out, e1, by rw [e2], by omega⟩, t, out', f1, by rw [f2], by omega⟩

/-- Cases: a vector of two blocks, data of 13 and of 16 bytes. -/
example : 0 < (Ex.count 0 16).length ∧ (Ex.count 0 16).length % Alg.magma.blockSize = 0 ∧
    (Ex.count 0 13).length % Alg.magma.blockSize ≠ 0 ∧ (Ex.count 3 16).length % Alg.magma.blockSize = 0 := by decide

end Gost
