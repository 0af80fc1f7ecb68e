import Verif.Proofs.Cipher
import Verif.Props.Examples

/-! Properties C01 to C04: the two block ciphers. -/

namespace Gost

/-! ### C01 -/

/-- C01. A Kuznechik object can be built from every 32-byte key; for every 16-byte block
`encrypt` and `decrypt` return 16 bytes and undo each other in both orders. -/
theorem C01_kuznechik_inverse (key : Bytes) (hk : key.length = 32) :
    ∃ ks, Kuz.init key = .ok ks ∧ ∀ b : Bytes, b.length = 16 →
      (∃ c, Kuz.encrypt ks b = .ok c ∧ c.length = 16 ∧ Kuz.decrypt ks c = .ok b) ∧
      (∃ p, Kuz.decrypt ks b = .ok p ∧ p.length = 16 ∧ Kuz.encrypt ks p = .ok b) := by
  refine ⟨_, Kuz.init_ok key hk, fun b hb => ?_⟩
  have hg := Kuz.init_good key hk
  have he := Kuz.encrypt_ok hg b hb
  have hd := Kuz.decrypt_ok hg b hb
  refine ⟨⟨_, he.1, he.2, ?_⟩, ⟨_, hd.1, hd.2, ?_⟩⟩
  · rw [(Kuz.decrypt_ok hg _ he.2).1, Kuz.D_E hg b hb]
  · rw [(Kuz.encrypt_ok hg _ hd.2).1, Kuz.E_D hg b hb]

/-- A key and a block meeting the hypotheses of C01. -/
example : Ex.key.length = 32 ∧ (Ex.count 1 16).length = 16 := by decide

/-! ### C02 -/

/-- C02. The same for Magma with 8-byte blocks. -/
theorem C02_magma_inverse (key : Bytes) (hk : key.length = 32) :
    ∃ ks, Magma.init key = .ok ks ∧ ∀ b : Bytes, b.length = 8 →
      (∃ c, Magma.encrypt ks b = .ok c ∧ c.length = 8 ∧ Magma.decrypt ks c = .ok b) ∧
      (∃ p, Magma.decrypt ks b = .ok p ∧ p.length = 8 ∧ Magma.encrypt ks p = .ok b) := by
  obtain ⟨ks, h1, hg, _, _⟩ := Magma.init_ok key hk
  refine ⟨ks, h1, fun b hb => ?_⟩
  have he := Magma.encrypt_ok hg b hb
  have hd := Magma.decrypt_ok hg b hb
  refine ⟨⟨_, he.1, he.2, ?_⟩, ⟨_, hd.1, hd.2, ?_⟩⟩
  · rw [(Magma.decrypt_ok hg _ he.2).1, Magma.D_E ks b hb]
  · rw [(Magma.encrypt_ok hg _ hd.2).1, Magma.E_D ks b hb]

/-- A key and a block meeting the hypotheses of C02; the block really changes. -/
example : Ex.key.length = 32 ∧ (Ex.count 1 8).length = 8 ∧
    (Magma.init Ex.key >>= fun ks => Magma.encrypt ks (Ex.count 1 8)) ≠ .ok (Ex.count 1 8) := by
  decide +kernel

/-! ### C03 -/

/-- C03, main part. The Kuznechik object computes the cipher of the standard. -/
theorem C03_kuznechik_standard (key b : Bytes) (hk : key.length = 32) (hb : b.length = 16) :
    (Kuz.init key >>= fun ks => Kuz.encrypt ks b) = .ok (Spec.Kuz.encrypt key b) := by
  rw [Kuz.init_ok key hk, Res.bind_ok, (Kuz.encrypt_ok (Kuz.init_good key hk) b hb).1, Kuz.E_spec]

/-- C03, decryption: the inverse of the standard's cipher, on both sides. -/
theorem C03_kuznechik_decrypt (key b : Bytes) (hk : key.length = 32) (hb : b.length = 16) :
    (Kuz.init key >>= fun ks => Kuz.decrypt ks (Spec.Kuz.encrypt key b)) = .ok b ∧
    ∃ p, (Kuz.init key >>= fun ks => Kuz.decrypt ks b) = .ok p ∧ p.length = 16 ∧
      Spec.Kuz.encrypt key p = b := by
  have hg := Kuz.init_good key hk
  have he := Kuz.encrypt_ok hg b hb
  have hd := Kuz.decrypt_ok hg b hb
  rw [Kuz.init_ok key hk, Res.bind_ok, Res.bind_ok]
  refine ⟨?_, _, hd.1, hd.2, ?_⟩
  · rw [← Kuz.E_spec, (Kuz.decrypt_ok hg _ he.2).1, Kuz.D_E hg b hb]
  · rw [← Kuz.E_spec, Kuz.E_D hg b hb]

/-- C03, round keys: all ten of them are those of the standard. -/
theorem C03_kuznechik_round_keys (key : Bytes) (hk : key.length = 32) :
    Kuz.init key = .ok ((List.range 10).map (Spec.Kuz.roundKey key)) := Kuz.init_ok key hk

/-- C03, tables: `_GF[i][b]` is the product in GF(2^8) with the coefficient of the byte which
is at position `i` after the shift, for all 16·256 entries. -/
theorem C03_gf_tables (i : Nat) (hi : i < 16) (b : UInt8) :
    gf i b = Spec.gfMul (Spec.Kuz.coeffs.getD ((i + 15) % 16) 0) b := gf_eq i hi b

/-- C03, S-box: the two tables are π and its inverse. -/
theorem C03_s_box (b : UInt8) : sKuz b = Spec.pi b ∧ sKuzRev (Spec.pi b) = b := by
  rw [← sKuz_eq, sKuzRev_sKuz]
  exact ⟨rfl, rfl⟩

/-- Cross-check of the table of π used in the specification: it satisfies the published
algebraic description on every element of the field (0, the subfield powers and the rest). -/
theorem C03_pi_algebraic :
    Spec.piTable.length = 256 ∧ Spec.piTable.getD 0 0 = Spec.tkKappa 0 ∧
    (∀ j, 1 ≤ j → j ≤ 15 → Spec.tkRuleA j) ∧
    (∀ i j, 1 ≤ i → i ≤ 16 → j ≤ 14 → Spec.tkRuleB i j) := by
  refine ⟨by decide +kernel, by decide +kernel, ?_, ?_⟩
  · have h : ∀ j : Fin 15, Spec.piTable.getD (Spec.tkPow (17 * (j.val + 1))) 0
        = Spec.tkKappa (16 - (j.val + 1)) := by decide +kernel
    intro j h1 h2
    have := h ⟨j - 1, by omega⟩
    simp only [show j - 1 + 1 = j by omega] at this
    exact this
  · have h : ∀ i : Fin 16, ∀ j : Fin 15, Spec.piTable.getD (Spec.tkPow (i.val + 1 + 17 * j.val)) 0
        = Spec.tkKappa (16 - (i.val + 1)) ^^^ Spec.tkPow (17 * Spec.tkS.getD j.val 0) := by
      decide +kernel
    intro i j h1 h2 h3
    have := h ⟨i - 1, by omega⟩ ⟨j, by omega⟩
    simp only [show i - 1 + 1 = i by omega] at this
    exact this

/-- A case for C03: hypotheses met, and the specification is not the identity on constants
(`C_1` of the standard begins with 6e a2 76 72). -/
example : Ex.key.length = 32 ∧ (Ex.count 1 16).length = 16 ∧
    (Spec.Kuz.C 1).take 4 = [0x6e, 0xa2, 0x76, 0x72] := by decide +kernel

/-! ### C04 -/

/-- C04. The Magma object computes the cipher of the standard. -/
theorem C04_magma_standard (key b : Bytes) (hk : key.length = 32) (hb : b.length = 8) :
    (Magma.init key >>= fun ks => Magma.encrypt ks b) = .ok (Spec.Magma.encrypt key b) := by
  obtain ⟨ks, h1, hg, _, h4⟩ := Magma.init_ok key hk
  rw [h1, Res.bind_ok, (Magma.encrypt_ok hg b hb).1, Magma.E_spec ks key h4 b hb]

/-- C04, decryption: the inverse of the standard's cipher, on both sides. -/
theorem C04_magma_decrypt (key b : Bytes) (hk : key.length = 32) (hb : b.length = 8) :
    (Magma.init key >>= fun ks => Magma.decrypt ks (Spec.Magma.encrypt key b)) = .ok b ∧
    ∃ p, (Magma.init key >>= fun ks => Magma.decrypt ks b) = .ok p ∧ p.length = 8 ∧
      Spec.Magma.encrypt key p = b := by
  obtain ⟨ks, h1, hg, _, h4⟩ := Magma.init_ok key hk
  have he := Magma.encrypt_ok hg b hb
  have hd := Magma.decrypt_ok hg b hb
  rw [h1, Res.bind_ok, Res.bind_ok]
  refine ⟨?_, _, hd.1, hd.2, ?_⟩
  · rw [← Magma.E_spec ks key h4 b hb, (Magma.decrypt_ok hg _ he.2).1, Magma.D_E ks b hb]
  · rw [← Magma.E_spec ks key h4 _ hd.2, Magma.E_D ks b hb]

/-- The test vector of the standard, evaluated on the specification. -/
example : Spec.Magma.encrypt
    [0xff, 0xee, 0xdd, 0xcc, 0xbb, 0xaa, 0x99, 0x88, 0x77, 0x66, 0x55, 0x44, 0x33, 0x22, 0x11, 0x00,
      0xf0, 0xf1, 0xf2, 0xf3, 0xf4, 0xf5, 0xf6, 0xf7, 0xf8, 0xf9, 0xfa, 0xfb, 0xfc, 0xfd, 0xfe, 0xff]
    [0xfe, 0xdc, 0xba, 0x98, 0x76, 0x54, 0x32, 0x10] =
    [0x4e, 0xe9, 0x01, 0xe5, 0xc2, 0xd8, 0xca, 0x3d] := by decide +kernel

end Gost
