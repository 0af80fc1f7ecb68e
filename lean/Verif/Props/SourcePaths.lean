import Verif.Source.PathSound
import Verif.Source.Lookup
import Verif.Model.BlockCipher

/-! C115: the path through the text depends on lengths only. A path (`Verif.Source.Trace`) is the sequence of the
executed statements, the truth values on which `if`, `while`, `and` and `or` decide, the turns of loops, the functions
entered and the built-in functions applied. For the block ciphers, the modes ECB, CBC, CFB, OFB and CTR, the hash, HMAC,
PBKDF2 and the functions of utils.py two runs on arguments and memories of the same shape take the same path; for the
derivation of the MAC keys they do not. Nothing is said of the time which a table access or an operation on big integers
takes. -/

namespace Gost.Src

namespace Shape

abbrev kuz := "GOST34122015Kuznechik"
abbrev mag := "GOST34122015Magma"
abbrev ecb := "GOST34132015ecb"
abbrev cbc := "GOST34132015cbc"
abbrev cfb := "GOST34132015cfb"
abbrev ofb := "GOST34132015ofb"
abbrev ctr := "GOST34132015ctr"
abbrev mac := "GOST34132015mac"
abbrev has := "GOST34112012"
abbrev hma := "R5011132016"
abbrev pbk := "R5011112016"
abbrev rnd := "R132356510062017"

abbrev Block : Ty := .inst [kuz, mag]
abbrev Padded : Ty := .inst [ecb, cbc]
abbrev Feedback : Ty := .inst [cbc, cfb, ofb]
abbrev Mode : Ty := .inst [ecb, cbc, cfb, ofb, ctr]
abbrev Any : Ty := .inst [ecb, cbc, cfb, ofb, ctr, mac]
abbrev Oid : Ty := .inst ["ObjectIdentifier"]
abbrev Hash : Ty := .inst [has]
abbrev Hmac : Ty := .inst [hma]
abbrev Pbkdf : Ty := .inst [pbk]

/-- The types of the attributes. -/
def attrTable : List (String × List (String × Ty)) :=
  let mode : List (String × Ty) := [("_cipher_obj", Block), ("oid", Oid)]
  [(kuz, [("_cipher_c", .seq), ("_cipher_iter_key", .seq), ("oid", Oid)]),
   (mag, [("_cipher_iter_key", .seq), ("oid", Oid)]),
   (ecb, mode),
   (cbc, ("_init_vect", .arr) :: mode),
   (cfb, ("_init_vect", .arr) :: mode),
   (ofb, ("_init_vect", .arr) :: mode),
   (ctr, ("_init_vect", .arr) :: ("_counter", .arr) :: mode),
   (mac, ("_fin_buff", .arr) :: ("_iter_buf", .arr) :: ("_prev_mac", .arr) :: ("_cur_mac", .arr) :: mode),
   (has, [("_name", .str), ("_buff", .arr), ("_num_block", .lint), ("_pad_block_size", .lint), ("_hash_h", .arr),
     ("_hash_n", .arr), ("_hash_sigma", .arr), ("oid", Oid)]),
   (hma, [("_key", .arr), ("oid", Oid), ("_hasher_obj", Hash), ("_counter", .lint)]),
   (pbk, [("_password", .arr), ("_salt", .arr), ("_counter", .lint), ("_hmac_obj", Hmac)]),
   (rnd, [("_hash_obj", Hash)])]

/-- The type of an attribute; `low` if there is nothing to say. -/
def attr (c a : String) : Ty := (tfind a ((tfind c attrTable).getD [])).getD .low

def globTable : List (String × Ty) :=
  [("BlockCipher._BLOCK_SIZE_KUZNECHIK", .lit 16), ("BlockCipher._BLOCK_SIZE_MAGMA", .lit 8),
   ("BlockCipher._KEY_SIZE", .lit 32), ("BlockCipher._GF", .rows 256 8), ("BlockCipher._S_BOX_KUZNECHIK", .row 256 8),
   ("BlockCipher._S_BOX_REVERSE_KUZNECHIK", .row 256 8), ("BlockCipher._S_BOX_MAGMA", .rows 16 4),
   ("Modes.MODE_ECB", .lit 1), ("Modes.MODE_CBC", .lit 2), ("Modes.MODE_CFB", .lit 3), ("Modes.MODE_OFB", .lit 5),
   ("Modes.MODE_CTR", .lit 6), ("Modes.MODE_MAC", .lit 255), ("Modes.PAD_MODE_1", .lit 2147483888),
   ("Modes.PAD_MODE_2", .lit 2147483889), ("Modes._KEY_SIZE", .lit 32), ("Modes._DEFAULT_IV_CTR_KUZNECHIK", .arr),
   ("Modes._DEFAULT_IV_CTR_MAGMA", .arr), ("Modes._DEFAULT_IV_KUZNECHIK", .arr), ("Modes._DEFAULT_IV_MAGMA", .arr),
   ("Modes._DEFAULT_IV_CBC_MAGMA", .arr), ("Hash._BLOCK_SIZE", .lit 64), ("Hash._V_0", .arr), ("Hash._V_512", .arr),
   ("Hash._T", .rows 256 64), ("Hash._C", .seq), ("Hmac._KEY_SIZE", .lit 64), ("Hmac._I_PAD", .arr),
   ("Hmac._O_PAD", .arr), ("Pbkdf._BLOCK_SIZE", .lit 64), ("Random.SIZE_S_384", .lit 48), ("Random._SIZE_M", .lit 64),
   ("Random._SIZE_H", .lit 64)]

/-- The types of the arguments and results of the functions. -/
def fnTypes : List (String × List (List Ty × Ty)) :=
  [("Utils.check_value", [([.low, .low], .lbool)]),
   ("Utils.msb", [([.arr], .bits 8)]),
   ("Utils.add_xor", [([.low, .low], .arr)]),
   ("Utils.zero_fill", [([.arr], .arr), ([.low], .low)]),
   ("Utils.bytearray_to_int", [([.arr], .int)]),
   ("Utils.int_to_bytearray", [([.lint, .lint], .arr)]),
   ("Utils.compare", [([.low, .low], .flag)]),
   ("Utils.compare_to_zero", [([.low], .flag)]),
   ("ObjectIdentifier.__init__", [([Oid, .str], .low)]),
   ("GOST34122015Kuznechik.__init__", [([.inst [kuz], .arr], .low)]),
   ("GOST34122015Kuznechik.__del__", [([.inst [kuz]], .low)]),
   ("GOST34122015Kuznechik._cipher_s", [([.arr], .arr)]),
   ("GOST34122015Kuznechik._cipher_s_reverse", [([.arr], .arr)]),
   ("GOST34122015Kuznechik._cipher_r", [([.arr], .arr)]),
   ("GOST34122015Kuznechik._cipher_r_reverse", [([.arr], .arr)]),
   ("GOST34122015Kuznechik._cipher_l", [([.arr], .arr)]),
   ("GOST34122015Kuznechik._cipher_l_reverse", [([.arr], .arr)]),
   ("GOST34122015Kuznechik._cipher_get_c", [([.inst [kuz]], .low)]),
   ("GOST34122015Kuznechik.block_size", [([.inst [kuz]], .lint)]),
   ("GOST34122015Kuznechik.key_size", [([.inst [kuz]], .lint)]),
   ("GOST34122015Kuznechik.decrypt", [([.inst [kuz], .arr], .arr)]),
   ("GOST34122015Kuznechik.encrypt", [([.inst [kuz], .arr], .arr)]),
   ("GOST34122015Kuznechik.clear", [([.inst [kuz]], .low)]),
   ("GOST34122015Magma.__init__", [([.inst [mag], .arr], .low)]),
   ("GOST34122015Magma.__del__", [([.inst [mag]], .low)]),
   ("GOST34122015Magma._expand_iter_key", [([.inst [mag], .arr], .low)]),
   ("GOST34122015Magma._expand_iter_key_final", [([.inst [mag], .arr], .low)]),
   ("GOST34122015Magma._cipher_t", [([.arr], .arr)]),
   ("GOST34122015Magma._cipher_add_32", [([.low, .low], .arr)]),
   ("GOST34122015Magma._cipher_g", [([.low, .low], .arr)]),
   ("GOST34122015Magma._cipher_g_iter_result", [([.low, .low], .arr)]),
   ("GOST34122015Magma._cipher_g_iter", [([.low, .low], .seq)]),
   ("GOST34122015Magma._cipher_g_prev", [([.low, .low], .arr)]),
   ("GOST34122015Magma._cipher_g_fin", [([.low, .low], .arr)]),
   ("GOST34122015Magma.block_size", [([.inst [mag]], .lint)]),
   ("GOST34122015Magma.key_size", [([.inst [mag]], .lint)]),
   ("GOST34122015Magma.decrypt", [([.inst [mag], .arr], .arr)]),
   ("GOST34122015Magma.encrypt", [([.inst [mag], .arr], .arr)]),
   ("GOST34122015Magma.clear", [([.inst [mag]], .low)]),
   ("Modes.new", [([.str, .arr, .lit 1, .dict], .inst [ecb]), ([.str, .arr, .lit 2, .dict], .inst [cbc]),
     ([.str, .arr, .lit 3, .dict], .inst [cfb]), ([.str, .arr, .lit 5, .dict], .inst [ofb]),
     ([.str, .arr, .lit 6, .dict], .inst [ctr])]),
   ("GOST34132015.__init__", [([Any, .str, .arr], .low)]),
   ("GOST34132015.__del__", [([Any], .low)]),
   ("GOST34132015._get_num_block", [([Any, .arr], .lint)]),
   ("GOST34132015._get_pad_size", [([Any, .arr], .lint)]),
   ("GOST34132015._get_block", [([Any, .arr, .lint], .arr)]),
   ("GOST34132015.clear", [([Any], .low)]),
   ("GOST34132015.block_size", [([Any], .lint)]),
   ("GOST34132015Cipher.encrypt", [([Mode, .arr], .arr)]),
   ("GOST34132015Cipher.decrypt", [([Mode, .arr], .arr)]),
   ("GOST34132015CipherPadding.__init__", [([Padded, .str, .arr, .low], .low)]),
   ("GOST34132015CipherPadding._set_pad_mode_1", [([Padded, .arr], .arr)]),
   ("GOST34132015CipherPadding._set_pad_mode_2", [([Padded, .arr], .arr)]),
   ("GOST34132015CipherPadding._set_padding", [([Padded, .arr, .low], .arr)]),
   ("GOST34132015CipherPadding.encrypt", [([Padded, .arr], .arr)]),
   ("GOST34132015CipherPadding.decrypt", [([Padded, .arr], .arr)]),
   ("GOST34132015CipherFeedBack.__init__", [([Feedback, .str, .arr, .arr], .low)]),
   ("GOST34132015CipherFeedBack._get_gamma", [([Feedback], .arr)]),
   ("GOST34132015CipherFeedBack._set_init_vect", [([Feedback, .arr], .low)]),
   ("GOST34132015CipherFeedBack._get_final_block", [([Feedback, .arr], .arr)]),
   ("GOST34132015CipherFeedBack._final_cipher", [([Feedback, .arr], .arr)]),
   ("GOST34132015CipherFeedBack.encrypt", [([Feedback, .arr], .arr)]),
   ("GOST34132015CipherFeedBack.decrypt", [([Feedback, .arr], .arr)]),
   ("GOST34132015CipherFeedBack.iv", [([Feedback], .arr)]),
   ("GOST34132015ecb.encrypt", [([.inst [ecb], .arr], .arr)]),
   ("GOST34132015ecb.decrypt", [([.inst [ecb], .arr], .arr)]),
   ("GOST34132015cbc.__init__", [([.inst [cbc], .str, .arr, .arr, .low], .low)]),
   ("GOST34132015cbc.encrypt", [([.inst [cbc], .arr], .arr)]),
   ("GOST34132015cbc.decrypt", [([.inst [cbc], .arr], .arr)]),
   ("GOST34132015cfb.encrypt", [([.inst [cfb], .arr], .arr)]),
   ("GOST34132015cfb.decrypt", [([.inst [cfb], .arr], .arr)]),
   ("GOST34132015ofb.encrypt", [([.inst [ofb], .arr], .arr)]),
   ("GOST34132015ofb.decrypt", [([.inst [ofb], .arr], .arr)]),
   ("GOST34132015ctr.__init__", [([.inst [ctr], .str, .arr, .arr], .low)]),
   ("GOST34132015ctr._inc_ctr", [([.inst [ctr], .arr], .arr)]),
   ("GOST34132015ctr.counter", [([.inst [ctr]], .arr)]),
   ("GOST34132015ctr.encrypt", [([.inst [ctr], .arr], .arr)]),
   ("GOST34132015ctr.decrypt", [([.inst [ctr], .arr], .arr)]),
   ("GOST34132015mac._set_pad_mode_3", [([.inst [mac], .arr], .arr)]),
   ("GOST34132015mac.update", [([.inst [mac], .arr], .low)]),
   ("GOST34132015mac.mac_final", [([.inst [mac]], .arr)]),
   ("GOST34132015mac.digest", [([.inst [mac], .low], .arr)]),
   ("GOST34132015mac.hexdigest", [([.inst [mac], .low], .text)]),
   ("Hash.new", [([.str, .dict], Hash)]),
   ("GOST34112012.__init__", [([Hash, .str, .arr], .low)]),
   ("GOST34112012._hash_init", [([Hash, .str], .low)]),
   ("GOST34112012._hash_add_512", [([.low, .low], .arr)]),
   ("GOST34112012._hash_lps", [([.arr], .arr)]),
   ("GOST34112012._hash_get_key", [([Hash, .low, .low], .arr)]),
   ("GOST34112012._hash_e", [([Hash, .low, .low], .arr)]),
   ("GOST34112012._hash_g", [([Hash, .low, .low, .low], .arr)]),
   ("GOST34112012.update", [([Hash, .arr], .low)]),
   ("GOST34112012.hash_final", [([Hash], .low)]),
   ("GOST34112012.get_hash", [([Hash], .arr)]),
   ("GOST34112012.digest", [([Hash], .arr)]),
   ("GOST34112012.hexdigest", [([Hash], .text)]),
   ("GOST34112012.reset", [([Hash], .low)]),
   ("GOST34112012.copy", [([Hash], Hash)]),
   ("GOST34112012.digest_size", [([Hash], .lint)]),
   ("GOST34112012.block_size", [([Hash], .lint)]),
   ("GOST34112012.name", [([Hash], .str)]),
   ("Hmac.new", [([.str, .arr, .dict], Hmac)]),
   ("R5011132016.__init__", [([Hmac, .str, .arr, .arr], .low)]),
   ("R5011132016.__del__", [([Hmac], .low)]),
   ("R5011132016.update", [([Hmac, .arr], .low)]),
   ("R5011132016.digest", [([Hmac], .arr)]),
   ("R5011132016.hexdigest", [([Hmac], .text)]),
   ("R5011132016.copy", [([Hmac], Hmac)]),
   ("R5011132016.reset", [([Hmac], .low)]),
   ("R5011132016.clear", [([Hmac], .low)]),
   ("R5011132016.digest_size", [([Hmac], .lint)]),
   ("R5011132016.block_size", [([Hmac], .lint)]),
   ("R5011132016.name", [([Hmac], .str)]),
   ("Pbkdf.new", [([.arr, .dict], Pbkdf)]),
   ("R5011112016.__init__", [([Pbkdf, .arr, .arr, .low], .low)]),
   ("R5011112016.__del__", [([Pbkdf], .low)]),
   ("R5011112016._u_first", [([Pbkdf], .arr)]),
   ("R5011112016._u_iter", [([Pbkdf, .arr], .arr)]),
   ("R5011112016._f", [([Pbkdf], .arr)]),
   ("R5011112016._calculate_pbkdf", [([Pbkdf, .low], .arr)]),
   ("R5011112016.derive", [([Pbkdf, .low], .arr)]),
   ("R5011112016.hexderive", [([Pbkdf, .low], .text)]),
   ("R5011112016.clear", [([Pbkdf], .low)]),
   ("R5011112016.salt", [([Pbkdf], .arr)]),
   ("Random.new", [([.low, .dict], .inst [rnd])]),
   ("R132356510062017.__init__", [([.inst [rnd], .low, .low, .low], .low)]),
   ("R132356510062017.__del__", [([.inst [rnd]], .low)]),
   ("R132356510062017.reset", [([.inst [rnd], .low], .low)]),
   ("R132356510062017.clear", [([.inst [rnd]], .low)])]

def shapes : Sig where
  attr := attr
  glob x := tfind x globTable
  meth c m := tfind m ((tfind c methodTable).getD [])
  prop c a := tfind a ((tfind c propertyTable).getD [])
  fns := fnTypes


theorem tfind_eq {α : Type} (x : String) (l : List (String × α)) : tfind x l = l.lookup x := by
  induction l with
  | nil => rfl
  | cons p l ih =>
    obtain ⟨y, v⟩ := p
    by_cases h : x = y
    · subst h
      simp only [tfind, same_iff.mpr rfl, if_true, List.lookup, beq_self_eq_true]
    · have h1 : same x y = false := by
        cases e : same x y with
        | false => rfl
        | true => exact absurd (same_iff.mp e) h
      have h2 : (x == y) = false := by simpa using h
      simp only [tfind, h1, List.lookup, h2]
      exact ih

/-- The check of the functions in the table. -/
def checked : Bool := fnTypes.all fun p =>
  match tfind p.1 fnTable with
  | some d => p.2.all fun q => tf shapes d q.1 q.2
  | none => false

set_option maxRecDepth 100000 in
theorem checked_true : checked = true := by decide +kernel


theorem glob_ok (x : String) (t : Ty) (e : tfind x globTable = some t) :
    ∃ v, package.globals x = some v ∧ ∀ w, Holds w t v v := by
  have m := tfind_mem e
  have arr : ∀ (b : Bytes) w, Holds w .arr (.bytes b) (.bytes b) := fun b w => ⟨.bytes rfl, trivial⟩
  have lit : ∀ (n : Nat) w, Holds w (.lit n) (.int n) (.int n) := fun n w => ⟨rfl, rfl⟩
  have row : ∀ (l : List Nat) (m k : Nat) w, (decide (l.length = m) && l.all fun x => decide (x < 2 ^ k)) = true →
      Holds w (.row m k) (ints l) (ints l) := by
    intro l m k w q
    simp only [Bool.and_eq_true, decide_eq_true_eq, List.all_eq_true] at q
    exact ⟨l, q.1, q.2, rfl, rfl⟩
  have rows : ∀ (ls : List (List Nat)) (m k : Nat) w,
      (ls.all fun l => decide (l.length = m) && l.all fun x => decide (x < 2 ^ k)) = true →
      Holds w (.rows m k) (.tuple (ls.map ints)) (.tuple (ls.map ints)) := by
    intro ls m k w q
    simp only [List.all_eq_true, Bool.and_eq_true, decide_eq_true_eq] at q
    exact ⟨ls, q, rfl, rfl⟩
  simp only [globTable, List.mem_cons, Prod.mk.injEq, List.not_mem_nil, or_false] at m
  rcases m with m | m | m | m | m | m | m | m | m | m | m | m | m | m | m | m | m | m | m | m | m | m | m | m | m | m |
    m | m | m | m | m | m | m <;> obtain ⟨rfl, rfl⟩ := m
  · exact ⟨_, Glob.BlockCipher._BLOCK_SIZE_KUZNECHIK, lit 16⟩
  · exact ⟨_, Glob.BlockCipher._BLOCK_SIZE_MAGMA, lit 8⟩
  · exact ⟨_, Glob.BlockCipher._KEY_SIZE, lit 32⟩
  · exact ⟨_, Glob.BlockCipher._GF, fun w => rows [BlockCipher.g_GF_0, BlockCipher.g_GF_1, BlockCipher.g_GF_2,
      BlockCipher.g_GF_3, BlockCipher.g_GF_4, BlockCipher.g_GF_5, BlockCipher.g_GF_6, BlockCipher.g_GF_7,
      BlockCipher.g_GF_8, BlockCipher.g_GF_9, BlockCipher.g_GF_10, BlockCipher.g_GF_11, BlockCipher.g_GF_12,
      BlockCipher.g_GF_13, BlockCipher.g_GF_14, BlockCipher.g_GF_15] 256 8 w (by decide +kernel)⟩
  · exact ⟨_, Glob.BlockCipher._S_BOX_KUZNECHIK, fun w => row _ 256 8 w (by decide +kernel)⟩
  · exact ⟨_, Glob.BlockCipher._S_BOX_REVERSE_KUZNECHIK, fun w => row _ 256 8 w (by decide +kernel)⟩
  · exact ⟨_, Glob.BlockCipher._S_BOX_MAGMA, fun w => rows [BlockCipher.g_S_BOX_MAGMA_0, BlockCipher.g_S_BOX_MAGMA_1,
      BlockCipher.g_S_BOX_MAGMA_2, BlockCipher.g_S_BOX_MAGMA_3, BlockCipher.g_S_BOX_MAGMA_4,
      BlockCipher.g_S_BOX_MAGMA_5, BlockCipher.g_S_BOX_MAGMA_6, BlockCipher.g_S_BOX_MAGMA_7] 16 4 w
      (by decide +kernel)⟩
  · exact ⟨_, Glob.Modes.MODE_ECB, lit 1⟩
  · exact ⟨_, Glob.Modes.MODE_CBC, lit 2⟩
  · exact ⟨_, Glob.Modes.MODE_CFB, lit 3⟩
  · exact ⟨_, Glob.Modes.MODE_OFB, lit 5⟩
  · exact ⟨_, Glob.Modes.MODE_CTR, lit 6⟩
  · exact ⟨_, Glob.Modes.MODE_MAC, lit 255⟩
  · exact ⟨_, Glob.Modes.PAD_MODE_1, lit 2147483888⟩
  · exact ⟨_, Glob.Modes.PAD_MODE_2, lit 2147483889⟩
  · exact ⟨_, Glob.Modes._KEY_SIZE, lit 32⟩
  · exact ⟨_, Glob.Modes._DEFAULT_IV_CTR_KUZNECHIK, arr _⟩
  · exact ⟨_, Glob.Modes._DEFAULT_IV_CTR_MAGMA, arr _⟩
  · exact ⟨_, Glob.Modes._DEFAULT_IV_KUZNECHIK, arr _⟩
  · exact ⟨_, Glob.Modes._DEFAULT_IV_MAGMA, arr _⟩
  · exact ⟨_, Glob.Modes._DEFAULT_IV_CBC_MAGMA, arr _⟩
  · exact ⟨_, Glob.Hash._BLOCK_SIZE, lit 64⟩
  · exact ⟨_, Glob.Hash._V_0, arr _⟩
  · exact ⟨_, Glob.Hash._V_512, arr _⟩
  · exact ⟨_, Glob.Hash._T, fun w => rows [Hash.g_T_0, Hash.g_T_1, Hash.g_T_2, Hash.g_T_3, Hash.g_T_4, Hash.g_T_5,
      Hash.g_T_6, Hash.g_T_7] 256 64 w (by decide +kernel)⟩
  · exact ⟨_, Glob.Hash._C, fun w => ⟨Low.refl _, trivial⟩⟩
  · exact ⟨_, Glob.Hmac._KEY_SIZE, lit 64⟩
  · exact ⟨_, Glob.Hmac._I_PAD, arr _⟩
  · exact ⟨_, Glob.Hmac._O_PAD, arr _⟩
  · exact ⟨_, Glob.Pbkdf._BLOCK_SIZE, lit 64⟩
  · exact ⟨_, Glob.Random.SIZE_S_384, lit 48⟩
  · exact ⟨_, Glob.Random._SIZE_M, lit 64⟩
  · exact ⟨_, Glob.Random._SIZE_H, lit 64⟩

/-- The table of types fits the package. -/
theorem shaped : Shaped shapes package where
  fns f l m := by
    have := List.all_eq_true.mp checked_true _ m
    simp only [] at this
    split at this
    · rename_i d ed
      rw [tfind_eq] at ed
      exact ⟨d, ed, fun p pm => List.all_eq_true.mp this p pm⟩
    · cases this
  glob := glob_ok
  meth c m := by show tfind m ((tfind c methodTable).getD []) = _; rw [tfind_eq, tfind_eq]; rfl
  prop c m := by show tfind m ((tfind c propertyTable).getD []) = _; rw [tfind_eq, tfind_eq]; rfl

end Shape

open Shape

/-! ### The theorems -/

/-- **C115.** A function of the table `fnTypes` on two lists of arguments and two memories of the same shape: the same
path, and outcomes of the same shape (the same exception, if any). `L` bounds the turns of `while` loops and `n` the
depth of calls, `w` gives the kinds of the cells of the memories. -/
theorem C115_call (f : String) (l : List (List Ty × Ty)) (m : (f, l) ∈ fnTypes) (us : List Ty) (r : Ty)
    (i : (us, r) ∈ l) (L n : Nat) (w : World) (h h' : Heap) (H : HRel attr w h h') (vs vs' : List Val)
    (V : HoldsL w us vs vs') :
    (path package L n f vs h).2 = (path package L n f vs' h').2 ∧
      SameEnd attr w (fun w => Holds w r) (call package L n f vs h) (call package L n f vs' h') := by
  have key : Match attr w (fun w => Holds w r) (path package L n f vs h) (path package L n f vs' h') := by
    cases n with
    | zero => exact .quiet (.fail H _)
    | succ n =>
      obtain ⟨d, ed, ok⟩ := shaped.fns f l m
      unfold path
      rw [ed]
      exact .note _ (tf_sound (path_sound shaped L n) (ok _ i) H V)
  exact ⟨key.2, by rw [← call_path, ← call_path]; exact key.1⟩

/-- The functions of the package which are not in the table. -/
theorem C115_rest : ((fnTable.map (·.1)).filter fun f => (tfind f fnTypes).isNone) =
    ["Oid._len_int", "Oid._len_oid_octet", "Oid._int_to_octet", "Oid._encode_octet", "ObjectIdentifier.__str__",
     "ObjectIdentifier.name", "ObjectIdentifier.digit", "ObjectIdentifier.octet", "GOST34132015mac.__init__",
     "GOST34132015mac._get_mac_key", "R132356510062017._rand_iter", "R132356510062017._inc_rand_u",
     "R132356510062017.random", "Signature.new", "GOST34102012.__init__",
     "GOST34102012._set_size", "GOST34102012._check_p_m", "GOST34102012._check_x_y", "GOST34102012._check_p",
     "GOST34102012._check_q", "GOST34102012._check_curve", "GOST34102012._invert", "GOST34102012._invert.gcdex",
     "GOST34102012._add", "GOST34102012._mul_point", "GOST34102012._edvards_to_canonical",
     "GOST34102012._get_rand_k", "GOST34102012._set_e", "GOST34102012.sign", "GOST34102012._get_r_s",
     "GOST34102012._verify_step_1", "GOST34102012.verify", "GOST34102012.public_key_generate"] := by
  decide +kernel

/-- **C115.** A client of the package: any function which the check accepts. -/
theorem C115_client (d : FunDef) (us : List Ty) (r : Ty) (ok : tf shapes d us r = true) (L n : Nat) (w : World)
    (h h' : Heap) (H : HRel attr w h h') (vs vs' : List Val) (V : HoldsL w us vs vs') :
    (runP (pctx package L n) d vs h).2 = (runP (pctx package L n) d vs' h').2 :=
  (tf_sound (path_sound shaped L n) ok H V).2

theorem empty_rel : HRel attr [] [] [] := ⟨rfl, rfl, fun r k e => by cases e⟩

theorem arr_bytes {w : World} {b b' : Bytes} (e : b.length = b'.length) : Holds w .arr (.bytes b) (.bytes b') :=
  ⟨.bytes e, trivial⟩

/-- **C115.** `compare` takes a path which depends on the two lengths only: it does not stop at the first difference. -/
theorem C115_compare (L n : Nat) (a b a' b' : Bytes) (ea : a.length = a'.length) (eb : b.length = b'.length) :
    (path package L n "Utils.compare" [.bytes a, .bytes b] []).2 =
      (path package L n "Utils.compare" [.bytes a', .bytes b'] []).2 :=
  (C115_call "Utils.compare" [([.low, .low], .flag)] (by simp [fnTypes]) [.low, .low] .flag (by simp) L n [] [] []
    empty_rel [.bytes a, .bytes b] [.bytes a', .bytes b'] (.intro (.bytes ea) (.intro (.bytes eb) trivial))).1

/-- **C115.** `compare_to_zero`. -/
theorem C115_compare_to_zero (L n : Nat) (a a' : Bytes) (ea : a.length = a'.length) :
    (path package L n "Utils.compare_to_zero" [.bytes a] []).2 =
      (path package L n "Utils.compare_to_zero" [.bytes a'] []).2 :=
  (C115_call "Utils.compare_to_zero" [([.low], .flag)] (by simp [fnTypes]) [.low] .flag (by simp) L n [] [] []
    empty_rel [.bytes a] [.bytes a'] (.intro (.bytes ea) trivial)).1

/-- A client: `cipher = new(algorithm, key, m, **kwargs); a = cipher.encrypt(data); b = cipher.decrypt(data)`. -/
def cipherClient (m : Nat) : FunDef where
  params := ["algorithm", "key", "kwargs", "data"]
  defaults := []
  static := true
  body :=
    [.assign (.name "cipher") (.call "Modes.new" [.name "algorithm", .name "key", .int m, .name "kwargs"]),
     .assign (.name "a") (.meth (.name "cipher") "encrypt" [.name "data"]),
     .assign (.name "b") (.meth (.name "cipher") "decrypt" [.name "data"]),
     .ret (.tuple [.name "a", .name "b"])]

/-- **C115.** Key, initialisation vector and data enter the path of a cipher with their lengths only, for the modes ECB,
CBC, CFB, OFB and CTR. -/
theorem C115_cipher (m : Nat) (hm : m ∈ [1, 2, 3, 5, 6]) (L n : Nat) (algorithm : String) (pad : Int)
    (key key' iv iv' data data' : Bytes) (ek : key.length = key'.length) (ei : iv.length = iv'.length)
    (ed : data.length = data'.length) :
    (runP (pctx package L n) (cipherClient m) [.str algorithm, .bytes key,
        .dict [("init_vect", .bytes iv), ("pad_mode", .int pad)], .bytes data] []).2 =
      (runP (pctx package L n) (cipherClient m) [.str algorithm, .bytes key',
        .dict [("init_vect", .bytes iv'), ("pad_mode", .int pad)], .bytes data'] []).2 := by
  refine C115_client _ [.str, .arr, .dict, .arr] .seq ?_ L n [] [] [] empty_rel _ _
    (.intro ⟨_, rfl, rfl⟩ (.intro (arr_bytes ek) (.intro ?_ (.intro (arr_bytes ed) trivial))))
  · simp only [List.mem_cons, List.not_mem_nil, or_false] at hm
    rcases hm with rfl | rfl | rfl | rfl | rfl <;> decide +kernel
  · refine ⟨.dict (.cons (.bytes ei) (.cons (.int _) .nil)), _, rfl, ?_⟩
    intro k x m b
    simp only [List.mem_cons, Prod.mk.injEq, List.not_mem_nil, or_false] at m
    rcases m with ⟨-, rfl⟩ | ⟨rfl, -⟩
    · trivial
    · exact absurd b (by decide)

/-- A client: `h = new(name, data=data); h.update(more); return h.hexdigest()`. -/
def hashClient : FunDef where
  params := ["name", "kwargs", "more"]
  defaults := []
  static := true
  body :=
    [.assign (.name "h") (.call "Hash.new" [.name "name", .name "kwargs"]),
     .expr (.meth (.name "h") "update" [.name "more"]),
     .ret (.meth (.name "h") "hexdigest" [])]

theorem data_dict {w : World} {k : String} {b b' : Bytes} (e : b.length = b'.length) :
    Holds w .dict (.dict [(k, .bytes b)]) (.dict [(k, .bytes b')]) := by
  refine ⟨.dict (.cons (.bytes e) .nil), _, rfl, ?_⟩
  intro k x m _
  simp only [List.mem_cons, Prod.mk.injEq, List.not_mem_nil, or_false] at m
  obtain ⟨-, rfl⟩ := m
  trivial

/-- **C115.** The hash. -/
theorem C115_hash (L n : Nat) (name : String) (data data' more more' : Bytes) (ed : data.length = data'.length)
    (em : more.length = more'.length) :
    (runP (pctx package L n) hashClient [.str name, .dict [("data", .bytes data)], .bytes more] []).2 =
      (runP (pctx package L n) hashClient [.str name, .dict [("data", .bytes data')], .bytes more'] []).2 :=
  C115_client _ [.str, .dict, .arr] .text (by decide +kernel) L n [] [] [] empty_rel _ _
    (.intro ⟨_, rfl, rfl⟩ (.intro (data_dict ed) (.intro (arr_bytes em) trivial)))

/-- A client: `h = new(name, key, data=data); h.update(more); return h.digest()`. -/
def hmacClient : FunDef where
  params := ["name", "key", "kwargs", "more"]
  defaults := []
  static := true
  body :=
    [.assign (.name "h") (.call "Hmac.new" [.name "name", .name "key", .name "kwargs"]),
     .expr (.meth (.name "h") "update" [.name "more"]),
     .ret (.meth (.name "h") "digest" [])]

/-- **C115.** HMAC: key and data. -/
theorem C115_hmac (L n : Nat) (name : String) (key key' data data' more more' : Bytes)
    (ek : key.length = key'.length) (ed : data.length = data'.length) (em : more.length = more'.length) :
    (runP (pctx package L n) hmacClient [.str name, .bytes key, .dict [("data", .bytes data)], .bytes more] []).2 =
      (runP (pctx package L n) hmacClient [.str name, .bytes key', .dict [("data", .bytes data')], .bytes more'] []).2 :=
  C115_client _ [.str, .arr, .dict, .arr] .arr (by decide +kernel) L n [] [] [] empty_rel _ _
    (.intro ⟨_, rfl, rfl⟩ (.intro (arr_bytes ek) (.intro (data_dict ed) (.intro (arr_bytes em) trivial))))

/-- A client: `p = new(password, salt=salt, counter=counter); return p.derive(size)`. -/
def pbkdfClient : FunDef where
  params := ["password", "kwargs", "size"]
  defaults := []
  static := true
  body :=
    [.assign (.name "p") (.call "Pbkdf.new" [.name "password", .name "kwargs"]),
     .ret (.meth (.name "p") "derive" [.name "size"])]

/-- **C115.** PBKDF2: password and salt; the number of iterations and the size are the same in both runs. -/
theorem C115_pbkdf (L n : Nat) (password password' salt salt' : Bytes) (counter size : Int)
    (ep : password.length = password'.length) (es : salt.length = salt'.length) :
    (runP (pctx package L n) pbkdfClient [.bytes password,
        .dict [("salt", .bytes salt), ("counter", .int counter)], .int size] []).2 =
      (runP (pctx package L n) pbkdfClient [.bytes password',
        .dict [("salt", .bytes salt'), ("counter", .int counter)], .int size] []).2 := by
  refine C115_client _ [.arr, .dict, .low] .arr (by decide +kernel) L n [] [] [] empty_rel _ _
    (.intro (arr_bytes ep) (.intro ?_ (.intro (.int size) trivial)))
  refine ⟨.dict (.cons (.bytes es) (.cons (.int _) .nil)), _, rfl, ?_⟩
  intro k x m b
  simp only [List.mem_cons, Prod.mk.injEq, List.not_mem_nil, or_false] at m
  rcases m with ⟨-, rfl⟩ | ⟨rfl, -⟩
  · trivial
  · exact absurd b (by decide)

/-! ### The MAC -/

/-- A memory with a MAC object whose cipher is Magma. -/
def macHeap : Heap := [.inst "GOST34122015Magma" [], .inst "GOST34132015mac" [("_cipher_obj", .ref 0)]]

/-- The encrypted zero block for two keys of Magma. -/
theorem mac_values :
    (Magma.init (List.replicate 32 0)).bind (Magma.encrypt · (List.replicate 8 0)) =
      .ok [120, 182, 189, 74, 129, 114, 102, 89] ∧
    (Magma.init (List.replicate 32 2)).bind (Magma.encrypt · (List.replicate 8 0)) =
      .ok [13, 182, 93, 146, 111, 135, 117, 1] := by
  decide +kernel

set_option maxRecDepth 100000 in
theorem mac_lengths : (path package 0 5 "GOST34132015mac._get_mac_key"
      [.ref 1, .bytes [120, 182, 189, 74, 129, 114, 102, 89]] macHeap).2.length = 96 ∧
    (path package 0 5 "GOST34132015mac._get_mac_key"
      [.ref 1, .bytes [13, 182, 93, 146, 111, 135, 117, 1]] macHeap).2.length = 66 := by
  decide +kernel

/-- **C115, negation.** The derivation of the MAC keys branches on the first bits of the encrypted zero block and of the
first key. For two keys of 32 bytes the constructor of a MAC hands two blocks of 8 bytes to `_get_mac_key`, and the
paths are different. -/
theorem C115_mac_key : ∃ k k' r r' : Bytes, k.length = 32 ∧ k'.length = 32 ∧
    (Magma.init k).bind (Magma.encrypt · (List.replicate 8 0)) = .ok r ∧
    (Magma.init k').bind (Magma.encrypt · (List.replicate 8 0)) = .ok r' ∧ r.length = r'.length ∧
    (path package 0 5 "GOST34132015mac._get_mac_key" [.ref 1, .bytes r] macHeap).2 ≠
      (path package 0 5 "GOST34132015mac._get_mac_key" [.ref 1, .bytes r'] macHeap).2 := by
  refine ⟨_, _, _, _, rfl, rfl, mac_values.1, mac_values.2, rfl, fun e => ?_⟩
  have := congrArg List.length e
  rw [mac_lengths.1, mac_lengths.2] at this
  exact absurd this (by decide)

/-! ### Concrete cases -/

/-- `compare` with a return at the first difference. -/
def earlyCompare : FunDef where
  params := ["op_a", "op_b"]
  defaults := []
  static := true
  body :=
    [.for_ "i" (.builtin "enumerate" [.name "op_a"])
        [.if_ (.cmp .ne (.index (.name "op_a") (.index (.name "i") (.int 0))) (.index (.name "op_b") (.index (.name "i")
            (.int 0)))) [.ret (.bool false)] []],
     .ret (.bool true)]

/-- The check refuses it, and rightly so: its path depends on the contents. -/
example : tf shapes earlyCompare [.arr, .arr] .flag = false ∧
    (runP (pctx package 0 5) earlyCompare [.bytes [1, 2], .bytes [1, 2]] []).2.length = 9 ∧
    (runP (pctx package 0 5) earlyCompare [.bytes [1, 2], .bytes [3, 2]] []).2.length = 6 := by decide +kernel

/-- The same arguments for the `compare` of the package: the answers are different, the paths are not. -/
example : (match (call package 0 5 "Utils.compare" [.bytes [1, 2], .bytes [1, 2]] []).1 with
      | .ok (.bool b) => some b
      | _ => none) = some true ∧
    (match (call package 0 5 "Utils.compare" [.bytes [1, 2], .bytes [3, 2]] []).1 with
      | .ok (.bool b) => some b
      | _ => none) = some false ∧
    (path package 0 5 "Utils.compare" [.bytes [1, 2], .bytes [1, 2]] []).2.length = 19 := by decide +kernel

example : (path package 0 5 "Utils.compare" [.bytes [1, 2], .bytes [1, 2]] []).2 =
    (path package 0 5 "Utils.compare" [.bytes [1, 2], .bytes [3, 2]] []).2 := C115_compare 0 5 _ _ _ _ rfl rfl

example : (runP (pctx package 100 50) (cipherClient 2) [.str "magma", .bytes (List.replicate 32 0),
      .dict [("init_vect", .bytes (List.replicate 8 0)), ("pad_mode", .int 2147483888)], .bytes [1, 2, 3]] []).2 =
    (runP (pctx package 100 50) (cipherClient 2) [.str "magma", .bytes (List.replicate 32 255),
      .dict [("init_vect", .bytes (List.replicate 8 7)), ("pad_mode", .int 2147483888)], .bytes [255, 0, 9]] []).2 :=
  C115_cipher 2 (by decide) 100 50 "magma" 2147483888 _ _ _ _ _ _ rfl rfl rfl

/-- A MAC object: `update` has the same path for two objects which differ in keys and buffers. -/
example : HRel attr [.list, .inst "ObjectIdentifier", .inst "GOST34122015Magma", .bytearray, .inst "GOST34132015mac"]
    [.list [.bytes [1, 2, 3, 4]], .inst "ObjectIdentifier" [], .inst "GOST34122015Magma" [("_cipher_iter_key", .ref 0)],
      .bytearray [1], .inst "GOST34132015mac" [("_cipher_obj", .ref 2), ("_key_1", .bytes [1, 2]), ("_iter_buf", .ref 3)]]
    [.list [.bytes [5, 6, 7, 8]], .inst "ObjectIdentifier" [], .inst "GOST34122015Magma" [("_cipher_iter_key", .ref 0)],
      .bytearray [9], .inst "GOST34132015mac" [("_cipher_obj", .ref 2), ("_key_1", .bytes [0, 7]), ("_iter_buf", .ref 3)]] := by
  refine ⟨rfl, rfl, fun r k e => ?_⟩
  match r, e with
  | 0, e => cases e; exact ⟨_, _, rfl, rfl, .list (.cons (.bytes rfl) .nil)⟩
  | 1, e => cases e; exact ⟨_, _, rfl, rfl, .inst .nil⟩
  | 2, e => cases e; exact ⟨_, _, rfl, rfl, .inst (.cons ⟨rfl, ⟨.ref _, rfl⟩⟩ .nil)⟩
  | 3, e => cases e; exact ⟨_, _, rfl, rfl, .bytearray rfl⟩
  | 4, e =>
    cases e
    exact ⟨_, _, rfl, rfl, .inst (.cons ⟨rfl, ⟨2, mag, rfl, rfl, rfl, by decide⟩⟩ (.cons ⟨rfl, .bytes rfl⟩
      (.cons ⟨rfl, ⟨.ref _, rfl⟩⟩ .nil)))⟩

end Gost.Src
