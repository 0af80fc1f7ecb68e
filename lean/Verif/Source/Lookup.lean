import Verif.Source.Attr
import Verif.Source.Program

/-! Written by `tools/gen_source.py`: what the names of the package stand for. -/

namespace Gost.Src

theorem lookup_ne {α : Type} {k a : String} (b : α) (l : List (String × α)) (h : k ≠ a) :
    List.lookup k ((a, b) :: l) = List.lookup k l := by
  have e : (k == a) = false := by simpa using h
  simp only [List.lookup, e]

theorem lookup_eq {α : Type} (k : String) (b : α) (l : List (String × α)) :
    List.lookup k ((k, b) :: l) = some b := by
  simp [List.lookup]

theorem lookup_nil {α : Type} (k : String) : List.lookup k ([] : List (String × α)) = none := rfl

macro "look" "[" args:Lean.Parser.Tactic.simpLemma,* "]" : tactic =>
  `(tactic| simp only [package, ↓lookup_eq, ↓lookup_ne, lookup_nil, ne_eq, String.reduceEq, not_false_eq_true,
      Option.getD_some, Option.getD_none, $args,*])

theorem Fn.Utils.check_value : package.fn "Utils.check_value" =
    some Utils.f_check_value := by look [fnTable]
theorem Fn.Utils.msb : package.fn "Utils.msb" =
    some Utils.f_msb := by look [fnTable]
theorem Fn.Utils.add_xor : package.fn "Utils.add_xor" =
    some Utils.f_add_xor := by look [fnTable]
theorem Fn.Utils.zero_fill : package.fn "Utils.zero_fill" =
    some Utils.f_zero_fill := by look [fnTable]
theorem Fn.Utils.bytearray_to_int : package.fn "Utils.bytearray_to_int" =
    some Utils.f_bytearray_to_int := by look [fnTable]
theorem Fn.Utils.int_to_bytearray : package.fn "Utils.int_to_bytearray" =
    some Utils.f_int_to_bytearray := by look [fnTable]
theorem Fn.Utils.compare : package.fn "Utils.compare" =
    some Utils.f_compare := by look [fnTable]
theorem Fn.Utils.compare_to_zero : package.fn "Utils.compare_to_zero" =
    some Utils.f_compare_to_zero := by look [fnTable]
theorem Fn.Oid._len_int : package.fn "Oid._len_int" =
    some Oid.f__len_int := by look [fnTable]
theorem Fn.Oid._len_oid_octet : package.fn "Oid._len_oid_octet" =
    some Oid.f__len_oid_octet := by look [fnTable]
theorem Fn.Oid._int_to_octet : package.fn "Oid._int_to_octet" =
    some Oid.f__int_to_octet := by look [fnTable]
theorem Fn.Oid._encode_octet : package.fn "Oid._encode_octet" =
    some Oid.f__encode_octet := by look [fnTable]
theorem Fn.ObjectIdentifier.__init__ : package.fn "ObjectIdentifier.__init__" =
    some ObjectIdentifier.m___init__ := by look [fnTable]
theorem Fn.ObjectIdentifier.__str__ : package.fn "ObjectIdentifier.__str__" =
    some ObjectIdentifier.m___str__ := by look [fnTable]
theorem Fn.ObjectIdentifier.name : package.fn "ObjectIdentifier.name" =
    some ObjectIdentifier.m_name := by look [fnTable]
theorem Fn.ObjectIdentifier.digit : package.fn "ObjectIdentifier.digit" =
    some ObjectIdentifier.m_digit := by look [fnTable]
theorem Fn.ObjectIdentifier.octet : package.fn "ObjectIdentifier.octet" =
    some ObjectIdentifier.m_octet := by look [fnTable]
theorem Fn.GOST34122015Kuznechik.__init__ : package.fn "GOST34122015Kuznechik.__init__" =
    some GOST34122015Kuznechik.m___init__ := by look [fnTable]
theorem Fn.GOST34122015Kuznechik.__del__ : package.fn "GOST34122015Kuznechik.__del__" =
    some GOST34122015Kuznechik.m___del__ := by look [fnTable]
theorem Fn.GOST34122015Kuznechik._cipher_s : package.fn "GOST34122015Kuznechik._cipher_s" =
    some GOST34122015Kuznechik.m__cipher_s := by look [fnTable]
theorem Fn.GOST34122015Kuznechik._cipher_s_reverse : package.fn "GOST34122015Kuznechik._cipher_s_reverse" =
    some GOST34122015Kuznechik.m__cipher_s_reverse := by look [fnTable]
theorem Fn.GOST34122015Kuznechik._cipher_r : package.fn "GOST34122015Kuznechik._cipher_r" =
    some GOST34122015Kuznechik.m__cipher_r := by look [fnTable]
theorem Fn.GOST34122015Kuznechik._cipher_r_reverse : package.fn "GOST34122015Kuznechik._cipher_r_reverse" =
    some GOST34122015Kuznechik.m__cipher_r_reverse := by look [fnTable]
theorem Fn.GOST34122015Kuznechik._cipher_l : package.fn "GOST34122015Kuznechik._cipher_l" =
    some GOST34122015Kuznechik.m__cipher_l := by look [fnTable]
theorem Fn.GOST34122015Kuznechik._cipher_l_reverse : package.fn "GOST34122015Kuznechik._cipher_l_reverse" =
    some GOST34122015Kuznechik.m__cipher_l_reverse := by look [fnTable]
theorem Fn.GOST34122015Kuznechik._cipher_get_c : package.fn "GOST34122015Kuznechik._cipher_get_c" =
    some GOST34122015Kuznechik.m__cipher_get_c := by look [fnTable]
theorem Fn.GOST34122015Kuznechik.block_size : package.fn "GOST34122015Kuznechik.block_size" =
    some GOST34122015Kuznechik.m_block_size := by look [fnTable]
theorem Fn.GOST34122015Kuznechik.key_size : package.fn "GOST34122015Kuznechik.key_size" =
    some GOST34122015Kuznechik.m_key_size := by look [fnTable]
theorem Fn.GOST34122015Kuznechik.decrypt : package.fn "GOST34122015Kuznechik.decrypt" =
    some GOST34122015Kuznechik.m_decrypt := by look [fnTable]
theorem Fn.GOST34122015Kuznechik.encrypt : package.fn "GOST34122015Kuznechik.encrypt" =
    some GOST34122015Kuznechik.m_encrypt := by look [fnTable]
theorem Fn.GOST34122015Kuznechik.clear : package.fn "GOST34122015Kuznechik.clear" =
    some GOST34122015Kuznechik.m_clear := by look [fnTable]
theorem Fn.GOST34122015Magma.__init__ : package.fn "GOST34122015Magma.__init__" =
    some GOST34122015Magma.m___init__ := by look [fnTable]
theorem Fn.GOST34122015Magma.__del__ : package.fn "GOST34122015Magma.__del__" =
    some GOST34122015Magma.m___del__ := by look [fnTable]
theorem Fn.GOST34122015Magma._expand_iter_key : package.fn "GOST34122015Magma._expand_iter_key" =
    some GOST34122015Magma.m__expand_iter_key := by look [fnTable]
theorem Fn.GOST34122015Magma._expand_iter_key_final : package.fn "GOST34122015Magma._expand_iter_key_final" =
    some GOST34122015Magma.m__expand_iter_key_final := by look [fnTable]
theorem Fn.GOST34122015Magma._cipher_t : package.fn "GOST34122015Magma._cipher_t" =
    some GOST34122015Magma.m__cipher_t := by look [fnTable]
theorem Fn.GOST34122015Magma._cipher_add_32 : package.fn "GOST34122015Magma._cipher_add_32" =
    some GOST34122015Magma.m__cipher_add_32 := by look [fnTable]
theorem Fn.GOST34122015Magma._cipher_g : package.fn "GOST34122015Magma._cipher_g" =
    some GOST34122015Magma.m__cipher_g := by look [fnTable]
theorem Fn.GOST34122015Magma._cipher_g_iter_result : package.fn "GOST34122015Magma._cipher_g_iter_result" =
    some GOST34122015Magma.m__cipher_g_iter_result := by look [fnTable]
theorem Fn.GOST34122015Magma._cipher_g_iter : package.fn "GOST34122015Magma._cipher_g_iter" =
    some GOST34122015Magma.m__cipher_g_iter := by look [fnTable]
theorem Fn.GOST34122015Magma._cipher_g_prev : package.fn "GOST34122015Magma._cipher_g_prev" =
    some GOST34122015Magma.m__cipher_g_prev := by look [fnTable]
theorem Fn.GOST34122015Magma._cipher_g_fin : package.fn "GOST34122015Magma._cipher_g_fin" =
    some GOST34122015Magma.m__cipher_g_fin := by look [fnTable]
theorem Fn.GOST34122015Magma.block_size : package.fn "GOST34122015Magma.block_size" =
    some GOST34122015Magma.m_block_size := by look [fnTable]
theorem Fn.GOST34122015Magma.key_size : package.fn "GOST34122015Magma.key_size" =
    some GOST34122015Magma.m_key_size := by look [fnTable]
theorem Fn.GOST34122015Magma.decrypt : package.fn "GOST34122015Magma.decrypt" =
    some GOST34122015Magma.m_decrypt := by look [fnTable]
theorem Fn.GOST34122015Magma.encrypt : package.fn "GOST34122015Magma.encrypt" =
    some GOST34122015Magma.m_encrypt := by look [fnTable]
theorem Fn.GOST34122015Magma.clear : package.fn "GOST34122015Magma.clear" =
    some GOST34122015Magma.m_clear := by look [fnTable]
theorem Fn.Modes.new : package.fn "Modes.new" =
    some Modes.f_new := by look [fnTable]
theorem Fn.GOST34132015.__init__ : package.fn "GOST34132015.__init__" =
    some GOST34132015.m___init__ := by look [fnTable]
theorem Fn.GOST34132015.__del__ : package.fn "GOST34132015.__del__" =
    some GOST34132015.m___del__ := by look [fnTable]
theorem Fn.GOST34132015._get_num_block : package.fn "GOST34132015._get_num_block" =
    some GOST34132015.m__get_num_block := by look [fnTable]
theorem Fn.GOST34132015._get_pad_size : package.fn "GOST34132015._get_pad_size" =
    some GOST34132015.m__get_pad_size := by look [fnTable]
theorem Fn.GOST34132015._get_block : package.fn "GOST34132015._get_block" =
    some GOST34132015.m__get_block := by look [fnTable]
theorem Fn.GOST34132015.clear : package.fn "GOST34132015.clear" =
    some GOST34132015.m_clear := by look [fnTable]
theorem Fn.GOST34132015.block_size : package.fn "GOST34132015.block_size" =
    some GOST34132015.m_block_size := by look [fnTable]
theorem Fn.GOST34132015Cipher.encrypt : package.fn "GOST34132015Cipher.encrypt" =
    some GOST34132015Cipher.m_encrypt := by look [fnTable]
theorem Fn.GOST34132015Cipher.decrypt : package.fn "GOST34132015Cipher.decrypt" =
    some GOST34132015Cipher.m_decrypt := by look [fnTable]
theorem Fn.GOST34132015CipherPadding.__init__ : package.fn "GOST34132015CipherPadding.__init__" =
    some GOST34132015CipherPadding.m___init__ := by look [fnTable]
theorem Fn.GOST34132015CipherPadding._set_pad_mode_1 : package.fn "GOST34132015CipherPadding._set_pad_mode_1" =
    some GOST34132015CipherPadding.m__set_pad_mode_1 := by look [fnTable]
theorem Fn.GOST34132015CipherPadding._set_pad_mode_2 : package.fn "GOST34132015CipherPadding._set_pad_mode_2" =
    some GOST34132015CipherPadding.m__set_pad_mode_2 := by look [fnTable]
theorem Fn.GOST34132015CipherPadding._set_padding : package.fn "GOST34132015CipherPadding._set_padding" =
    some GOST34132015CipherPadding.m__set_padding := by look [fnTable]
theorem Fn.GOST34132015CipherPadding.encrypt : package.fn "GOST34132015CipherPadding.encrypt" =
    some GOST34132015CipherPadding.m_encrypt := by look [fnTable]
theorem Fn.GOST34132015CipherPadding.decrypt : package.fn "GOST34132015CipherPadding.decrypt" =
    some GOST34132015CipherPadding.m_decrypt := by look [fnTable]
theorem Fn.GOST34132015CipherFeedBack.__init__ : package.fn "GOST34132015CipherFeedBack.__init__" =
    some GOST34132015CipherFeedBack.m___init__ := by look [fnTable]
theorem Fn.GOST34132015CipherFeedBack._get_gamma : package.fn "GOST34132015CipherFeedBack._get_gamma" =
    some GOST34132015CipherFeedBack.m__get_gamma := by look [fnTable]
theorem Fn.GOST34132015CipherFeedBack._set_init_vect : package.fn "GOST34132015CipherFeedBack._set_init_vect" =
    some GOST34132015CipherFeedBack.m__set_init_vect := by look [fnTable]
theorem Fn.GOST34132015CipherFeedBack._get_final_block : package.fn "GOST34132015CipherFeedBack._get_final_block" =
    some GOST34132015CipherFeedBack.m__get_final_block := by look [fnTable]
theorem Fn.GOST34132015CipherFeedBack._final_cipher : package.fn "GOST34132015CipherFeedBack._final_cipher" =
    some GOST34132015CipherFeedBack.m__final_cipher := by look [fnTable]
theorem Fn.GOST34132015CipherFeedBack.encrypt : package.fn "GOST34132015CipherFeedBack.encrypt" =
    some GOST34132015CipherFeedBack.m_encrypt := by look [fnTable]
theorem Fn.GOST34132015CipherFeedBack.decrypt : package.fn "GOST34132015CipherFeedBack.decrypt" =
    some GOST34132015CipherFeedBack.m_decrypt := by look [fnTable]
theorem Fn.GOST34132015CipherFeedBack.iv : package.fn "GOST34132015CipherFeedBack.iv" =
    some GOST34132015CipherFeedBack.m_iv := by look [fnTable]
theorem Fn.GOST34132015ecb.encrypt : package.fn "GOST34132015ecb.encrypt" =
    some GOST34132015ecb.m_encrypt := by look [fnTable]
theorem Fn.GOST34132015ecb.decrypt : package.fn "GOST34132015ecb.decrypt" =
    some GOST34132015ecb.m_decrypt := by look [fnTable]
theorem Fn.GOST34132015cbc.__init__ : package.fn "GOST34132015cbc.__init__" =
    some GOST34132015cbc.m___init__ := by look [fnTable]
theorem Fn.GOST34132015cbc.encrypt : package.fn "GOST34132015cbc.encrypt" =
    some GOST34132015cbc.m_encrypt := by look [fnTable]
theorem Fn.GOST34132015cbc.decrypt : package.fn "GOST34132015cbc.decrypt" =
    some GOST34132015cbc.m_decrypt := by look [fnTable]
theorem Fn.GOST34132015cfb.encrypt : package.fn "GOST34132015cfb.encrypt" =
    some GOST34132015cfb.m_encrypt := by look [fnTable]
theorem Fn.GOST34132015cfb.decrypt : package.fn "GOST34132015cfb.decrypt" =
    some GOST34132015cfb.m_decrypt := by look [fnTable]
theorem Fn.GOST34132015ofb.encrypt : package.fn "GOST34132015ofb.encrypt" =
    some GOST34132015ofb.m_encrypt := by look [fnTable]
theorem Fn.GOST34132015ofb.decrypt : package.fn "GOST34132015ofb.decrypt" =
    some GOST34132015ofb.m_decrypt := by look [fnTable]
theorem Fn.GOST34132015ctr.__init__ : package.fn "GOST34132015ctr.__init__" =
    some GOST34132015ctr.m___init__ := by look [fnTable]
theorem Fn.GOST34132015ctr._inc_ctr : package.fn "GOST34132015ctr._inc_ctr" =
    some GOST34132015ctr.m__inc_ctr := by look [fnTable]
theorem Fn.GOST34132015ctr.counter : package.fn "GOST34132015ctr.counter" =
    some GOST34132015ctr.m_counter := by look [fnTable]
theorem Fn.GOST34132015ctr.encrypt : package.fn "GOST34132015ctr.encrypt" =
    some GOST34132015ctr.m_encrypt := by look [fnTable]
theorem Fn.GOST34132015ctr.decrypt : package.fn "GOST34132015ctr.decrypt" =
    some GOST34132015ctr.m_decrypt := by look [fnTable]
theorem Fn.GOST34132015mac.__init__ : package.fn "GOST34132015mac.__init__" =
    some GOST34132015mac.m___init__ := by look [fnTable]
theorem Fn.GOST34132015mac._set_pad_mode_3 : package.fn "GOST34132015mac._set_pad_mode_3" =
    some GOST34132015mac.m__set_pad_mode_3 := by look [fnTable]
theorem Fn.GOST34132015mac._get_mac_key : package.fn "GOST34132015mac._get_mac_key" =
    some GOST34132015mac.m__get_mac_key := by look [fnTable]
theorem Fn.GOST34132015mac.update : package.fn "GOST34132015mac.update" =
    some GOST34132015mac.m_update := by look [fnTable]
theorem Fn.GOST34132015mac.mac_final : package.fn "GOST34132015mac.mac_final" =
    some GOST34132015mac.m_mac_final := by look [fnTable]
theorem Fn.GOST34132015mac.digest : package.fn "GOST34132015mac.digest" =
    some GOST34132015mac.m_digest := by look [fnTable]
theorem Fn.GOST34132015mac.hexdigest : package.fn "GOST34132015mac.hexdigest" =
    some GOST34132015mac.m_hexdigest := by look [fnTable]
theorem Fn.Hash.new : package.fn "Hash.new" =
    some Hash.f_new := by look [fnTable]
theorem Fn.GOST34112012.__init__ : package.fn "GOST34112012.__init__" =
    some GOST34112012.m___init__ := by look [fnTable]
theorem Fn.GOST34112012._hash_init : package.fn "GOST34112012._hash_init" =
    some GOST34112012.m__hash_init := by look [fnTable]
theorem Fn.GOST34112012._hash_add_512 : package.fn "GOST34112012._hash_add_512" =
    some GOST34112012.m__hash_add_512 := by look [fnTable]
theorem Fn.GOST34112012._hash_lps : package.fn "GOST34112012._hash_lps" =
    some GOST34112012.m__hash_lps := by look [fnTable]
theorem Fn.GOST34112012._hash_get_key : package.fn "GOST34112012._hash_get_key" =
    some GOST34112012.m__hash_get_key := by look [fnTable]
theorem Fn.GOST34112012._hash_e : package.fn "GOST34112012._hash_e" =
    some GOST34112012.m__hash_e := by look [fnTable]
theorem Fn.GOST34112012._hash_g : package.fn "GOST34112012._hash_g" =
    some GOST34112012.m__hash_g := by look [fnTable]
theorem Fn.GOST34112012.update : package.fn "GOST34112012.update" =
    some GOST34112012.m_update := by look [fnTable]
theorem Fn.GOST34112012.hash_final : package.fn "GOST34112012.hash_final" =
    some GOST34112012.m_hash_final := by look [fnTable]
theorem Fn.GOST34112012.get_hash : package.fn "GOST34112012.get_hash" =
    some GOST34112012.m_get_hash := by look [fnTable]
theorem Fn.GOST34112012.digest : package.fn "GOST34112012.digest" =
    some GOST34112012.m_digest := by look [fnTable]
theorem Fn.GOST34112012.hexdigest : package.fn "GOST34112012.hexdigest" =
    some GOST34112012.m_hexdigest := by look [fnTable]
theorem Fn.GOST34112012.reset : package.fn "GOST34112012.reset" =
    some GOST34112012.m_reset := by look [fnTable]
theorem Fn.GOST34112012.copy : package.fn "GOST34112012.copy" =
    some GOST34112012.m_copy := by look [fnTable]
theorem Fn.GOST34112012.digest_size : package.fn "GOST34112012.digest_size" =
    some GOST34112012.m_digest_size := by look [fnTable]
theorem Fn.GOST34112012.block_size : package.fn "GOST34112012.block_size" =
    some GOST34112012.m_block_size := by look [fnTable]
theorem Fn.GOST34112012.name : package.fn "GOST34112012.name" =
    some GOST34112012.m_name := by look [fnTable]
theorem Fn.Hmac.new : package.fn "Hmac.new" =
    some Hmac.f_new := by look [fnTable]
theorem Fn.R5011132016.__init__ : package.fn "R5011132016.__init__" =
    some R5011132016.m___init__ := by look [fnTable]
theorem Fn.R5011132016.__del__ : package.fn "R5011132016.__del__" =
    some R5011132016.m___del__ := by look [fnTable]
theorem Fn.R5011132016.update : package.fn "R5011132016.update" =
    some R5011132016.m_update := by look [fnTable]
theorem Fn.R5011132016.digest : package.fn "R5011132016.digest" =
    some R5011132016.m_digest := by look [fnTable]
theorem Fn.R5011132016.hexdigest : package.fn "R5011132016.hexdigest" =
    some R5011132016.m_hexdigest := by look [fnTable]
theorem Fn.R5011132016.copy : package.fn "R5011132016.copy" =
    some R5011132016.m_copy := by look [fnTable]
theorem Fn.R5011132016.reset : package.fn "R5011132016.reset" =
    some R5011132016.m_reset := by look [fnTable]
theorem Fn.R5011132016.clear : package.fn "R5011132016.clear" =
    some R5011132016.m_clear := by look [fnTable]
theorem Fn.R5011132016.digest_size : package.fn "R5011132016.digest_size" =
    some R5011132016.m_digest_size := by look [fnTable]
theorem Fn.R5011132016.block_size : package.fn "R5011132016.block_size" =
    some R5011132016.m_block_size := by look [fnTable]
theorem Fn.R5011132016.name : package.fn "R5011132016.name" =
    some R5011132016.m_name := by look [fnTable]
theorem Fn.Pbkdf.new : package.fn "Pbkdf.new" =
    some Pbkdf.f_new := by look [fnTable]
theorem Fn.R5011112016.__init__ : package.fn "R5011112016.__init__" =
    some R5011112016.m___init__ := by look [fnTable]
theorem Fn.R5011112016.__del__ : package.fn "R5011112016.__del__" =
    some R5011112016.m___del__ := by look [fnTable]
theorem Fn.R5011112016._u_first : package.fn "R5011112016._u_first" =
    some R5011112016.m__u_first := by look [fnTable]
theorem Fn.R5011112016._u_iter : package.fn "R5011112016._u_iter" =
    some R5011112016.m__u_iter := by look [fnTable]
theorem Fn.R5011112016._f : package.fn "R5011112016._f" =
    some R5011112016.m__f := by look [fnTable]
theorem Fn.R5011112016._calculate_pbkdf : package.fn "R5011112016._calculate_pbkdf" =
    some R5011112016.m__calculate_pbkdf := by look [fnTable]
theorem Fn.R5011112016.derive : package.fn "R5011112016.derive" =
    some R5011112016.m_derive := by look [fnTable]
theorem Fn.R5011112016.hexderive : package.fn "R5011112016.hexderive" =
    some R5011112016.m_hexderive := by look [fnTable]
theorem Fn.R5011112016.clear : package.fn "R5011112016.clear" =
    some R5011112016.m_clear := by look [fnTable]
theorem Fn.R5011112016.salt : package.fn "R5011112016.salt" =
    some R5011112016.m_salt := by look [fnTable]
theorem Fn.Random.new : package.fn "Random.new" =
    some Random.f_new := by look [fnTable]
theorem Fn.R132356510062017.__init__ : package.fn "R132356510062017.__init__" =
    some R132356510062017.m___init__ := by look [fnTable]
theorem Fn.R132356510062017.__del__ : package.fn "R132356510062017.__del__" =
    some R132356510062017.m___del__ := by look [fnTable]
theorem Fn.R132356510062017._rand_iter : package.fn "R132356510062017._rand_iter" =
    some R132356510062017.m__rand_iter := by look [fnTable]
theorem Fn.R132356510062017._inc_rand_u : package.fn "R132356510062017._inc_rand_u" =
    some R132356510062017.m__inc_rand_u := by look [fnTable]
theorem Fn.R132356510062017.random : package.fn "R132356510062017.random" =
    some R132356510062017.m_random := by look [fnTable]
theorem Fn.R132356510062017.reset : package.fn "R132356510062017.reset" =
    some R132356510062017.m_reset := by look [fnTable]
theorem Fn.R132356510062017.clear : package.fn "R132356510062017.clear" =
    some R132356510062017.m_clear := by look [fnTable]
theorem Fn.Signature.new : package.fn "Signature.new" =
    some Signature.f_new := by look [fnTable]
theorem Fn.GOST34102012.__init__ : package.fn "GOST34102012.__init__" =
    some GOST34102012.m___init__ := by look [fnTable]
theorem Fn.GOST34102012._set_size : package.fn "GOST34102012._set_size" =
    some GOST34102012.m__set_size := by look [fnTable]
theorem Fn.GOST34102012._check_p_m : package.fn "GOST34102012._check_p_m" =
    some GOST34102012.m__check_p_m := by look [fnTable]
theorem Fn.GOST34102012._check_x_y : package.fn "GOST34102012._check_x_y" =
    some GOST34102012.m__check_x_y := by look [fnTable]
theorem Fn.GOST34102012._check_p : package.fn "GOST34102012._check_p" =
    some GOST34102012.m__check_p := by look [fnTable]
theorem Fn.GOST34102012._check_q : package.fn "GOST34102012._check_q" =
    some GOST34102012.m__check_q := by look [fnTable]
theorem Fn.GOST34102012._check_curve : package.fn "GOST34102012._check_curve" =
    some GOST34102012.m__check_curve := by look [fnTable]
theorem Fn.GOST34102012._invert : package.fn "GOST34102012._invert" =
    some GOST34102012.m__invert := by look [fnTable]
theorem Fn.GOST34102012._invert.gcdex : package.fn "GOST34102012._invert.gcdex" =
    some GOST34102012.m__invert_gcdex := by look [fnTable]
theorem Fn.GOST34102012._add : package.fn "GOST34102012._add" =
    some GOST34102012.m__add := by look [fnTable]
theorem Fn.GOST34102012._mul_point : package.fn "GOST34102012._mul_point" =
    some GOST34102012.m__mul_point := by look [fnTable]
theorem Fn.GOST34102012._edvards_to_canonical : package.fn "GOST34102012._edvards_to_canonical" =
    some GOST34102012.m__edvards_to_canonical := by look [fnTable]
theorem Fn.GOST34102012._get_rand_k : package.fn "GOST34102012._get_rand_k" =
    some GOST34102012.m__get_rand_k := by look [fnTable]
theorem Fn.GOST34102012._set_e : package.fn "GOST34102012._set_e" =
    some GOST34102012.m__set_e := by look [fnTable]
theorem Fn.GOST34102012.sign : package.fn "GOST34102012.sign" =
    some GOST34102012.m_sign := by look [fnTable]
theorem Fn.GOST34102012._get_r_s : package.fn "GOST34102012._get_r_s" =
    some GOST34102012.m__get_r_s := by look [fnTable]
theorem Fn.GOST34102012._verify_step_1 : package.fn "GOST34102012._verify_step_1" =
    some GOST34102012.m__verify_step_1 := by look [fnTable]
theorem Fn.GOST34102012.verify : package.fn "GOST34102012.verify" =
    some GOST34102012.m_verify := by look [fnTable]
theorem Fn.GOST34102012.public_key_generate : package.fn "GOST34102012.public_key_generate" =
    some GOST34102012.m_public_key_generate := by look [fnTable]

@[pysem] theorem Glob.Oid.OBJECT_IDENTIFIER_TC26 : package.globals "Oid.OBJECT_IDENTIFIER_TC26" =
    some Oid.g_OBJECT_IDENTIFIER_TC26 := by look [globalTable]
@[pysem] theorem Glob.Oid._TAG_OID : package.globals "Oid._TAG_OID" =
    some Oid.g_TAG_OID := by look [globalTable]
@[pysem] theorem Glob.BlockCipher._BLOCK_SIZE_KUZNECHIK : package.globals "BlockCipher._BLOCK_SIZE_KUZNECHIK" =
    some BlockCipher.g_BLOCK_SIZE_KUZNECHIK := by look [globalTable]
@[pysem] theorem Glob.BlockCipher._BLOCK_SIZE_MAGMA : package.globals "BlockCipher._BLOCK_SIZE_MAGMA" =
    some BlockCipher.g_BLOCK_SIZE_MAGMA := by look [globalTable]
@[pysem] theorem Glob.BlockCipher._KEY_SIZE : package.globals "BlockCipher._KEY_SIZE" =
    some BlockCipher.g_KEY_SIZE := by look [globalTable]
@[pysem] theorem Glob.BlockCipher._GF : package.globals "BlockCipher._GF" =
    some BlockCipher.g_GF := by look [globalTable]
@[pysem] theorem Glob.BlockCipher._S_BOX_KUZNECHIK : package.globals "BlockCipher._S_BOX_KUZNECHIK" =
    some BlockCipher.g_S_BOX_KUZNECHIK := by look [globalTable]
@[pysem] theorem Glob.BlockCipher._S_BOX_REVERSE_KUZNECHIK : package.globals "BlockCipher._S_BOX_REVERSE_KUZNECHIK" =
    some BlockCipher.g_S_BOX_REVERSE_KUZNECHIK := by look [globalTable]
@[pysem] theorem Glob.BlockCipher._S_BOX_MAGMA : package.globals "BlockCipher._S_BOX_MAGMA" =
    some BlockCipher.g_S_BOX_MAGMA := by look [globalTable]
@[pysem] theorem Glob.Modes.MODE_ECB : package.globals "Modes.MODE_ECB" =
    some Modes.g_MODE_ECB := by look [globalTable]
@[pysem] theorem Glob.Modes.MODE_CBC : package.globals "Modes.MODE_CBC" =
    some Modes.g_MODE_CBC := by look [globalTable]
@[pysem] theorem Glob.Modes.MODE_CFB : package.globals "Modes.MODE_CFB" =
    some Modes.g_MODE_CFB := by look [globalTable]
@[pysem] theorem Glob.Modes.MODE_OFB : package.globals "Modes.MODE_OFB" =
    some Modes.g_MODE_OFB := by look [globalTable]
@[pysem] theorem Glob.Modes.MODE_CTR : package.globals "Modes.MODE_CTR" =
    some Modes.g_MODE_CTR := by look [globalTable]
@[pysem] theorem Glob.Modes.MODE_MAC : package.globals "Modes.MODE_MAC" =
    some Modes.g_MODE_MAC := by look [globalTable]
@[pysem] theorem Glob.Modes.PAD_MODE_1 : package.globals "Modes.PAD_MODE_1" =
    some Modes.g_PAD_MODE_1 := by look [globalTable]
@[pysem] theorem Glob.Modes.PAD_MODE_2 : package.globals "Modes.PAD_MODE_2" =
    some Modes.g_PAD_MODE_2 := by look [globalTable]
@[pysem] theorem Glob.Modes._KEY_SIZE : package.globals "Modes._KEY_SIZE" =
    some Modes.g_KEY_SIZE := by look [globalTable]
@[pysem] theorem Glob.Modes._DEFAULT_IV_CTR_KUZNECHIK : package.globals "Modes._DEFAULT_IV_CTR_KUZNECHIK" =
    some Modes.g_DEFAULT_IV_CTR_KUZNECHIK := by look [globalTable]
@[pysem] theorem Glob.Modes._DEFAULT_IV_CTR_MAGMA : package.globals "Modes._DEFAULT_IV_CTR_MAGMA" =
    some Modes.g_DEFAULT_IV_CTR_MAGMA := by look [globalTable]
@[pysem] theorem Glob.Modes._DEFAULT_IV_KUZNECHIK : package.globals "Modes._DEFAULT_IV_KUZNECHIK" =
    some Modes.g_DEFAULT_IV_KUZNECHIK := by look [globalTable]
@[pysem] theorem Glob.Modes._DEFAULT_IV_MAGMA : package.globals "Modes._DEFAULT_IV_MAGMA" =
    some Modes.g_DEFAULT_IV_MAGMA := by look [globalTable]
@[pysem] theorem Glob.Modes._DEFAULT_IV_CBC_MAGMA : package.globals "Modes._DEFAULT_IV_CBC_MAGMA" =
    some Modes.g_DEFAULT_IV_CBC_MAGMA := by look [globalTable]
@[pysem] theorem Glob.Modes._B_64 : package.globals "Modes._B_64" =
    some Modes.g_B_64 := by look [globalTable]
@[pysem] theorem Glob.Modes._B_128 : package.globals "Modes._B_128" =
    some Modes.g_B_128 := by look [globalTable]
@[pysem] theorem Glob.Hash._BLOCK_SIZE : package.globals "Hash._BLOCK_SIZE" =
    some Hash.g_BLOCK_SIZE := by look [globalTable]
@[pysem] theorem Glob.Hash._V_0 : package.globals "Hash._V_0" =
    some Hash.g_V_0 := by look [globalTable]
@[pysem] theorem Glob.Hash._V_512 : package.globals "Hash._V_512" =
    some Hash.g_V_512 := by look [globalTable]
@[pysem] theorem Glob.Hash._T : package.globals "Hash._T" =
    some Hash.g_T := by look [globalTable]
@[pysem] theorem Glob.Hash._C : package.globals "Hash._C" =
    some Hash.g_C := by look [globalTable]
@[pysem] theorem Glob.Hmac._KEY_SIZE : package.globals "Hmac._KEY_SIZE" =
    some Hmac.g_KEY_SIZE := by look [globalTable]
@[pysem] theorem Glob.Hmac._I_PAD : package.globals "Hmac._I_PAD" =
    some Hmac.g_I_PAD := by look [globalTable]
@[pysem] theorem Glob.Hmac._O_PAD : package.globals "Hmac._O_PAD" =
    some Hmac.g_O_PAD := by look [globalTable]
@[pysem] theorem Glob.Pbkdf._BLOCK_SIZE : package.globals "Pbkdf._BLOCK_SIZE" =
    some Pbkdf.g_BLOCK_SIZE := by look [globalTable]
@[pysem] theorem Glob.Random.SIZE_S_384 : package.globals "Random.SIZE_S_384" =
    some Random.g_SIZE_S_384 := by look [globalTable]
@[pysem] theorem Glob.Random.SIZE_S_320 : package.globals "Random.SIZE_S_320" =
    some Random.g_SIZE_S_320 := by look [globalTable]
@[pysem] theorem Glob.Random.SIZE_S_256 : package.globals "Random.SIZE_S_256" =
    some Random.g_SIZE_S_256 := by look [globalTable]
@[pysem] theorem Glob.Random._SIZE_M : package.globals "Random._SIZE_M" =
    some Random.g_SIZE_M := by look [globalTable]
@[pysem] theorem Glob.Random._SIZE_H : package.globals "Random._SIZE_H" =
    some Random.g_SIZE_H := by look [globalTable]
@[pysem] theorem Glob.Signature.MODE_256 : package.globals "Signature.MODE_256" =
    some Signature.g_MODE_256 := by look [globalTable]
@[pysem] theorem Glob.Signature.MODE_512 : package.globals "Signature.MODE_512" =
    some Signature.g_MODE_512 := by look [globalTable]

attribute [pysem] Oid.g_TAG_OID
attribute [pysem] BlockCipher.g_BLOCK_SIZE_KUZNECHIK
attribute [pysem] BlockCipher.g_BLOCK_SIZE_MAGMA
attribute [pysem] BlockCipher.g_KEY_SIZE
attribute [pysem] Modes.g_MODE_ECB
attribute [pysem] Modes.g_MODE_CBC
attribute [pysem] Modes.g_MODE_CFB
attribute [pysem] Modes.g_MODE_OFB
attribute [pysem] Modes.g_MODE_CTR
attribute [pysem] Modes.g_MODE_MAC
attribute [pysem] Modes.g_PAD_MODE_1
attribute [pysem] Modes.g_PAD_MODE_2
attribute [pysem] Modes.g_KEY_SIZE
attribute [pysem] Hash.g_BLOCK_SIZE
attribute [pysem] Hmac.g_KEY_SIZE
attribute [pysem] Pbkdf.g_BLOCK_SIZE
attribute [pysem] Random.g_SIZE_S_384
attribute [pysem] Random.g_SIZE_S_320
attribute [pysem] Random.g_SIZE_S_256
attribute [pysem] Random.g_SIZE_M
attribute [pysem] Random.g_SIZE_H
attribute [pysem] Signature.g_MODE_256
attribute [pysem] Signature.g_MODE_512

@[pysem] theorem Meth.ObjectIdentifier.__init__ : package.method "ObjectIdentifier" "__init__" =
    some ("ObjectIdentifier.__init__", false) := by look [methodTable]
@[pysem] theorem Meth.ObjectIdentifier.__str__ : package.method "ObjectIdentifier" "__str__" =
    some ("ObjectIdentifier.__str__", false) := by look [methodTable]
@[pysem] theorem Meth.GOST34122015Kuznechik.__init__ : package.method "GOST34122015Kuznechik" "__init__" =
    some ("GOST34122015Kuznechik.__init__", false) := by look [methodTable]
@[pysem] theorem Meth.GOST34122015Kuznechik.__del__ : package.method "GOST34122015Kuznechik" "__del__" =
    some ("GOST34122015Kuznechik.__del__", false) := by look [methodTable]
@[pysem] theorem Meth.GOST34122015Kuznechik._cipher_s : package.method "GOST34122015Kuznechik" "_cipher_s" =
    some ("GOST34122015Kuznechik._cipher_s", true) := by look [methodTable]
@[pysem] theorem Meth.GOST34122015Kuznechik._cipher_s_reverse : package.method "GOST34122015Kuznechik" "_cipher_s_reverse" =
    some ("GOST34122015Kuznechik._cipher_s_reverse", true) := by look [methodTable]
@[pysem] theorem Meth.GOST34122015Kuznechik._cipher_r : package.method "GOST34122015Kuznechik" "_cipher_r" =
    some ("GOST34122015Kuznechik._cipher_r", true) := by look [methodTable]
@[pysem] theorem Meth.GOST34122015Kuznechik._cipher_r_reverse : package.method "GOST34122015Kuznechik" "_cipher_r_reverse" =
    some ("GOST34122015Kuznechik._cipher_r_reverse", true) := by look [methodTable]
@[pysem] theorem Meth.GOST34122015Kuznechik._cipher_l : package.method "GOST34122015Kuznechik" "_cipher_l" =
    some ("GOST34122015Kuznechik._cipher_l", true) := by look [methodTable]
@[pysem] theorem Meth.GOST34122015Kuznechik._cipher_l_reverse : package.method "GOST34122015Kuznechik" "_cipher_l_reverse" =
    some ("GOST34122015Kuznechik._cipher_l_reverse", true) := by look [methodTable]
@[pysem] theorem Meth.GOST34122015Kuznechik._cipher_get_c : package.method "GOST34122015Kuznechik" "_cipher_get_c" =
    some ("GOST34122015Kuznechik._cipher_get_c", false) := by look [methodTable]
@[pysem] theorem Meth.GOST34122015Kuznechik.decrypt : package.method "GOST34122015Kuznechik" "decrypt" =
    some ("GOST34122015Kuznechik.decrypt", false) := by look [methodTable]
@[pysem] theorem Meth.GOST34122015Kuznechik.encrypt : package.method "GOST34122015Kuznechik" "encrypt" =
    some ("GOST34122015Kuznechik.encrypt", false) := by look [methodTable]
@[pysem] theorem Meth.GOST34122015Kuznechik.clear : package.method "GOST34122015Kuznechik" "clear" =
    some ("GOST34122015Kuznechik.clear", false) := by look [methodTable]
@[pysem] theorem Meth.GOST34122015Magma.__init__ : package.method "GOST34122015Magma" "__init__" =
    some ("GOST34122015Magma.__init__", false) := by look [methodTable]
@[pysem] theorem Meth.GOST34122015Magma.__del__ : package.method "GOST34122015Magma" "__del__" =
    some ("GOST34122015Magma.__del__", false) := by look [methodTable]
@[pysem] theorem Meth.GOST34122015Magma._expand_iter_key : package.method "GOST34122015Magma" "_expand_iter_key" =
    some ("GOST34122015Magma._expand_iter_key", false) := by look [methodTable]
@[pysem] theorem Meth.GOST34122015Magma._expand_iter_key_final : package.method "GOST34122015Magma" "_expand_iter_key_final" =
    some ("GOST34122015Magma._expand_iter_key_final", false) := by look [methodTable]
@[pysem] theorem Meth.GOST34122015Magma._cipher_t : package.method "GOST34122015Magma" "_cipher_t" =
    some ("GOST34122015Magma._cipher_t", true) := by look [methodTable]
@[pysem] theorem Meth.GOST34122015Magma._cipher_add_32 : package.method "GOST34122015Magma" "_cipher_add_32" =
    some ("GOST34122015Magma._cipher_add_32", true) := by look [methodTable]
@[pysem] theorem Meth.GOST34122015Magma._cipher_g : package.method "GOST34122015Magma" "_cipher_g" =
    some ("GOST34122015Magma._cipher_g", true) := by look [methodTable]
@[pysem] theorem Meth.GOST34122015Magma._cipher_g_iter_result : package.method "GOST34122015Magma" "_cipher_g_iter_result" =
    some ("GOST34122015Magma._cipher_g_iter_result", true) := by look [methodTable]
@[pysem] theorem Meth.GOST34122015Magma._cipher_g_iter : package.method "GOST34122015Magma" "_cipher_g_iter" =
    some ("GOST34122015Magma._cipher_g_iter", true) := by look [methodTable]
@[pysem] theorem Meth.GOST34122015Magma._cipher_g_prev : package.method "GOST34122015Magma" "_cipher_g_prev" =
    some ("GOST34122015Magma._cipher_g_prev", true) := by look [methodTable]
@[pysem] theorem Meth.GOST34122015Magma._cipher_g_fin : package.method "GOST34122015Magma" "_cipher_g_fin" =
    some ("GOST34122015Magma._cipher_g_fin", true) := by look [methodTable]
@[pysem] theorem Meth.GOST34122015Magma.decrypt : package.method "GOST34122015Magma" "decrypt" =
    some ("GOST34122015Magma.decrypt", false) := by look [methodTable]
@[pysem] theorem Meth.GOST34122015Magma.encrypt : package.method "GOST34122015Magma" "encrypt" =
    some ("GOST34122015Magma.encrypt", false) := by look [methodTable]
@[pysem] theorem Meth.GOST34122015Magma.clear : package.method "GOST34122015Magma" "clear" =
    some ("GOST34122015Magma.clear", false) := by look [methodTable]
@[pysem] theorem Meth.GOST34132015.__init__ : package.method "GOST34132015" "__init__" =
    some ("GOST34132015.__init__", false) := by look [methodTable]
@[pysem] theorem Meth.GOST34132015.__del__ : package.method "GOST34132015" "__del__" =
    some ("GOST34132015.__del__", false) := by look [methodTable]
@[pysem] theorem Meth.GOST34132015._get_num_block : package.method "GOST34132015" "_get_num_block" =
    some ("GOST34132015._get_num_block", false) := by look [methodTable]
@[pysem] theorem Meth.GOST34132015._get_pad_size : package.method "GOST34132015" "_get_pad_size" =
    some ("GOST34132015._get_pad_size", false) := by look [methodTable]
@[pysem] theorem Meth.GOST34132015._get_block : package.method "GOST34132015" "_get_block" =
    some ("GOST34132015._get_block", false) := by look [methodTable]
@[pysem] theorem Meth.GOST34132015.clear : package.method "GOST34132015" "clear" =
    some ("GOST34132015.clear", false) := by look [methodTable]
@[pysem] theorem Meth.GOST34132015Cipher.encrypt : package.method "GOST34132015Cipher" "encrypt" =
    some ("GOST34132015Cipher.encrypt", false) := by look [methodTable]
@[pysem] theorem Meth.GOST34132015Cipher.decrypt : package.method "GOST34132015Cipher" "decrypt" =
    some ("GOST34132015Cipher.decrypt", false) := by look [methodTable]
@[pysem] theorem Meth.GOST34132015Cipher.__init__ : package.method "GOST34132015Cipher" "__init__" =
    some ("GOST34132015.__init__", false) := by look [methodTable]
@[pysem] theorem Meth.GOST34132015Cipher.__del__ : package.method "GOST34132015Cipher" "__del__" =
    some ("GOST34132015.__del__", false) := by look [methodTable]
@[pysem] theorem Meth.GOST34132015Cipher._get_num_block : package.method "GOST34132015Cipher" "_get_num_block" =
    some ("GOST34132015._get_num_block", false) := by look [methodTable]
@[pysem] theorem Meth.GOST34132015Cipher._get_pad_size : package.method "GOST34132015Cipher" "_get_pad_size" =
    some ("GOST34132015._get_pad_size", false) := by look [methodTable]
@[pysem] theorem Meth.GOST34132015Cipher._get_block : package.method "GOST34132015Cipher" "_get_block" =
    some ("GOST34132015._get_block", false) := by look [methodTable]
@[pysem] theorem Meth.GOST34132015Cipher.clear : package.method "GOST34132015Cipher" "clear" =
    some ("GOST34132015.clear", false) := by look [methodTable]
@[pysem] theorem Meth.GOST34132015CipherPadding.__init__ : package.method "GOST34132015CipherPadding" "__init__" =
    some ("GOST34132015CipherPadding.__init__", false) := by look [methodTable]
@[pysem] theorem Meth.GOST34132015CipherPadding._set_pad_mode_1 : package.method "GOST34132015CipherPadding" "_set_pad_mode_1" =
    some ("GOST34132015CipherPadding._set_pad_mode_1", false) := by look [methodTable]
@[pysem] theorem Meth.GOST34132015CipherPadding._set_pad_mode_2 : package.method "GOST34132015CipherPadding" "_set_pad_mode_2" =
    some ("GOST34132015CipherPadding._set_pad_mode_2", false) := by look [methodTable]
@[pysem] theorem Meth.GOST34132015CipherPadding._set_padding : package.method "GOST34132015CipherPadding" "_set_padding" =
    some ("GOST34132015CipherPadding._set_padding", false) := by look [methodTable]
@[pysem] theorem Meth.GOST34132015CipherPadding.encrypt : package.method "GOST34132015CipherPadding" "encrypt" =
    some ("GOST34132015CipherPadding.encrypt", false) := by look [methodTable]
@[pysem] theorem Meth.GOST34132015CipherPadding.decrypt : package.method "GOST34132015CipherPadding" "decrypt" =
    some ("GOST34132015CipherPadding.decrypt", false) := by look [methodTable]
@[pysem] theorem Meth.GOST34132015CipherPadding.__del__ : package.method "GOST34132015CipherPadding" "__del__" =
    some ("GOST34132015.__del__", false) := by look [methodTable]
@[pysem] theorem Meth.GOST34132015CipherPadding._get_num_block : package.method "GOST34132015CipherPadding" "_get_num_block" =
    some ("GOST34132015._get_num_block", false) := by look [methodTable]
@[pysem] theorem Meth.GOST34132015CipherPadding._get_pad_size : package.method "GOST34132015CipherPadding" "_get_pad_size" =
    some ("GOST34132015._get_pad_size", false) := by look [methodTable]
@[pysem] theorem Meth.GOST34132015CipherPadding._get_block : package.method "GOST34132015CipherPadding" "_get_block" =
    some ("GOST34132015._get_block", false) := by look [methodTable]
@[pysem] theorem Meth.GOST34132015CipherPadding.clear : package.method "GOST34132015CipherPadding" "clear" =
    some ("GOST34132015.clear", false) := by look [methodTable]
@[pysem] theorem Meth.GOST34132015CipherFeedBack.__init__ : package.method "GOST34132015CipherFeedBack" "__init__" =
    some ("GOST34132015CipherFeedBack.__init__", false) := by look [methodTable]
@[pysem] theorem Meth.GOST34132015CipherFeedBack._get_gamma : package.method "GOST34132015CipherFeedBack" "_get_gamma" =
    some ("GOST34132015CipherFeedBack._get_gamma", false) := by look [methodTable]
@[pysem] theorem Meth.GOST34132015CipherFeedBack._set_init_vect : package.method "GOST34132015CipherFeedBack" "_set_init_vect" =
    some ("GOST34132015CipherFeedBack._set_init_vect", false) := by look [methodTable]
@[pysem] theorem Meth.GOST34132015CipherFeedBack._get_final_block : package.method "GOST34132015CipherFeedBack" "_get_final_block" =
    some ("GOST34132015CipherFeedBack._get_final_block", false) := by look [methodTable]
@[pysem] theorem Meth.GOST34132015CipherFeedBack._final_cipher : package.method "GOST34132015CipherFeedBack" "_final_cipher" =
    some ("GOST34132015CipherFeedBack._final_cipher", false) := by look [methodTable]
@[pysem] theorem Meth.GOST34132015CipherFeedBack.encrypt : package.method "GOST34132015CipherFeedBack" "encrypt" =
    some ("GOST34132015CipherFeedBack.encrypt", false) := by look [methodTable]
@[pysem] theorem Meth.GOST34132015CipherFeedBack.decrypt : package.method "GOST34132015CipherFeedBack" "decrypt" =
    some ("GOST34132015CipherFeedBack.decrypt", false) := by look [methodTable]
@[pysem] theorem Meth.GOST34132015CipherFeedBack.__del__ : package.method "GOST34132015CipherFeedBack" "__del__" =
    some ("GOST34132015.__del__", false) := by look [methodTable]
@[pysem] theorem Meth.GOST34132015CipherFeedBack._get_num_block : package.method "GOST34132015CipherFeedBack" "_get_num_block" =
    some ("GOST34132015._get_num_block", false) := by look [methodTable]
@[pysem] theorem Meth.GOST34132015CipherFeedBack._get_pad_size : package.method "GOST34132015CipherFeedBack" "_get_pad_size" =
    some ("GOST34132015._get_pad_size", false) := by look [methodTable]
@[pysem] theorem Meth.GOST34132015CipherFeedBack._get_block : package.method "GOST34132015CipherFeedBack" "_get_block" =
    some ("GOST34132015._get_block", false) := by look [methodTable]
@[pysem] theorem Meth.GOST34132015CipherFeedBack.clear : package.method "GOST34132015CipherFeedBack" "clear" =
    some ("GOST34132015.clear", false) := by look [methodTable]
@[pysem] theorem Meth.GOST34132015ecb.encrypt : package.method "GOST34132015ecb" "encrypt" =
    some ("GOST34132015ecb.encrypt", false) := by look [methodTable]
@[pysem] theorem Meth.GOST34132015ecb.decrypt : package.method "GOST34132015ecb" "decrypt" =
    some ("GOST34132015ecb.decrypt", false) := by look [methodTable]
@[pysem] theorem Meth.GOST34132015ecb.__init__ : package.method "GOST34132015ecb" "__init__" =
    some ("GOST34132015CipherPadding.__init__", false) := by look [methodTable]
@[pysem] theorem Meth.GOST34132015ecb._set_pad_mode_1 : package.method "GOST34132015ecb" "_set_pad_mode_1" =
    some ("GOST34132015CipherPadding._set_pad_mode_1", false) := by look [methodTable]
@[pysem] theorem Meth.GOST34132015ecb._set_pad_mode_2 : package.method "GOST34132015ecb" "_set_pad_mode_2" =
    some ("GOST34132015CipherPadding._set_pad_mode_2", false) := by look [methodTable]
@[pysem] theorem Meth.GOST34132015ecb._set_padding : package.method "GOST34132015ecb" "_set_padding" =
    some ("GOST34132015CipherPadding._set_padding", false) := by look [methodTable]
@[pysem] theorem Meth.GOST34132015ecb.__del__ : package.method "GOST34132015ecb" "__del__" =
    some ("GOST34132015.__del__", false) := by look [methodTable]
@[pysem] theorem Meth.GOST34132015ecb._get_num_block : package.method "GOST34132015ecb" "_get_num_block" =
    some ("GOST34132015._get_num_block", false) := by look [methodTable]
@[pysem] theorem Meth.GOST34132015ecb._get_pad_size : package.method "GOST34132015ecb" "_get_pad_size" =
    some ("GOST34132015._get_pad_size", false) := by look [methodTable]
@[pysem] theorem Meth.GOST34132015ecb._get_block : package.method "GOST34132015ecb" "_get_block" =
    some ("GOST34132015._get_block", false) := by look [methodTable]
@[pysem] theorem Meth.GOST34132015ecb.clear : package.method "GOST34132015ecb" "clear" =
    some ("GOST34132015.clear", false) := by look [methodTable]
@[pysem] theorem Meth.GOST34132015cbc.__init__ : package.method "GOST34132015cbc" "__init__" =
    some ("GOST34132015cbc.__init__", false) := by look [methodTable]
@[pysem] theorem Meth.GOST34132015cbc.encrypt : package.method "GOST34132015cbc" "encrypt" =
    some ("GOST34132015cbc.encrypt", false) := by look [methodTable]
@[pysem] theorem Meth.GOST34132015cbc.decrypt : package.method "GOST34132015cbc" "decrypt" =
    some ("GOST34132015cbc.decrypt", false) := by look [methodTable]
@[pysem] theorem Meth.GOST34132015cbc._set_pad_mode_1 : package.method "GOST34132015cbc" "_set_pad_mode_1" =
    some ("GOST34132015CipherPadding._set_pad_mode_1", false) := by look [methodTable]
@[pysem] theorem Meth.GOST34132015cbc._set_pad_mode_2 : package.method "GOST34132015cbc" "_set_pad_mode_2" =
    some ("GOST34132015CipherPadding._set_pad_mode_2", false) := by look [methodTable]
@[pysem] theorem Meth.GOST34132015cbc._set_padding : package.method "GOST34132015cbc" "_set_padding" =
    some ("GOST34132015CipherPadding._set_padding", false) := by look [methodTable]
@[pysem] theorem Meth.GOST34132015cbc._get_gamma : package.method "GOST34132015cbc" "_get_gamma" =
    some ("GOST34132015CipherFeedBack._get_gamma", false) := by look [methodTable]
@[pysem] theorem Meth.GOST34132015cbc._set_init_vect : package.method "GOST34132015cbc" "_set_init_vect" =
    some ("GOST34132015CipherFeedBack._set_init_vect", false) := by look [methodTable]
@[pysem] theorem Meth.GOST34132015cbc._get_final_block : package.method "GOST34132015cbc" "_get_final_block" =
    some ("GOST34132015CipherFeedBack._get_final_block", false) := by look [methodTable]
@[pysem] theorem Meth.GOST34132015cbc._final_cipher : package.method "GOST34132015cbc" "_final_cipher" =
    some ("GOST34132015CipherFeedBack._final_cipher", false) := by look [methodTable]
@[pysem] theorem Meth.GOST34132015cbc.__del__ : package.method "GOST34132015cbc" "__del__" =
    some ("GOST34132015.__del__", false) := by look [methodTable]
@[pysem] theorem Meth.GOST34132015cbc._get_num_block : package.method "GOST34132015cbc" "_get_num_block" =
    some ("GOST34132015._get_num_block", false) := by look [methodTable]
@[pysem] theorem Meth.GOST34132015cbc._get_pad_size : package.method "GOST34132015cbc" "_get_pad_size" =
    some ("GOST34132015._get_pad_size", false) := by look [methodTable]
@[pysem] theorem Meth.GOST34132015cbc._get_block : package.method "GOST34132015cbc" "_get_block" =
    some ("GOST34132015._get_block", false) := by look [methodTable]
@[pysem] theorem Meth.GOST34132015cbc.clear : package.method "GOST34132015cbc" "clear" =
    some ("GOST34132015.clear", false) := by look [methodTable]
@[pysem] theorem Meth.GOST34132015cfb.encrypt : package.method "GOST34132015cfb" "encrypt" =
    some ("GOST34132015cfb.encrypt", false) := by look [methodTable]
@[pysem] theorem Meth.GOST34132015cfb.decrypt : package.method "GOST34132015cfb" "decrypt" =
    some ("GOST34132015cfb.decrypt", false) := by look [methodTable]
@[pysem] theorem Meth.GOST34132015cfb.__init__ : package.method "GOST34132015cfb" "__init__" =
    some ("GOST34132015CipherFeedBack.__init__", false) := by look [methodTable]
@[pysem] theorem Meth.GOST34132015cfb._get_gamma : package.method "GOST34132015cfb" "_get_gamma" =
    some ("GOST34132015CipherFeedBack._get_gamma", false) := by look [methodTable]
@[pysem] theorem Meth.GOST34132015cfb._set_init_vect : package.method "GOST34132015cfb" "_set_init_vect" =
    some ("GOST34132015CipherFeedBack._set_init_vect", false) := by look [methodTable]
@[pysem] theorem Meth.GOST34132015cfb._get_final_block : package.method "GOST34132015cfb" "_get_final_block" =
    some ("GOST34132015CipherFeedBack._get_final_block", false) := by look [methodTable]
@[pysem] theorem Meth.GOST34132015cfb._final_cipher : package.method "GOST34132015cfb" "_final_cipher" =
    some ("GOST34132015CipherFeedBack._final_cipher", false) := by look [methodTable]
@[pysem] theorem Meth.GOST34132015cfb.__del__ : package.method "GOST34132015cfb" "__del__" =
    some ("GOST34132015.__del__", false) := by look [methodTable]
@[pysem] theorem Meth.GOST34132015cfb._get_num_block : package.method "GOST34132015cfb" "_get_num_block" =
    some ("GOST34132015._get_num_block", false) := by look [methodTable]
@[pysem] theorem Meth.GOST34132015cfb._get_pad_size : package.method "GOST34132015cfb" "_get_pad_size" =
    some ("GOST34132015._get_pad_size", false) := by look [methodTable]
@[pysem] theorem Meth.GOST34132015cfb._get_block : package.method "GOST34132015cfb" "_get_block" =
    some ("GOST34132015._get_block", false) := by look [methodTable]
@[pysem] theorem Meth.GOST34132015cfb.clear : package.method "GOST34132015cfb" "clear" =
    some ("GOST34132015.clear", false) := by look [methodTable]
@[pysem] theorem Meth.GOST34132015ofb.encrypt : package.method "GOST34132015ofb" "encrypt" =
    some ("GOST34132015ofb.encrypt", false) := by look [methodTable]
@[pysem] theorem Meth.GOST34132015ofb.decrypt : package.method "GOST34132015ofb" "decrypt" =
    some ("GOST34132015ofb.decrypt", false) := by look [methodTable]
@[pysem] theorem Meth.GOST34132015ofb.__init__ : package.method "GOST34132015ofb" "__init__" =
    some ("GOST34132015CipherFeedBack.__init__", false) := by look [methodTable]
@[pysem] theorem Meth.GOST34132015ofb._get_gamma : package.method "GOST34132015ofb" "_get_gamma" =
    some ("GOST34132015CipherFeedBack._get_gamma", false) := by look [methodTable]
@[pysem] theorem Meth.GOST34132015ofb._set_init_vect : package.method "GOST34132015ofb" "_set_init_vect" =
    some ("GOST34132015CipherFeedBack._set_init_vect", false) := by look [methodTable]
@[pysem] theorem Meth.GOST34132015ofb._get_final_block : package.method "GOST34132015ofb" "_get_final_block" =
    some ("GOST34132015CipherFeedBack._get_final_block", false) := by look [methodTable]
@[pysem] theorem Meth.GOST34132015ofb._final_cipher : package.method "GOST34132015ofb" "_final_cipher" =
    some ("GOST34132015CipherFeedBack._final_cipher", false) := by look [methodTable]
@[pysem] theorem Meth.GOST34132015ofb.__del__ : package.method "GOST34132015ofb" "__del__" =
    some ("GOST34132015.__del__", false) := by look [methodTable]
@[pysem] theorem Meth.GOST34132015ofb._get_num_block : package.method "GOST34132015ofb" "_get_num_block" =
    some ("GOST34132015._get_num_block", false) := by look [methodTable]
@[pysem] theorem Meth.GOST34132015ofb._get_pad_size : package.method "GOST34132015ofb" "_get_pad_size" =
    some ("GOST34132015._get_pad_size", false) := by look [methodTable]
@[pysem] theorem Meth.GOST34132015ofb._get_block : package.method "GOST34132015ofb" "_get_block" =
    some ("GOST34132015._get_block", false) := by look [methodTable]
@[pysem] theorem Meth.GOST34132015ofb.clear : package.method "GOST34132015ofb" "clear" =
    some ("GOST34132015.clear", false) := by look [methodTable]
@[pysem] theorem Meth.GOST34132015ctr.__init__ : package.method "GOST34132015ctr" "__init__" =
    some ("GOST34132015ctr.__init__", false) := by look [methodTable]
@[pysem] theorem Meth.GOST34132015ctr._inc_ctr : package.method "GOST34132015ctr" "_inc_ctr" =
    some ("GOST34132015ctr._inc_ctr", false) := by look [methodTable]
@[pysem] theorem Meth.GOST34132015ctr.encrypt : package.method "GOST34132015ctr" "encrypt" =
    some ("GOST34132015ctr.encrypt", false) := by look [methodTable]
@[pysem] theorem Meth.GOST34132015ctr.decrypt : package.method "GOST34132015ctr" "decrypt" =
    some ("GOST34132015ctr.decrypt", false) := by look [methodTable]
@[pysem] theorem Meth.GOST34132015ctr.__del__ : package.method "GOST34132015ctr" "__del__" =
    some ("GOST34132015.__del__", false) := by look [methodTable]
@[pysem] theorem Meth.GOST34132015ctr._get_num_block : package.method "GOST34132015ctr" "_get_num_block" =
    some ("GOST34132015._get_num_block", false) := by look [methodTable]
@[pysem] theorem Meth.GOST34132015ctr._get_pad_size : package.method "GOST34132015ctr" "_get_pad_size" =
    some ("GOST34132015._get_pad_size", false) := by look [methodTable]
@[pysem] theorem Meth.GOST34132015ctr._get_block : package.method "GOST34132015ctr" "_get_block" =
    some ("GOST34132015._get_block", false) := by look [methodTable]
@[pysem] theorem Meth.GOST34132015ctr.clear : package.method "GOST34132015ctr" "clear" =
    some ("GOST34132015.clear", false) := by look [methodTable]
@[pysem] theorem Meth.GOST34132015mac.__init__ : package.method "GOST34132015mac" "__init__" =
    some ("GOST34132015mac.__init__", false) := by look [methodTable]
@[pysem] theorem Meth.GOST34132015mac._set_pad_mode_3 : package.method "GOST34132015mac" "_set_pad_mode_3" =
    some ("GOST34132015mac._set_pad_mode_3", false) := by look [methodTable]
@[pysem] theorem Meth.GOST34132015mac._get_mac_key : package.method "GOST34132015mac" "_get_mac_key" =
    some ("GOST34132015mac._get_mac_key", false) := by look [methodTable]
@[pysem] theorem Meth.GOST34132015mac.update : package.method "GOST34132015mac" "update" =
    some ("GOST34132015mac.update", false) := by look [methodTable]
@[pysem] theorem Meth.GOST34132015mac.mac_final : package.method "GOST34132015mac" "mac_final" =
    some ("GOST34132015mac.mac_final", false) := by look [methodTable]
@[pysem] theorem Meth.GOST34132015mac.digest : package.method "GOST34132015mac" "digest" =
    some ("GOST34132015mac.digest", false) := by look [methodTable]
@[pysem] theorem Meth.GOST34132015mac.hexdigest : package.method "GOST34132015mac" "hexdigest" =
    some ("GOST34132015mac.hexdigest", false) := by look [methodTable]
@[pysem] theorem Meth.GOST34132015mac.__del__ : package.method "GOST34132015mac" "__del__" =
    some ("GOST34132015.__del__", false) := by look [methodTable]
@[pysem] theorem Meth.GOST34132015mac._get_num_block : package.method "GOST34132015mac" "_get_num_block" =
    some ("GOST34132015._get_num_block", false) := by look [methodTable]
@[pysem] theorem Meth.GOST34132015mac._get_pad_size : package.method "GOST34132015mac" "_get_pad_size" =
    some ("GOST34132015._get_pad_size", false) := by look [methodTable]
@[pysem] theorem Meth.GOST34132015mac._get_block : package.method "GOST34132015mac" "_get_block" =
    some ("GOST34132015._get_block", false) := by look [methodTable]
@[pysem] theorem Meth.GOST34132015mac.clear : package.method "GOST34132015mac" "clear" =
    some ("GOST34132015.clear", false) := by look [methodTable]
@[pysem] theorem Meth.GOST34112012.__init__ : package.method "GOST34112012" "__init__" =
    some ("GOST34112012.__init__", false) := by look [methodTable]
@[pysem] theorem Meth.GOST34112012._hash_init : package.method "GOST34112012" "_hash_init" =
    some ("GOST34112012._hash_init", false) := by look [methodTable]
@[pysem] theorem Meth.GOST34112012._hash_add_512 : package.method "GOST34112012" "_hash_add_512" =
    some ("GOST34112012._hash_add_512", true) := by look [methodTable]
@[pysem] theorem Meth.GOST34112012._hash_lps : package.method "GOST34112012" "_hash_lps" =
    some ("GOST34112012._hash_lps", true) := by look [methodTable]
@[pysem] theorem Meth.GOST34112012._hash_get_key : package.method "GOST34112012" "_hash_get_key" =
    some ("GOST34112012._hash_get_key", false) := by look [methodTable]
@[pysem] theorem Meth.GOST34112012._hash_e : package.method "GOST34112012" "_hash_e" =
    some ("GOST34112012._hash_e", false) := by look [methodTable]
@[pysem] theorem Meth.GOST34112012._hash_g : package.method "GOST34112012" "_hash_g" =
    some ("GOST34112012._hash_g", false) := by look [methodTable]
@[pysem] theorem Meth.GOST34112012.update : package.method "GOST34112012" "update" =
    some ("GOST34112012.update", false) := by look [methodTable]
@[pysem] theorem Meth.GOST34112012.hash_final : package.method "GOST34112012" "hash_final" =
    some ("GOST34112012.hash_final", false) := by look [methodTable]
@[pysem] theorem Meth.GOST34112012.get_hash : package.method "GOST34112012" "get_hash" =
    some ("GOST34112012.get_hash", false) := by look [methodTable]
@[pysem] theorem Meth.GOST34112012.digest : package.method "GOST34112012" "digest" =
    some ("GOST34112012.digest", false) := by look [methodTable]
@[pysem] theorem Meth.GOST34112012.hexdigest : package.method "GOST34112012" "hexdigest" =
    some ("GOST34112012.hexdigest", false) := by look [methodTable]
@[pysem] theorem Meth.GOST34112012.reset : package.method "GOST34112012" "reset" =
    some ("GOST34112012.reset", false) := by look [methodTable]
@[pysem] theorem Meth.GOST34112012.copy : package.method "GOST34112012" "copy" =
    some ("GOST34112012.copy", false) := by look [methodTable]
@[pysem] theorem Meth.R5011132016.__init__ : package.method "R5011132016" "__init__" =
    some ("R5011132016.__init__", false) := by look [methodTable]
@[pysem] theorem Meth.R5011132016.__del__ : package.method "R5011132016" "__del__" =
    some ("R5011132016.__del__", false) := by look [methodTable]
@[pysem] theorem Meth.R5011132016.update : package.method "R5011132016" "update" =
    some ("R5011132016.update", false) := by look [methodTable]
@[pysem] theorem Meth.R5011132016.digest : package.method "R5011132016" "digest" =
    some ("R5011132016.digest", false) := by look [methodTable]
@[pysem] theorem Meth.R5011132016.hexdigest : package.method "R5011132016" "hexdigest" =
    some ("R5011132016.hexdigest", false) := by look [methodTable]
@[pysem] theorem Meth.R5011132016.copy : package.method "R5011132016" "copy" =
    some ("R5011132016.copy", false) := by look [methodTable]
@[pysem] theorem Meth.R5011132016.reset : package.method "R5011132016" "reset" =
    some ("R5011132016.reset", false) := by look [methodTable]
@[pysem] theorem Meth.R5011132016.clear : package.method "R5011132016" "clear" =
    some ("R5011132016.clear", false) := by look [methodTable]
@[pysem] theorem Meth.R5011112016.__init__ : package.method "R5011112016" "__init__" =
    some ("R5011112016.__init__", false) := by look [methodTable]
@[pysem] theorem Meth.R5011112016.__del__ : package.method "R5011112016" "__del__" =
    some ("R5011112016.__del__", false) := by look [methodTable]
@[pysem] theorem Meth.R5011112016._u_first : package.method "R5011112016" "_u_first" =
    some ("R5011112016._u_first", false) := by look [methodTable]
@[pysem] theorem Meth.R5011112016._u_iter : package.method "R5011112016" "_u_iter" =
    some ("R5011112016._u_iter", false) := by look [methodTable]
@[pysem] theorem Meth.R5011112016._f : package.method "R5011112016" "_f" =
    some ("R5011112016._f", false) := by look [methodTable]
@[pysem] theorem Meth.R5011112016._calculate_pbkdf : package.method "R5011112016" "_calculate_pbkdf" =
    some ("R5011112016._calculate_pbkdf", false) := by look [methodTable]
@[pysem] theorem Meth.R5011112016.derive : package.method "R5011112016" "derive" =
    some ("R5011112016.derive", false) := by look [methodTable]
@[pysem] theorem Meth.R5011112016.hexderive : package.method "R5011112016" "hexderive" =
    some ("R5011112016.hexderive", false) := by look [methodTable]
@[pysem] theorem Meth.R5011112016.clear : package.method "R5011112016" "clear" =
    some ("R5011112016.clear", false) := by look [methodTable]
@[pysem] theorem Meth.R132356510062017.__init__ : package.method "R132356510062017" "__init__" =
    some ("R132356510062017.__init__", false) := by look [methodTable]
@[pysem] theorem Meth.R132356510062017.__del__ : package.method "R132356510062017" "__del__" =
    some ("R132356510062017.__del__", false) := by look [methodTable]
@[pysem] theorem Meth.R132356510062017._rand_iter : package.method "R132356510062017" "_rand_iter" =
    some ("R132356510062017._rand_iter", false) := by look [methodTable]
@[pysem] theorem Meth.R132356510062017._inc_rand_u : package.method "R132356510062017" "_inc_rand_u" =
    some ("R132356510062017._inc_rand_u", false) := by look [methodTable]
@[pysem] theorem Meth.R132356510062017.random : package.method "R132356510062017" "random" =
    some ("R132356510062017.random", false) := by look [methodTable]
@[pysem] theorem Meth.R132356510062017.reset : package.method "R132356510062017" "reset" =
    some ("R132356510062017.reset", false) := by look [methodTable]
@[pysem] theorem Meth.R132356510062017.clear : package.method "R132356510062017" "clear" =
    some ("R132356510062017.clear", false) := by look [methodTable]
@[pysem] theorem Meth.GOST34102012.__init__ : package.method "GOST34102012" "__init__" =
    some ("GOST34102012.__init__", false) := by look [methodTable]
@[pysem] theorem Meth.GOST34102012._set_size : package.method "GOST34102012" "_set_size" =
    some ("GOST34102012._set_size", false) := by look [methodTable]
@[pysem] theorem Meth.GOST34102012._check_p_m : package.method "GOST34102012" "_check_p_m" =
    some ("GOST34102012._check_p_m", false) := by look [methodTable]
@[pysem] theorem Meth.GOST34102012._check_x_y : package.method "GOST34102012" "_check_x_y" =
    some ("GOST34102012._check_x_y", false) := by look [methodTable]
@[pysem] theorem Meth.GOST34102012._check_p : package.method "GOST34102012" "_check_p" =
    some ("GOST34102012._check_p", false) := by look [methodTable]
@[pysem] theorem Meth.GOST34102012._check_q : package.method "GOST34102012" "_check_q" =
    some ("GOST34102012._check_q", false) := by look [methodTable]
@[pysem] theorem Meth.GOST34102012._check_curve : package.method "GOST34102012" "_check_curve" =
    some ("GOST34102012._check_curve", false) := by look [methodTable]
@[pysem] theorem Meth.GOST34102012._invert : package.method "GOST34102012" "_invert" =
    some ("GOST34102012._invert", true) := by look [methodTable]
@[pysem] theorem Meth.GOST34102012._add : package.method "GOST34102012" "_add" =
    some ("GOST34102012._add", false) := by look [methodTable]
@[pysem] theorem Meth.GOST34102012._mul_point : package.method "GOST34102012" "_mul_point" =
    some ("GOST34102012._mul_point", false) := by look [methodTable]
@[pysem] theorem Meth.GOST34102012._edvards_to_canonical : package.method "GOST34102012" "_edvards_to_canonical" =
    some ("GOST34102012._edvards_to_canonical", false) := by look [methodTable]
@[pysem] theorem Meth.GOST34102012._get_rand_k : package.method "GOST34102012" "_get_rand_k" =
    some ("GOST34102012._get_rand_k", false) := by look [methodTable]
@[pysem] theorem Meth.GOST34102012._set_e : package.method "GOST34102012" "_set_e" =
    some ("GOST34102012._set_e", false) := by look [methodTable]
@[pysem] theorem Meth.GOST34102012.sign : package.method "GOST34102012" "sign" =
    some ("GOST34102012.sign", false) := by look [methodTable]
@[pysem] theorem Meth.GOST34102012._get_r_s : package.method "GOST34102012" "_get_r_s" =
    some ("GOST34102012._get_r_s", false) := by look [methodTable]
@[pysem] theorem Meth.GOST34102012._verify_step_1 : package.method "GOST34102012" "_verify_step_1" =
    some ("GOST34102012._verify_step_1", false) := by look [methodTable]
@[pysem] theorem Meth.GOST34102012.verify : package.method "GOST34102012" "verify" =
    some ("GOST34102012.verify", false) := by look [methodTable]
@[pysem] theorem Meth.GOST34102012.public_key_generate : package.method "GOST34102012" "public_key_generate" =
    some ("GOST34102012.public_key_generate", false) := by look [methodTable]

@[pysem] theorem Prop.ObjectIdentifier.name : package.property "ObjectIdentifier" "name" =
    some "ObjectIdentifier.name" := by look [propertyTable]
@[pysem] theorem Prop.ObjectIdentifier.digit : package.property "ObjectIdentifier" "digit" =
    some "ObjectIdentifier.digit" := by look [propertyTable]
@[pysem] theorem Prop.ObjectIdentifier.octet : package.property "ObjectIdentifier" "octet" =
    some "ObjectIdentifier.octet" := by look [propertyTable]
@[pysem] theorem Prop.GOST34122015Kuznechik.block_size : package.property "GOST34122015Kuznechik" "block_size" =
    some "GOST34122015Kuznechik.block_size" := by look [propertyTable]
@[pysem] theorem Prop.GOST34122015Kuznechik.key_size : package.property "GOST34122015Kuznechik" "key_size" =
    some "GOST34122015Kuznechik.key_size" := by look [propertyTable]
@[pysem] theorem Prop.GOST34122015Magma.block_size : package.property "GOST34122015Magma" "block_size" =
    some "GOST34122015Magma.block_size" := by look [propertyTable]
@[pysem] theorem Prop.GOST34122015Magma.key_size : package.property "GOST34122015Magma" "key_size" =
    some "GOST34122015Magma.key_size" := by look [propertyTable]
@[pysem] theorem Prop.GOST34132015.block_size : package.property "GOST34132015" "block_size" =
    some "GOST34132015.block_size" := by look [propertyTable]
@[pysem] theorem Prop.GOST34132015Cipher.block_size : package.property "GOST34132015Cipher" "block_size" =
    some "GOST34132015.block_size" := by look [propertyTable]
@[pysem] theorem Prop.GOST34132015CipherPadding.block_size : package.property "GOST34132015CipherPadding" "block_size" =
    some "GOST34132015.block_size" := by look [propertyTable]
@[pysem] theorem Prop.GOST34132015CipherFeedBack.iv : package.property "GOST34132015CipherFeedBack" "iv" =
    some "GOST34132015CipherFeedBack.iv" := by look [propertyTable]
@[pysem] theorem Prop.GOST34132015CipherFeedBack.block_size : package.property "GOST34132015CipherFeedBack" "block_size" =
    some "GOST34132015.block_size" := by look [propertyTable]
@[pysem] theorem Prop.GOST34132015ecb.block_size : package.property "GOST34132015ecb" "block_size" =
    some "GOST34132015.block_size" := by look [propertyTable]
@[pysem] theorem Prop.GOST34132015cbc.iv : package.property "GOST34132015cbc" "iv" =
    some "GOST34132015CipherFeedBack.iv" := by look [propertyTable]
@[pysem] theorem Prop.GOST34132015cbc.block_size : package.property "GOST34132015cbc" "block_size" =
    some "GOST34132015.block_size" := by look [propertyTable]
@[pysem] theorem Prop.GOST34132015cfb.iv : package.property "GOST34132015cfb" "iv" =
    some "GOST34132015CipherFeedBack.iv" := by look [propertyTable]
@[pysem] theorem Prop.GOST34132015cfb.block_size : package.property "GOST34132015cfb" "block_size" =
    some "GOST34132015.block_size" := by look [propertyTable]
@[pysem] theorem Prop.GOST34132015ofb.iv : package.property "GOST34132015ofb" "iv" =
    some "GOST34132015CipherFeedBack.iv" := by look [propertyTable]
@[pysem] theorem Prop.GOST34132015ofb.block_size : package.property "GOST34132015ofb" "block_size" =
    some "GOST34132015.block_size" := by look [propertyTable]
@[pysem] theorem Prop.GOST34132015ctr.counter : package.property "GOST34132015ctr" "counter" =
    some "GOST34132015ctr.counter" := by look [propertyTable]
@[pysem] theorem Prop.GOST34132015ctr.block_size : package.property "GOST34132015ctr" "block_size" =
    some "GOST34132015.block_size" := by look [propertyTable]
@[pysem] theorem Prop.GOST34132015mac.block_size : package.property "GOST34132015mac" "block_size" =
    some "GOST34132015.block_size" := by look [propertyTable]
@[pysem] theorem Prop.GOST34112012.digest_size : package.property "GOST34112012" "digest_size" =
    some "GOST34112012.digest_size" := by look [propertyTable]
@[pysem] theorem Prop.GOST34112012.block_size : package.property "GOST34112012" "block_size" =
    some "GOST34112012.block_size" := by look [propertyTable]
@[pysem] theorem Prop.GOST34112012.name : package.property "GOST34112012" "name" =
    some "GOST34112012.name" := by look [propertyTable]
@[pysem] theorem Prop.R5011132016.digest_size : package.property "R5011132016" "digest_size" =
    some "R5011132016.digest_size" := by look [propertyTable]
@[pysem] theorem Prop.R5011132016.block_size : package.property "R5011132016" "block_size" =
    some "R5011132016.block_size" := by look [propertyTable]
@[pysem] theorem Prop.R5011132016.name : package.property "R5011132016" "name" =
    some "R5011132016.name" := by look [propertyTable]
@[pysem] theorem Prop.R5011112016.salt : package.property "R5011112016" "salt" =
    some "R5011112016.salt" := by look [propertyTable]
@[pysem] theorem Attr.ObjectIdentifier._oid_str : package.property "ObjectIdentifier" "_oid_str" =
    none := by look [propertyTable]
@[pysem] theorem Attr.GOST34122015Kuznechik._cipher_c : package.property "GOST34122015Kuznechik" "_cipher_c" =
    none := by look [propertyTable]
@[pysem] theorem Attr.GOST34122015Kuznechik._cipher_iter_key : package.property "GOST34122015Kuznechik" "_cipher_iter_key" =
    none := by look [propertyTable]
@[pysem] theorem Attr.GOST34122015Kuznechik.oid : package.property "GOST34122015Kuznechik" "oid" =
    none := by look [propertyTable]
@[pysem] theorem Attr.GOST34122015Magma.oid : package.property "GOST34122015Magma" "oid" =
    none := by look [propertyTable]
@[pysem] theorem Attr.GOST34122015Magma._cipher_iter_key : package.property "GOST34122015Magma" "_cipher_iter_key" =
    none := by look [propertyTable]
@[pysem] theorem Attr.GOST34132015.oid : package.property "GOST34132015" "oid" =
    none := by look [propertyTable]
@[pysem] theorem Attr.GOST34132015._cipher_obj : package.property "GOST34132015" "_cipher_obj" =
    none := by look [propertyTable]
@[pysem] theorem Attr.GOST34132015Cipher.oid : package.property "GOST34132015Cipher" "oid" =
    none := by look [propertyTable]
@[pysem] theorem Attr.GOST34132015Cipher._cipher_obj : package.property "GOST34132015Cipher" "_cipher_obj" =
    none := by look [propertyTable]
@[pysem] theorem Attr.GOST34132015CipherPadding._pad_mode : package.property "GOST34132015CipherPadding" "_pad_mode" =
    none := by look [propertyTable]
@[pysem] theorem Attr.GOST34132015CipherPadding.oid : package.property "GOST34132015CipherPadding" "oid" =
    none := by look [propertyTable]
@[pysem] theorem Attr.GOST34132015CipherPadding._cipher_obj : package.property "GOST34132015CipherPadding" "_cipher_obj" =
    none := by look [propertyTable]
@[pysem] theorem Attr.GOST34132015CipherFeedBack._init_vect : package.property "GOST34132015CipherFeedBack" "_init_vect" =
    none := by look [propertyTable]
@[pysem] theorem Attr.GOST34132015CipherFeedBack._cipher_obj : package.property "GOST34132015CipherFeedBack" "_cipher_obj" =
    none := by look [propertyTable]
@[pysem] theorem Attr.GOST34132015CipherFeedBack.oid : package.property "GOST34132015CipherFeedBack" "oid" =
    none := by look [propertyTable]
@[pysem] theorem Attr.GOST34132015ecb._cipher_obj : package.property "GOST34132015ecb" "_cipher_obj" =
    none := by look [propertyTable]
@[pysem] theorem Attr.GOST34132015ecb._pad_mode : package.property "GOST34132015ecb" "_pad_mode" =
    none := by look [propertyTable]
@[pysem] theorem Attr.GOST34132015ecb.oid : package.property "GOST34132015ecb" "oid" =
    none := by look [propertyTable]
@[pysem] theorem Attr.GOST34132015cbc._init_vect : package.property "GOST34132015cbc" "_init_vect" =
    none := by look [propertyTable]
@[pysem] theorem Attr.GOST34132015cbc._cipher_obj : package.property "GOST34132015cbc" "_cipher_obj" =
    none := by look [propertyTable]
@[pysem] theorem Attr.GOST34132015cbc._pad_mode : package.property "GOST34132015cbc" "_pad_mode" =
    none := by look [propertyTable]
@[pysem] theorem Attr.GOST34132015cbc.oid : package.property "GOST34132015cbc" "oid" =
    none := by look [propertyTable]
@[pysem] theorem Attr.GOST34132015cfb._init_vect : package.property "GOST34132015cfb" "_init_vect" =
    none := by look [propertyTable]
@[pysem] theorem Attr.GOST34132015cfb._cipher_obj : package.property "GOST34132015cfb" "_cipher_obj" =
    none := by look [propertyTable]
@[pysem] theorem Attr.GOST34132015cfb.oid : package.property "GOST34132015cfb" "oid" =
    none := by look [propertyTable]
@[pysem] theorem Attr.GOST34132015ofb._init_vect : package.property "GOST34132015ofb" "_init_vect" =
    none := by look [propertyTable]
@[pysem] theorem Attr.GOST34132015ofb._cipher_obj : package.property "GOST34132015ofb" "_cipher_obj" =
    none := by look [propertyTable]
@[pysem] theorem Attr.GOST34132015ofb.oid : package.property "GOST34132015ofb" "oid" =
    none := by look [propertyTable]
@[pysem] theorem Attr.GOST34132015ctr._init_vect : package.property "GOST34132015ctr" "_init_vect" =
    none := by look [propertyTable]
@[pysem] theorem Attr.GOST34132015ctr._counter : package.property "GOST34132015ctr" "_counter" =
    none := by look [propertyTable]
@[pysem] theorem Attr.GOST34132015ctr._cipher_obj : package.property "GOST34132015ctr" "_cipher_obj" =
    none := by look [propertyTable]
@[pysem] theorem Attr.GOST34132015ctr.oid : package.property "GOST34132015ctr" "oid" =
    none := by look [propertyTable]
@[pysem] theorem Attr.GOST34132015mac._fin_buff : package.property "GOST34132015mac" "_fin_buff" =
    none := by look [propertyTable]
@[pysem] theorem Attr.GOST34132015mac._iter_buf : package.property "GOST34132015mac" "_iter_buf" =
    none := by look [propertyTable]
@[pysem] theorem Attr.GOST34132015mac._prev_mac : package.property "GOST34132015mac" "_prev_mac" =
    none := by look [propertyTable]
@[pysem] theorem Attr.GOST34132015mac._cur_mac : package.property "GOST34132015mac" "_cur_mac" =
    none := by look [propertyTable]
@[pysem] theorem Attr.GOST34132015mac._key_1 : package.property "GOST34132015mac" "_key_1" =
    none := by look [propertyTable]
@[pysem] theorem Attr.GOST34132015mac._key_2 : package.property "GOST34132015mac" "_key_2" =
    none := by look [propertyTable]
@[pysem] theorem Attr.GOST34132015mac._cipher_obj : package.property "GOST34132015mac" "_cipher_obj" =
    none := by look [propertyTable]
@[pysem] theorem Attr.GOST34132015mac.oid : package.property "GOST34132015mac" "oid" =
    none := by look [propertyTable]
@[pysem] theorem Attr.GOST34112012._name : package.property "GOST34112012" "_name" =
    none := by look [propertyTable]
@[pysem] theorem Attr.GOST34112012._buff : package.property "GOST34112012" "_buff" =
    none := by look [propertyTable]
@[pysem] theorem Attr.GOST34112012._num_block : package.property "GOST34112012" "_num_block" =
    none := by look [propertyTable]
@[pysem] theorem Attr.GOST34112012._pad_block_size : package.property "GOST34112012" "_pad_block_size" =
    none := by look [propertyTable]
@[pysem] theorem Attr.GOST34112012._hash_h : package.property "GOST34112012" "_hash_h" =
    none := by look [propertyTable]
@[pysem] theorem Attr.GOST34112012._hash_n : package.property "GOST34112012" "_hash_n" =
    none := by look [propertyTable]
@[pysem] theorem Attr.GOST34112012._hash_sigma : package.property "GOST34112012" "_hash_sigma" =
    none := by look [propertyTable]
@[pysem] theorem Attr.GOST34112012.oid : package.property "GOST34112012" "oid" =
    none := by look [propertyTable]
@[pysem] theorem Attr.R5011132016._counter : package.property "R5011132016" "_counter" =
    none := by look [propertyTable]
@[pysem] theorem Attr.R5011132016._key : package.property "R5011132016" "_key" =
    none := by look [propertyTable]
@[pysem] theorem Attr.R5011132016.oid : package.property "R5011132016" "oid" =
    none := by look [propertyTable]
@[pysem] theorem Attr.R5011132016._hasher_obj : package.property "R5011132016" "_hasher_obj" =
    none := by look [propertyTable]
@[pysem] theorem Attr.R5011112016._password : package.property "R5011112016" "_password" =
    none := by look [propertyTable]
@[pysem] theorem Attr.R5011112016._salt : package.property "R5011112016" "_salt" =
    none := by look [propertyTable]
@[pysem] theorem Attr.R5011112016._iterations : package.property "R5011112016" "_iterations" =
    none := by look [propertyTable]
@[pysem] theorem Attr.R5011112016._num_block : package.property "R5011112016" "_num_block" =
    none := by look [propertyTable]
@[pysem] theorem Attr.R5011112016._counter : package.property "R5011112016" "_counter" =
    none := by look [propertyTable]
@[pysem] theorem Attr.R5011112016._hmac_obj : package.property "R5011112016" "_hmac_obj" =
    none := by look [propertyTable]
@[pysem] theorem Attr.R132356510062017._size_s : package.property "R132356510062017" "_size_s" =
    none := by look [propertyTable]
@[pysem] theorem Attr.R132356510062017._rand_u : package.property "R132356510062017" "_rand_u" =
    none := by look [propertyTable]
@[pysem] theorem Attr.R132356510062017._q : package.property "R132356510062017" "_q" =
    none := by look [propertyTable]
@[pysem] theorem Attr.R132356510062017._r : package.property "R132356510062017" "_r" =
    none := by look [propertyTable]
@[pysem] theorem Attr.R132356510062017._limit : package.property "R132356510062017" "_limit" =
    none := by look [propertyTable]
@[pysem] theorem Attr.R132356510062017._hash_obj : package.property "R132356510062017" "_hash_obj" =
    none := by look [propertyTable]
@[pysem] theorem Attr.GOST34102012._p : package.property "GOST34102012" "_p" =
    none := by look [propertyTable]
@[pysem] theorem Attr.GOST34102012._a : package.property "GOST34102012" "_a" =
    none := by look [propertyTable]
@[pysem] theorem Attr.GOST34102012._b : package.property "GOST34102012" "_b" =
    none := by look [propertyTable]
@[pysem] theorem Attr.GOST34102012._e : package.property "GOST34102012" "_e" =
    none := by look [propertyTable]
@[pysem] theorem Attr.GOST34102012._d : package.property "GOST34102012" "_d" =
    none := by look [propertyTable]
@[pysem] theorem Attr.GOST34102012._m : package.property "GOST34102012" "_m" =
    none := by look [propertyTable]
@[pysem] theorem Attr.GOST34102012._q : package.property "GOST34102012" "_q" =
    none := by look [propertyTable]
@[pysem] theorem Attr.GOST34102012._x : package.property "GOST34102012" "_x" =
    none := by look [propertyTable]
@[pysem] theorem Attr.GOST34102012._y : package.property "GOST34102012" "_y" =
    none := by look [propertyTable]
@[pysem] theorem Attr.GOST34102012._u : package.property "GOST34102012" "_u" =
    none := by look [propertyTable]
@[pysem] theorem Attr.GOST34102012._v : package.property "GOST34102012" "_v" =
    none := by look [propertyTable]
@[pysem] theorem Attr.GOST34102012.oid : package.property "GOST34102012" "oid" =
    none := by look [propertyTable]
@[pysem] theorem Attr.GOST34102012._size : package.property "GOST34102012" "_size" =
    none := by look [propertyTable]
@[pysem] theorem Attr.GOST34102012._bits : package.property "GOST34102012" "_bits" =
    none := by look [propertyTable]

end Gost.Src
