import Verif.Source.Semantics
import Verif.Source.Text.Utils
import Verif.Source.Text.Oid
import Verif.Source.Text.BlockCipher
import Verif.Source.Text.Modes
import Verif.Source.Text.Hash
import Verif.Source.Text.Hmac
import Verif.Source.Text.Pbkdf
import Verif.Source.Text.Random
import Verif.Source.Text.Signature

/-! Written by `tools/gen_source.py`: the functions, the globals and the classes of the package. -/

namespace Gost.Src

/-- All functions and methods. -/
def fnTable : List (String × FunDef) :=
  [("Utils.check_value", Utils.f_check_value),
   ("Utils.msb", Utils.f_msb),
   ("Utils.add_xor", Utils.f_add_xor),
   ("Utils.zero_fill", Utils.f_zero_fill),
   ("Utils.bytearray_to_int", Utils.f_bytearray_to_int),
   ("Utils.int_to_bytearray", Utils.f_int_to_bytearray),
   ("Utils.compare", Utils.f_compare),
   ("Utils.compare_to_zero", Utils.f_compare_to_zero),
   ("Oid._len_int", Oid.f__len_int),
   ("Oid._len_oid_octet", Oid.f__len_oid_octet),
   ("Oid._int_to_octet", Oid.f__int_to_octet),
   ("Oid._encode_octet", Oid.f__encode_octet),
   ("ObjectIdentifier.__init__", ObjectIdentifier.m___init__),
   ("ObjectIdentifier.__str__", ObjectIdentifier.m___str__),
   ("ObjectIdentifier.name", ObjectIdentifier.m_name),
   ("ObjectIdentifier.digit", ObjectIdentifier.m_digit),
   ("ObjectIdentifier.octet", ObjectIdentifier.m_octet),
   ("GOST34122015Kuznechik.__init__", GOST34122015Kuznechik.m___init__),
   ("GOST34122015Kuznechik.__del__", GOST34122015Kuznechik.m___del__),
   ("GOST34122015Kuznechik._cipher_s", GOST34122015Kuznechik.m__cipher_s),
   ("GOST34122015Kuznechik._cipher_s_reverse", GOST34122015Kuznechik.m__cipher_s_reverse),
   ("GOST34122015Kuznechik._cipher_r", GOST34122015Kuznechik.m__cipher_r),
   ("GOST34122015Kuznechik._cipher_r_reverse", GOST34122015Kuznechik.m__cipher_r_reverse),
   ("GOST34122015Kuznechik._cipher_l", GOST34122015Kuznechik.m__cipher_l),
   ("GOST34122015Kuznechik._cipher_l_reverse", GOST34122015Kuznechik.m__cipher_l_reverse),
   ("GOST34122015Kuznechik._cipher_get_c", GOST34122015Kuznechik.m__cipher_get_c),
   ("GOST34122015Kuznechik.block_size", GOST34122015Kuznechik.m_block_size),
   ("GOST34122015Kuznechik.key_size", GOST34122015Kuznechik.m_key_size),
   ("GOST34122015Kuznechik.decrypt", GOST34122015Kuznechik.m_decrypt),
   ("GOST34122015Kuznechik.encrypt", GOST34122015Kuznechik.m_encrypt),
   ("GOST34122015Kuznechik.clear", GOST34122015Kuznechik.m_clear),
   ("GOST34122015Magma.__init__", GOST34122015Magma.m___init__),
   ("GOST34122015Magma.__del__", GOST34122015Magma.m___del__),
   ("GOST34122015Magma._expand_iter_key", GOST34122015Magma.m__expand_iter_key),
   ("GOST34122015Magma._expand_iter_key_final", GOST34122015Magma.m__expand_iter_key_final),
   ("GOST34122015Magma._cipher_t", GOST34122015Magma.m__cipher_t),
   ("GOST34122015Magma._cipher_add_32", GOST34122015Magma.m__cipher_add_32),
   ("GOST34122015Magma._cipher_g", GOST34122015Magma.m__cipher_g),
   ("GOST34122015Magma._cipher_g_iter_result", GOST34122015Magma.m__cipher_g_iter_result),
   ("GOST34122015Magma._cipher_g_iter", GOST34122015Magma.m__cipher_g_iter),
   ("GOST34122015Magma._cipher_g_prev", GOST34122015Magma.m__cipher_g_prev),
   ("GOST34122015Magma._cipher_g_fin", GOST34122015Magma.m__cipher_g_fin),
   ("GOST34122015Magma.block_size", GOST34122015Magma.m_block_size),
   ("GOST34122015Magma.key_size", GOST34122015Magma.m_key_size),
   ("GOST34122015Magma.decrypt", GOST34122015Magma.m_decrypt),
   ("GOST34122015Magma.encrypt", GOST34122015Magma.m_encrypt),
   ("GOST34122015Magma.clear", GOST34122015Magma.m_clear),
   ("Modes.new", Modes.f_new),
   ("GOST34132015.__init__", GOST34132015.m___init__),
   ("GOST34132015.__del__", GOST34132015.m___del__),
   ("GOST34132015._get_num_block", GOST34132015.m__get_num_block),
   ("GOST34132015._get_pad_size", GOST34132015.m__get_pad_size),
   ("GOST34132015._get_block", GOST34132015.m__get_block),
   ("GOST34132015.clear", GOST34132015.m_clear),
   ("GOST34132015.block_size", GOST34132015.m_block_size),
   ("GOST34132015Cipher.encrypt", GOST34132015Cipher.m_encrypt),
   ("GOST34132015Cipher.decrypt", GOST34132015Cipher.m_decrypt),
   ("GOST34132015CipherPadding.__init__", GOST34132015CipherPadding.m___init__),
   ("GOST34132015CipherPadding._set_pad_mode_1", GOST34132015CipherPadding.m__set_pad_mode_1),
   ("GOST34132015CipherPadding._set_pad_mode_2", GOST34132015CipherPadding.m__set_pad_mode_2),
   ("GOST34132015CipherPadding._set_padding", GOST34132015CipherPadding.m__set_padding),
   ("GOST34132015CipherPadding.encrypt", GOST34132015CipherPadding.m_encrypt),
   ("GOST34132015CipherPadding.decrypt", GOST34132015CipherPadding.m_decrypt),
   ("GOST34132015CipherFeedBack.__init__", GOST34132015CipherFeedBack.m___init__),
   ("GOST34132015CipherFeedBack._get_gamma", GOST34132015CipherFeedBack.m__get_gamma),
   ("GOST34132015CipherFeedBack._set_init_vect", GOST34132015CipherFeedBack.m__set_init_vect),
   ("GOST34132015CipherFeedBack._get_final_block", GOST34132015CipherFeedBack.m__get_final_block),
   ("GOST34132015CipherFeedBack._final_cipher", GOST34132015CipherFeedBack.m__final_cipher),
   ("GOST34132015CipherFeedBack.encrypt", GOST34132015CipherFeedBack.m_encrypt),
   ("GOST34132015CipherFeedBack.decrypt", GOST34132015CipherFeedBack.m_decrypt),
   ("GOST34132015CipherFeedBack.iv", GOST34132015CipherFeedBack.m_iv),
   ("GOST34132015ecb.encrypt", GOST34132015ecb.m_encrypt),
   ("GOST34132015ecb.decrypt", GOST34132015ecb.m_decrypt),
   ("GOST34132015cbc.__init__", GOST34132015cbc.m___init__),
   ("GOST34132015cbc.encrypt", GOST34132015cbc.m_encrypt),
   ("GOST34132015cbc.decrypt", GOST34132015cbc.m_decrypt),
   ("GOST34132015cfb.encrypt", GOST34132015cfb.m_encrypt),
   ("GOST34132015cfb.decrypt", GOST34132015cfb.m_decrypt),
   ("GOST34132015ofb.encrypt", GOST34132015ofb.m_encrypt),
   ("GOST34132015ofb.decrypt", GOST34132015ofb.m_decrypt),
   ("GOST34132015ctr.__init__", GOST34132015ctr.m___init__),
   ("GOST34132015ctr._inc_ctr", GOST34132015ctr.m__inc_ctr),
   ("GOST34132015ctr.counter", GOST34132015ctr.m_counter),
   ("GOST34132015ctr.encrypt", GOST34132015ctr.m_encrypt),
   ("GOST34132015ctr.decrypt", GOST34132015ctr.m_decrypt),
   ("GOST34132015mac.__init__", GOST34132015mac.m___init__),
   ("GOST34132015mac._set_pad_mode_3", GOST34132015mac.m__set_pad_mode_3),
   ("GOST34132015mac._get_mac_key", GOST34132015mac.m__get_mac_key),
   ("GOST34132015mac.update", GOST34132015mac.m_update),
   ("GOST34132015mac.mac_final", GOST34132015mac.m_mac_final),
   ("GOST34132015mac.digest", GOST34132015mac.m_digest),
   ("GOST34132015mac.hexdigest", GOST34132015mac.m_hexdigest),
   ("Hash.new", Hash.f_new),
   ("GOST34112012.__init__", GOST34112012.m___init__),
   ("GOST34112012._hash_init", GOST34112012.m__hash_init),
   ("GOST34112012._hash_add_512", GOST34112012.m__hash_add_512),
   ("GOST34112012._hash_lps", GOST34112012.m__hash_lps),
   ("GOST34112012._hash_get_key", GOST34112012.m__hash_get_key),
   ("GOST34112012._hash_e", GOST34112012.m__hash_e),
   ("GOST34112012._hash_g", GOST34112012.m__hash_g),
   ("GOST34112012.update", GOST34112012.m_update),
   ("GOST34112012.hash_final", GOST34112012.m_hash_final),
   ("GOST34112012.get_hash", GOST34112012.m_get_hash),
   ("GOST34112012.digest", GOST34112012.m_digest),
   ("GOST34112012.hexdigest", GOST34112012.m_hexdigest),
   ("GOST34112012.reset", GOST34112012.m_reset),
   ("GOST34112012.copy", GOST34112012.m_copy),
   ("GOST34112012.digest_size", GOST34112012.m_digest_size),
   ("GOST34112012.block_size", GOST34112012.m_block_size),
   ("GOST34112012.name", GOST34112012.m_name),
   ("Hmac.new", Hmac.f_new),
   ("R5011132016.__init__", R5011132016.m___init__),
   ("R5011132016.__del__", R5011132016.m___del__),
   ("R5011132016.update", R5011132016.m_update),
   ("R5011132016.digest", R5011132016.m_digest),
   ("R5011132016.hexdigest", R5011132016.m_hexdigest),
   ("R5011132016.copy", R5011132016.m_copy),
   ("R5011132016.reset", R5011132016.m_reset),
   ("R5011132016.clear", R5011132016.m_clear),
   ("R5011132016.digest_size", R5011132016.m_digest_size),
   ("R5011132016.block_size", R5011132016.m_block_size),
   ("R5011132016.name", R5011132016.m_name),
   ("Pbkdf.new", Pbkdf.f_new),
   ("R5011112016.__init__", R5011112016.m___init__),
   ("R5011112016.__del__", R5011112016.m___del__),
   ("R5011112016._u_first", R5011112016.m__u_first),
   ("R5011112016._u_iter", R5011112016.m__u_iter),
   ("R5011112016._f", R5011112016.m__f),
   ("R5011112016._calculate_pbkdf", R5011112016.m__calculate_pbkdf),
   ("R5011112016.derive", R5011112016.m_derive),
   ("R5011112016.hexderive", R5011112016.m_hexderive),
   ("R5011112016.clear", R5011112016.m_clear),
   ("R5011112016.salt", R5011112016.m_salt),
   ("Random.new", Random.f_new),
   ("R132356510062017.__init__", R132356510062017.m___init__),
   ("R132356510062017.__del__", R132356510062017.m___del__),
   ("R132356510062017._rand_iter", R132356510062017.m__rand_iter),
   ("R132356510062017._inc_rand_u", R132356510062017.m__inc_rand_u),
   ("R132356510062017.random", R132356510062017.m_random),
   ("R132356510062017.reset", R132356510062017.m_reset),
   ("R132356510062017.clear", R132356510062017.m_clear),
   ("Signature.new", Signature.f_new),
   ("GOST34102012.__init__", GOST34102012.m___init__),
   ("GOST34102012._set_size", GOST34102012.m__set_size),
   ("GOST34102012._check_p_m", GOST34102012.m__check_p_m),
   ("GOST34102012._check_x_y", GOST34102012.m__check_x_y),
   ("GOST34102012._check_p", GOST34102012.m__check_p),
   ("GOST34102012._check_q", GOST34102012.m__check_q),
   ("GOST34102012._check_curve", GOST34102012.m__check_curve),
   ("GOST34102012._invert", GOST34102012.m__invert),
   ("GOST34102012._invert.gcdex", GOST34102012.m__invert_gcdex),
   ("GOST34102012._add", GOST34102012.m__add),
   ("GOST34102012._mul_point", GOST34102012.m__mul_point),
   ("GOST34102012._edvards_to_canonical", GOST34102012.m__edvards_to_canonical),
   ("GOST34102012._get_rand_k", GOST34102012.m__get_rand_k),
   ("GOST34102012._set_e", GOST34102012.m__set_e),
   ("GOST34102012.sign", GOST34102012.m_sign),
   ("GOST34102012._get_r_s", GOST34102012.m__get_r_s),
   ("GOST34102012._verify_step_1", GOST34102012.m__verify_step_1),
   ("GOST34102012.verify", GOST34102012.m_verify),
   ("GOST34102012.public_key_generate", GOST34102012.m_public_key_generate)]

/-- All values of the module level which functions use. -/
def globalTable : List (String × Val) :=
  [("Oid.OBJECT_IDENTIFIER_TC26", Oid.g_OBJECT_IDENTIFIER_TC26),
   ("Oid._TAG_OID", Oid.g_TAG_OID),
   ("BlockCipher._BLOCK_SIZE_KUZNECHIK", BlockCipher.g_BLOCK_SIZE_KUZNECHIK),
   ("BlockCipher._BLOCK_SIZE_MAGMA", BlockCipher.g_BLOCK_SIZE_MAGMA),
   ("BlockCipher._KEY_SIZE", BlockCipher.g_KEY_SIZE),
   ("BlockCipher._GF", BlockCipher.g_GF),
   ("BlockCipher._S_BOX_KUZNECHIK", BlockCipher.g_S_BOX_KUZNECHIK),
   ("BlockCipher._S_BOX_REVERSE_KUZNECHIK", BlockCipher.g_S_BOX_REVERSE_KUZNECHIK),
   ("BlockCipher._S_BOX_MAGMA", BlockCipher.g_S_BOX_MAGMA),
   ("Modes.MODE_ECB", Modes.g_MODE_ECB),
   ("Modes.MODE_CBC", Modes.g_MODE_CBC),
   ("Modes.MODE_CFB", Modes.g_MODE_CFB),
   ("Modes.MODE_OFB", Modes.g_MODE_OFB),
   ("Modes.MODE_CTR", Modes.g_MODE_CTR),
   ("Modes.MODE_MAC", Modes.g_MODE_MAC),
   ("Modes.PAD_MODE_1", Modes.g_PAD_MODE_1),
   ("Modes.PAD_MODE_2", Modes.g_PAD_MODE_2),
   ("Modes._KEY_SIZE", Modes.g_KEY_SIZE),
   ("Modes._DEFAULT_IV_CTR_KUZNECHIK", Modes.g_DEFAULT_IV_CTR_KUZNECHIK),
   ("Modes._DEFAULT_IV_CTR_MAGMA", Modes.g_DEFAULT_IV_CTR_MAGMA),
   ("Modes._DEFAULT_IV_KUZNECHIK", Modes.g_DEFAULT_IV_KUZNECHIK),
   ("Modes._DEFAULT_IV_MAGMA", Modes.g_DEFAULT_IV_MAGMA),
   ("Modes._DEFAULT_IV_CBC_MAGMA", Modes.g_DEFAULT_IV_CBC_MAGMA),
   ("Modes._B_64", Modes.g_B_64),
   ("Modes._B_128", Modes.g_B_128),
   ("Hash._BLOCK_SIZE", Hash.g_BLOCK_SIZE),
   ("Hash._V_0", Hash.g_V_0),
   ("Hash._V_512", Hash.g_V_512),
   ("Hash._T", Hash.g_T),
   ("Hash._C", Hash.g_C),
   ("Hmac._KEY_SIZE", Hmac.g_KEY_SIZE),
   ("Hmac._I_PAD", Hmac.g_I_PAD),
   ("Hmac._O_PAD", Hmac.g_O_PAD),
   ("Pbkdf._BLOCK_SIZE", Pbkdf.g_BLOCK_SIZE),
   ("Random.SIZE_S_384", Random.g_SIZE_S_384),
   ("Random.SIZE_S_320", Random.g_SIZE_S_320),
   ("Random.SIZE_S_256", Random.g_SIZE_S_256),
   ("Random._SIZE_M", Random.g_SIZE_M),
   ("Random._SIZE_H", Random.g_SIZE_H),
   ("Signature.MODE_256", Signature.g_MODE_256),
   ("Signature.MODE_512", Signature.g_MODE_512)]

/-- The methods of each class, inherited ones included. -/
def methodTable : List (String × List (String × (String × Bool))) :=
  [("ObjectIdentifier", [("__init__", ("ObjectIdentifier.__init__", false)),
     ("__str__", ("ObjectIdentifier.__str__", false))]),
   ("GOST34122015Kuznechik", [("__init__", ("GOST34122015Kuznechik.__init__", false)),
     ("__del__", ("GOST34122015Kuznechik.__del__", false)),
     ("_cipher_s", ("GOST34122015Kuznechik._cipher_s", true)),
     ("_cipher_s_reverse", ("GOST34122015Kuznechik._cipher_s_reverse", true)),
     ("_cipher_r", ("GOST34122015Kuznechik._cipher_r", true)),
     ("_cipher_r_reverse", ("GOST34122015Kuznechik._cipher_r_reverse", true)),
     ("_cipher_l", ("GOST34122015Kuznechik._cipher_l", true)),
     ("_cipher_l_reverse", ("GOST34122015Kuznechik._cipher_l_reverse", true)),
     ("_cipher_get_c", ("GOST34122015Kuznechik._cipher_get_c", false)),
     ("decrypt", ("GOST34122015Kuznechik.decrypt", false)),
     ("encrypt", ("GOST34122015Kuznechik.encrypt", false)),
     ("clear", ("GOST34122015Kuznechik.clear", false))]),
   ("GOST34122015Magma", [("__init__", ("GOST34122015Magma.__init__", false)),
     ("__del__", ("GOST34122015Magma.__del__", false)),
     ("_expand_iter_key", ("GOST34122015Magma._expand_iter_key", false)),
     ("_expand_iter_key_final", ("GOST34122015Magma._expand_iter_key_final", false)),
     ("_cipher_t", ("GOST34122015Magma._cipher_t", true)),
     ("_cipher_add_32", ("GOST34122015Magma._cipher_add_32", true)),
     ("_cipher_g", ("GOST34122015Magma._cipher_g", true)),
     ("_cipher_g_iter_result", ("GOST34122015Magma._cipher_g_iter_result", true)),
     ("_cipher_g_iter", ("GOST34122015Magma._cipher_g_iter", true)),
     ("_cipher_g_prev", ("GOST34122015Magma._cipher_g_prev", true)),
     ("_cipher_g_fin", ("GOST34122015Magma._cipher_g_fin", true)),
     ("decrypt", ("GOST34122015Magma.decrypt", false)),
     ("encrypt", ("GOST34122015Magma.encrypt", false)),
     ("clear", ("GOST34122015Magma.clear", false))]),
   ("GOST34132015", [("__init__", ("GOST34132015.__init__", false)),
     ("__del__", ("GOST34132015.__del__", false)),
     ("_get_num_block", ("GOST34132015._get_num_block", false)),
     ("_get_pad_size", ("GOST34132015._get_pad_size", false)),
     ("_get_block", ("GOST34132015._get_block", false)),
     ("clear", ("GOST34132015.clear", false))]),
   ("GOST34132015Cipher", [("encrypt", ("GOST34132015Cipher.encrypt", false)),
     ("decrypt", ("GOST34132015Cipher.decrypt", false)),
     ("__init__", ("GOST34132015.__init__", false)),
     ("__del__", ("GOST34132015.__del__", false)),
     ("_get_num_block", ("GOST34132015._get_num_block", false)),
     ("_get_pad_size", ("GOST34132015._get_pad_size", false)),
     ("_get_block", ("GOST34132015._get_block", false)),
     ("clear", ("GOST34132015.clear", false))]),
   ("GOST34132015CipherPadding", [("__init__", ("GOST34132015CipherPadding.__init__", false)),
     ("_set_pad_mode_1", ("GOST34132015CipherPadding._set_pad_mode_1", false)),
     ("_set_pad_mode_2", ("GOST34132015CipherPadding._set_pad_mode_2", false)),
     ("_set_padding", ("GOST34132015CipherPadding._set_padding", false)),
     ("encrypt", ("GOST34132015CipherPadding.encrypt", false)),
     ("decrypt", ("GOST34132015CipherPadding.decrypt", false)),
     ("__del__", ("GOST34132015.__del__", false)),
     ("_get_num_block", ("GOST34132015._get_num_block", false)),
     ("_get_pad_size", ("GOST34132015._get_pad_size", false)),
     ("_get_block", ("GOST34132015._get_block", false)),
     ("clear", ("GOST34132015.clear", false))]),
   ("GOST34132015CipherFeedBack", [("__init__", ("GOST34132015CipherFeedBack.__init__", false)),
     ("_get_gamma", ("GOST34132015CipherFeedBack._get_gamma", false)),
     ("_set_init_vect", ("GOST34132015CipherFeedBack._set_init_vect", false)),
     ("_get_final_block", ("GOST34132015CipherFeedBack._get_final_block", false)),
     ("_final_cipher", ("GOST34132015CipherFeedBack._final_cipher", false)),
     ("encrypt", ("GOST34132015CipherFeedBack.encrypt", false)),
     ("decrypt", ("GOST34132015CipherFeedBack.decrypt", false)),
     ("__del__", ("GOST34132015.__del__", false)),
     ("_get_num_block", ("GOST34132015._get_num_block", false)),
     ("_get_pad_size", ("GOST34132015._get_pad_size", false)),
     ("_get_block", ("GOST34132015._get_block", false)),
     ("clear", ("GOST34132015.clear", false))]),
   ("GOST34132015ecb", [("encrypt", ("GOST34132015ecb.encrypt", false)),
     ("decrypt", ("GOST34132015ecb.decrypt", false)),
     ("__init__", ("GOST34132015CipherPadding.__init__", false)),
     ("_set_pad_mode_1", ("GOST34132015CipherPadding._set_pad_mode_1", false)),
     ("_set_pad_mode_2", ("GOST34132015CipherPadding._set_pad_mode_2", false)),
     ("_set_padding", ("GOST34132015CipherPadding._set_padding", false)),
     ("__del__", ("GOST34132015.__del__", false)),
     ("_get_num_block", ("GOST34132015._get_num_block", false)),
     ("_get_pad_size", ("GOST34132015._get_pad_size", false)),
     ("_get_block", ("GOST34132015._get_block", false)),
     ("clear", ("GOST34132015.clear", false))]),
   ("GOST34132015cbc", [("__init__", ("GOST34132015cbc.__init__", false)),
     ("encrypt", ("GOST34132015cbc.encrypt", false)),
     ("decrypt", ("GOST34132015cbc.decrypt", false)),
     ("_set_pad_mode_1", ("GOST34132015CipherPadding._set_pad_mode_1", false)),
     ("_set_pad_mode_2", ("GOST34132015CipherPadding._set_pad_mode_2", false)),
     ("_set_padding", ("GOST34132015CipherPadding._set_padding", false)),
     ("_get_gamma", ("GOST34132015CipherFeedBack._get_gamma", false)),
     ("_set_init_vect", ("GOST34132015CipherFeedBack._set_init_vect", false)),
     ("_get_final_block", ("GOST34132015CipherFeedBack._get_final_block", false)),
     ("_final_cipher", ("GOST34132015CipherFeedBack._final_cipher", false)),
     ("__del__", ("GOST34132015.__del__", false)),
     ("_get_num_block", ("GOST34132015._get_num_block", false)),
     ("_get_pad_size", ("GOST34132015._get_pad_size", false)),
     ("_get_block", ("GOST34132015._get_block", false)),
     ("clear", ("GOST34132015.clear", false))]),
   ("GOST34132015cfb", [("encrypt", ("GOST34132015cfb.encrypt", false)),
     ("decrypt", ("GOST34132015cfb.decrypt", false)),
     ("__init__", ("GOST34132015CipherFeedBack.__init__", false)),
     ("_get_gamma", ("GOST34132015CipherFeedBack._get_gamma", false)),
     ("_set_init_vect", ("GOST34132015CipherFeedBack._set_init_vect", false)),
     ("_get_final_block", ("GOST34132015CipherFeedBack._get_final_block", false)),
     ("_final_cipher", ("GOST34132015CipherFeedBack._final_cipher", false)),
     ("__del__", ("GOST34132015.__del__", false)),
     ("_get_num_block", ("GOST34132015._get_num_block", false)),
     ("_get_pad_size", ("GOST34132015._get_pad_size", false)),
     ("_get_block", ("GOST34132015._get_block", false)),
     ("clear", ("GOST34132015.clear", false))]),
   ("GOST34132015ofb", [("encrypt", ("GOST34132015ofb.encrypt", false)),
     ("decrypt", ("GOST34132015ofb.decrypt", false)),
     ("__init__", ("GOST34132015CipherFeedBack.__init__", false)),
     ("_get_gamma", ("GOST34132015CipherFeedBack._get_gamma", false)),
     ("_set_init_vect", ("GOST34132015CipherFeedBack._set_init_vect", false)),
     ("_get_final_block", ("GOST34132015CipherFeedBack._get_final_block", false)),
     ("_final_cipher", ("GOST34132015CipherFeedBack._final_cipher", false)),
     ("__del__", ("GOST34132015.__del__", false)),
     ("_get_num_block", ("GOST34132015._get_num_block", false)),
     ("_get_pad_size", ("GOST34132015._get_pad_size", false)),
     ("_get_block", ("GOST34132015._get_block", false)),
     ("clear", ("GOST34132015.clear", false))]),
   ("GOST34132015ctr", [("__init__", ("GOST34132015ctr.__init__", false)),
     ("_inc_ctr", ("GOST34132015ctr._inc_ctr", false)),
     ("encrypt", ("GOST34132015ctr.encrypt", false)),
     ("decrypt", ("GOST34132015ctr.decrypt", false)),
     ("__del__", ("GOST34132015.__del__", false)),
     ("_get_num_block", ("GOST34132015._get_num_block", false)),
     ("_get_pad_size", ("GOST34132015._get_pad_size", false)),
     ("_get_block", ("GOST34132015._get_block", false)),
     ("clear", ("GOST34132015.clear", false))]),
   ("GOST34132015mac", [("__init__", ("GOST34132015mac.__init__", false)),
     ("_set_pad_mode_3", ("GOST34132015mac._set_pad_mode_3", false)),
     ("_get_mac_key", ("GOST34132015mac._get_mac_key", false)),
     ("update", ("GOST34132015mac.update", false)),
     ("mac_final", ("GOST34132015mac.mac_final", false)),
     ("digest", ("GOST34132015mac.digest", false)),
     ("hexdigest", ("GOST34132015mac.hexdigest", false)),
     ("__del__", ("GOST34132015.__del__", false)),
     ("_get_num_block", ("GOST34132015._get_num_block", false)),
     ("_get_pad_size", ("GOST34132015._get_pad_size", false)),
     ("_get_block", ("GOST34132015._get_block", false)),
     ("clear", ("GOST34132015.clear", false))]),
   ("GOST34112012", [("__init__", ("GOST34112012.__init__", false)),
     ("_hash_init", ("GOST34112012._hash_init", false)),
     ("_hash_add_512", ("GOST34112012._hash_add_512", true)),
     ("_hash_lps", ("GOST34112012._hash_lps", true)),
     ("_hash_get_key", ("GOST34112012._hash_get_key", false)),
     ("_hash_e", ("GOST34112012._hash_e", false)),
     ("_hash_g", ("GOST34112012._hash_g", false)),
     ("update", ("GOST34112012.update", false)),
     ("hash_final", ("GOST34112012.hash_final", false)),
     ("get_hash", ("GOST34112012.get_hash", false)),
     ("digest", ("GOST34112012.digest", false)),
     ("hexdigest", ("GOST34112012.hexdigest", false)),
     ("reset", ("GOST34112012.reset", false)),
     ("copy", ("GOST34112012.copy", false))]),
   ("R5011132016", [("__init__", ("R5011132016.__init__", false)),
     ("__del__", ("R5011132016.__del__", false)),
     ("update", ("R5011132016.update", false)),
     ("digest", ("R5011132016.digest", false)),
     ("hexdigest", ("R5011132016.hexdigest", false)),
     ("copy", ("R5011132016.copy", false)),
     ("reset", ("R5011132016.reset", false)),
     ("clear", ("R5011132016.clear", false))]),
   ("R5011112016", [("__init__", ("R5011112016.__init__", false)),
     ("__del__", ("R5011112016.__del__", false)),
     ("_u_first", ("R5011112016._u_first", false)),
     ("_u_iter", ("R5011112016._u_iter", false)),
     ("_f", ("R5011112016._f", false)),
     ("_calculate_pbkdf", ("R5011112016._calculate_pbkdf", false)),
     ("derive", ("R5011112016.derive", false)),
     ("hexderive", ("R5011112016.hexderive", false)),
     ("clear", ("R5011112016.clear", false))]),
   ("R132356510062017", [("__init__", ("R132356510062017.__init__", false)),
     ("__del__", ("R132356510062017.__del__", false)),
     ("_rand_iter", ("R132356510062017._rand_iter", false)),
     ("_inc_rand_u", ("R132356510062017._inc_rand_u", false)),
     ("random", ("R132356510062017.random", false)),
     ("reset", ("R132356510062017.reset", false)),
     ("clear", ("R132356510062017.clear", false))]),
   ("GOST34102012", [("__init__", ("GOST34102012.__init__", false)),
     ("_set_size", ("GOST34102012._set_size", false)),
     ("_check_p_m", ("GOST34102012._check_p_m", false)),
     ("_check_x_y", ("GOST34102012._check_x_y", false)),
     ("_check_p", ("GOST34102012._check_p", false)),
     ("_check_q", ("GOST34102012._check_q", false)),
     ("_check_curve", ("GOST34102012._check_curve", false)),
     ("_invert", ("GOST34102012._invert", true)),
     ("_add", ("GOST34102012._add", false)),
     ("_mul_point", ("GOST34102012._mul_point", false)),
     ("_edvards_to_canonical", ("GOST34102012._edvards_to_canonical", false)),
     ("_get_rand_k", ("GOST34102012._get_rand_k", false)),
     ("_set_e", ("GOST34102012._set_e", false)),
     ("sign", ("GOST34102012.sign", false)),
     ("_get_r_s", ("GOST34102012._get_r_s", false)),
     ("_verify_step_1", ("GOST34102012._verify_step_1", false)),
     ("verify", ("GOST34102012.verify", false)),
     ("public_key_generate", ("GOST34102012.public_key_generate", false))])]

/-- The properties of each class, inherited ones included. -/
def propertyTable : List (String × List (String × String)) :=
  [("ObjectIdentifier", [("name", "ObjectIdentifier.name"),
     ("digit", "ObjectIdentifier.digit"),
     ("octet", "ObjectIdentifier.octet")]),
   ("GOST34122015Kuznechik", [("block_size", "GOST34122015Kuznechik.block_size"),
     ("key_size", "GOST34122015Kuznechik.key_size")]),
   ("GOST34122015Magma", [("block_size", "GOST34122015Magma.block_size"),
     ("key_size", "GOST34122015Magma.key_size")]),
   ("GOST34132015", [("block_size", "GOST34132015.block_size")]),
   ("GOST34132015Cipher", [("block_size", "GOST34132015.block_size")]),
   ("GOST34132015CipherPadding", [("block_size", "GOST34132015.block_size")]),
   ("GOST34132015CipherFeedBack", [("iv", "GOST34132015CipherFeedBack.iv"),
     ("block_size", "GOST34132015.block_size")]),
   ("GOST34132015ecb", [("block_size", "GOST34132015.block_size")]),
   ("GOST34132015cbc", [("iv", "GOST34132015CipherFeedBack.iv"),
     ("block_size", "GOST34132015.block_size")]),
   ("GOST34132015cfb", [("iv", "GOST34132015CipherFeedBack.iv"),
     ("block_size", "GOST34132015.block_size")]),
   ("GOST34132015ofb", [("iv", "GOST34132015CipherFeedBack.iv"),
     ("block_size", "GOST34132015.block_size")]),
   ("GOST34132015ctr", [("counter", "GOST34132015ctr.counter"),
     ("block_size", "GOST34132015.block_size")]),
   ("GOST34132015mac", [("block_size", "GOST34132015.block_size")]),
   ("GOST34112012", [("digest_size", "GOST34112012.digest_size"),
     ("block_size", "GOST34112012.block_size"),
     ("name", "GOST34112012.name")]),
   ("R5011132016", [("digest_size", "R5011132016.digest_size"),
     ("block_size", "R5011132016.block_size"),
     ("name", "R5011132016.name")]),
   ("R5011112016", [("salt", "R5011112016.salt")])]

/-- The package. -/
def package : Program where
  fn f := fnTable.lookup f
  globals x := globalTable.lookup x
  method c m := ((methodTable.lookup c).getD []).lookup m
  property c m := ((propertyTable.lookup c).getD []).lookup m

end Gost.Src
