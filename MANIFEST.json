{
 "claims": [
  {
   "property": "C01",
   "status": "proved",
   "theorems": [
    "Gost.C01_kuznechik_inverse"
   ],
   "note": ""
  },
  {
   "property": "C02",
   "status": "proved",
   "theorems": [
    "Gost.C02_magma_inverse"
   ],
   "note": ""
  },
  {
   "property": "C03",
   "status": "proved",
   "theorems": [
    "Gost.C03_kuznechik_standard",
    "Gost.C03_kuznechik_decrypt",
    "Gost.C03_kuznechik_round_keys",
    "Gost.C03_gf_tables",
    "Gost.C03_s_box",
    "Gost.C03_pi_algebraic"
   ],
   "note": ""
  },
  {
   "property": "C04",
   "status": "proved",
   "theorems": [
    "Gost.C04_magma_standard",
    "Gost.C04_magma_decrypt"
   ],
   "note": ""
  },
  {
   "property": "C05",
   "status": "proved",
   "theorems": [
    "Gost.C05_ecb_round_trip"
   ],
   "note": ""
  },
  {
   "property": "C06",
   "status": "proved",
   "theorems": [
    "Gost.C06_cbc_round_trip"
   ],
   "note": ""
  },
  {
   "property": "C07",
   "status": "proved",
   "theorems": [
    "Gost.C07_cfb_round_trip"
   ],
   "note": ""
  },
  {
   "property": "C08",
   "status": "proved",
   "theorems": [
    "Gost.C08_ofb_round_trip"
   ],
   "note": ""
  },
  {
   "property": "C09",
   "status": "proved",
   "theorems": [
    "Gost.C09_ctr_round_trip"
   ],
   "note": ""
  },
  {
   "property": "C10",
   "status": "proved",
   "theorems": [
    "Gost.C10_cbc_encrypt",
    "Gost.C10_cbc_decrypt",
    "Gost.C10_cfb",
    "Gost.C10_ofb",
    "Gost.C10_ctr",
    "Gost.C10_pad_mode_2_not_streaming"
   ],
   "note": "CBC encryption with PAD_MODE_1 as in the statement; the last theorem shows PAD_MODE_2 cannot be included."
  },
  {
   "property": "C100",
   "status": "proved",
   "theorems": [
    "Gost.Src.C100_new",
    "Gost.Src.C100_defaults",
    "Gost.Src.C100_methods",
    "Gost.Src.C100_reset_default",
    "Gost.Src.C100_standard"
   ],
   "note": "Over the abstract syntax of r_1323565_1_006_2017.py and the semantics of Verif/Source/Semantics.lean, in which a loop makes at most L turns (the theorems ask for more turns than blocks) and a negative exponent, which gives a float, is not defined; so the seed has at most 64 bytes."
  },
  {
   "property": "C101",
   "status": "proved",
   "theorems": [
    "Gost.Src.C101_new",
    "Gost.Src.C101_methods",
    "Gost.Src.C101_clear",
    "Gost.Src.C101_oid",
    "Gost.Src.C101_properties",
    "Gost.Src.C101_calls",
    "Gost.Src.C101_ecb",
    "Gost.Src.C101_cbc",
    "Gost.Src.C101_cfb",
    "Gost.Src.C101_ofb",
    "Gost.Src.C101_ctr"
   ],
   "note": "Over the abstract syntax of gost_34_13_2015.py and the semantics of Verif/Source/Semantics.lean; mode and pad_mode are integers. The right-hand sides of the last five are those of C71."
  },
  {
   "property": "C102",
   "status": "proved",
   "theorems": [
    "Gost.Src.C102_methods",
    "Gost.Src.C102_calls",
    "Gost.Src.C102_history",
    "Gost.Src.C102_standard"
   ],
   "note": "Over the abstract syntax of gost_34_13_2015.py and the semantics of Verif/Source/Semantics.lean. Constructor: C101_new. Data of 1 to block_size-1 bytes makes the constructor fail (C17); the effects of mac_final are those of C72."
  },
  {
   "property": "C103",
   "status": "proved",
   "theorems": [
    "Gost.Src.C103_new",
    "Gost.Src.C103_name",
    "Gost.Src.C103_digit",
    "Gost.Src.C103_octet",
    "Gost.Src.C103_refused"
   ],
   "note": "Over the abstract syntax of oid.py and the semantics of Verif/Source/Semantics.lean; int() is modelled for ASCII strings. That larger numbers are encoded wrongly is the subject of C39."
  },
  {
   "property": "C104",
   "status": "proved",
   "theorems": [
    "Gost.Src.C104_new",
    "Gost.Src.C104_new_any",
    "Gost.Src.C104_public_key",
    "Gost.Src.C104_verify",
    "Gost.Src.C104_sign",
    "Gost.Src.C104_sign_default",
    "Gost.Src.C104_table"
   ],
   "note": "Over the abstract syntax of gost_34_10_2012.py and the semantics of Verif/Source/Semantics.lean: loops make at most L turns and calls are nested at most n deep; 743 nested calls are enough for moduli up to 2^512 (C79). The generator _bits is written out as a loop by the translation. mode is an integer, the random bytes are a list in memory cell 0."
  },
  {
   "property": "C105",
   "status": "proved",
   "theorems": [
    "Gost.Src.C105_public_key",
    "Gost.Src.C105_sign",
    "Gost.Src.C105_verify",
    "Gost.Src.C105_run",
    "Gost.Src.C105_excluded"
   ],
   "note": "For objects with a base point of odd prime order over a prime field (Good), which all seven curves of the package satisfy (used by C105_run). The cases in which the code departs from the standard (x coordinate 0, the point at infinity) are the subject of C41 and C42."
  },
  {
   "property": "C106",
   "status": "proved",
   "theorems": [
    "Gost.Src.C106_zero_fill",
    "Gost.Src.C106_hash_updates",
    "Gost.Src.C106_hmac_empty",
    "Gost.Src.C106_ctr",
    "Gost.Src.C106_feedback",
    "Gost.Src.C106_padding",
    "Gost.Src.C106_truncated",
    "Gost.Src.C106_short_mac",
    "Gost.Src.C106_empty_iv",
    "Gost.Src.C106_refused",
    "Gost.Src.C106_pbkdf",
    "Gost.Src.C106_oid",
    "Gost.Src.C106_verify_infinity",
    "Gost.Src.C106_private_key_q",
    "Gost.Src.C106_endless",
    "Gost.Src.C106_sign_range",
    "Gost.Src.C106_key_off_curve",
    "Gost.Src.C106_weak_curve"
   ],
   "note": "The witnesses against C12 to C64 as runs of the abstract syntax of the package, through C95 to C105. C106_refused and the signature cases are for one key or curve; the others are for all."
  },
  {
   "property": "C107",
   "status": "proved",
   "theorems": [
    "Gost.Src.C107_send",
    "Gost.Src.C107_password",
    "Gost.Src.C107_document"
   ],
   "note": "Over the abstract syntax of the package and the semantics of Verif/Source/Semantics.lean. Keys of a full 32 bytes; messages of any length for the padded modes, the vector a positive multiple of the block (half a block for CTR). Passwords of at most 64 bytes, nonempty salts."
  },
  {
   "property": "C108",
   "status": "proved",
   "theorems": [
    "Gost.Src.C108_frame",
    "Gost.Src.C108_frame_quiet",
    "Gost.Src.C108_isolated"
   ],
   "note": "Over the abstract syntax of the package and the semantics of Verif/Source/Semantics.lean, in which module-level tables are values (a text which wrote to one would be stuck, and C95 to C105 exclude this), default arguments are evaluated at each call, and deepcopy copies. The steps of the interleaving are statements of the programs; inside a statement there is no switch. C108_frame is for all memories; C108_isolated excludes those from which os.urandom can draw (programs which draw from one source do influence each other)."
  },
  {
   "property": "C109",
   "status": "proved",
   "theorems": [
    "Gost.Src.C109_block",
    "Gost.Src.C109_modes",
    "Gost.Src.C109_hmac",
    "Gost.Src.C109_pbkdf",
    "Gost.Src.C109_random",
    "Gost.Src.C109_left"
   ],
   "note": "Over the abstract syntax of the package and the semantics of Verif/Source/Semantics.lean, which does not call destructors by itself: the theorems say what a call does, and C108 that a call at any time has no influence on programs which do not share the object. That overwriting writes the characters /x00 is C106."
  },
  {
   "property": "C11",
   "status": "proved",
   "theorems": [
    "Gost.C11_pad_mode_2_recover",
    "Gost.C11_ecb_injective",
    "Gost.C11_cbc_injective"
   ],
   "note": ""
  },
  {
   "property": "C110",
   "status": "proved",
   "theorems": [
    "Gost.Src.C110_fresh",
    "Gost.Src.C110_fresh_quiet",
    "Gost.Src.C110_fresh_error",
    "Gost.Src.C110_apart",
    "Gost.Src.C110_depends"
   ],
   "note": "Over the abstract syntax of the package and the semantics of Verif/Source/Semantics.lean (see the note of C108). Reach is the inductive set of cells reached from the references of values through the memory; the source of random bytes is memory cell 0."
  },
  {
   "property": "C111",
   "status": "proved",
   "theorems": [
    "Gost.Src.C111_mac_updates",
    "Gost.Src.C111_mac_clear",
    "Gost.Src.C111_cleared",
    "Gost.Src.C111_hmac_updates",
    "Gost.Src.C111_hmac_clear",
    "Gost.Src.C111_hmac_key",
    "Gost.Src.C111_ctr_counter",
    "Gost.Src.C111_counter_later",
    "Gost.Src.C111_pbkdf_salt",
    "Gost.Src.C111_random_limit",
    "Gost.Src.C111_growth_hmac",
    "Gost.Src.C111_growth_cipher",
    "Gost.Src.C111_oid_name",
    "Gost.Src.C111_curve_names"
   ],
   "note": "The witnesses against C18, C22, C29, C30, C31, C37, C49, C68, C81 and C88 as runs of the abstract syntax of the package. In C111_hmac_key and C111_pbkdf_salt the array is told from the other arrays of the object by its contents, so a few contents are left out."
  },
  {
   "property": "C112",
   "status": "proved",
   "theorems": [
    "Gost.Src.C112_bounds",
    "Gost.Src.C112_one_outcome",
    "Gost.Src.C112_call",
    "Gost.Src.C112_endless",
    "Gost.Src.C112_hash"
   ],
   "note": "Over the abstract syntax of the package and the semantics of Verif/Source/Semantics.lean. Steady, the hypothesis of the first two, is proved for calls, methods, attributes, statements (steady_call, steady_meth, steady_attr, steady_program) and sequences of them. The depth of deepcopy is a constant of the semantics and not one of the bounds: a copy of an object nested deeper than 10 counts as having no outcome (the package copies MAC, hash and HMAC objects, which are nested less deep)."
  },
  {
   "property": "C113",
   "status": "proved",
   "theorems": [
    "Gost.Src.C113_names",
    "Gost.Src.C113_raises",
    "Gost.Src.C113_members",
    "Gost.Src.C113_arity",
    "Gost.Src.C113_modules"
   ],
   "note": "Over the abstract syntax of the package and the semantics of Verif/Source/Semantics.lean. A check of texts (Verif/Source/Names.lean) is proved sound over the semantics and evaluated on the whole text by the kernel. Keyword arguments are positional in the text. The destructors of the block ciphers are not in the group which raises nothing, because the check follows a method by its name in all classes."
  },
  {
   "property": "C114",
   "status": "proved",
   "theorems": [
    "Gost.C114_ctr_apart",
    "Gost.C114_default",
    "Gost.C114_streams_equal",
    "Gost.C114_default_streams",
    "Gost.C114_cbc_equal",
    "Gost.C114_cfb_equal"
   ],
   "note": "The theorem on different vectors is for CTR, where it holds without assumptions on the cipher; the counter of the code differs from that of the standard only in the last half of the block (C13), so the theorem is not affected. C114_streams_equal is for any reachable state."
  },
  {
   "property": "C115",
   "status": "proved",
   "theorems": [
    "Gost.Src.C115_call",
    "Gost.Src.C115_client",
    "Gost.Src.C115_compare",
    "Gost.Src.C115_compare_to_zero",
    "Gost.Src.C115_cipher",
    "Gost.Src.C115_hash",
    "Gost.Src.C115_hmac",
    "Gost.Src.C115_pbkdf",
    "Gost.Src.C115_rest",
    "Gost.Src.C115_mac_key"
   ],
   "note": "Proved on the text of the package for the 128 functions of the table fnTypes; C115_rest lists the 33 others (object identifiers, derivation of the MAC keys and MAC constructor, output of the generator, signature). C115_mac_key is the negation for the MAC. The time of a table access (caches) and of an operation on big integers is not modelled."
  },
  {
   "property": "C116",
   "status": "partial",
   "theorems": [
    "Gost.Src.C116_hash",
    "Gost.Src.C116_hmac",
    "Gost.Src.C116_pbkdf_partial",
    "Gost.Src.C116_random",
    "Gost.Src.C116_cipher_new_partial",
    "Gost.Src.C116_cipher_partial",
    "Gost.Src.C116_mac_partial",
    "Gost.Src.C116_oid_partial",
    "Gost.Src.C116_signature_partial",
    "Gost.Src.C116_mac_negation",
    "Gost.Src.C116_pbkdf_negation",
    "Gost.Src.C116_oid_negation",
    "Gost.Src.C116_signature_negation",
    "Gost.Src.C116_cipher_negation"
   ],
   "note": "Proved on the text of the package. The hash, HMAC and the generator (seeds of up to 64 bytes) satisfy the statement. The others do not, and the exact cases are in the theorems: a short text in MODE_MAC (IndexError), an empty vector (IndexError), a password of more than 64 bytes (GOSTHMACError), an object identifier with one component (IndexError) or a negative one (OverflowError), an order 0 (ZeroDivisionError). Each is a theorem with the suffix _negation. Hypotheses: integers where integers are documented (padding mode, counter, lengths, curve parameters), a modulus of up to 2^512 and depth for the recursive inverse, random bytes of the asked length; an endless loop of sign counts as an answer of its own."
  },
  {
   "property": "C117",
   "status": "proved",
   "theorems": [
    "Gost.Src.C117_hash",
    "Gost.Src.C117_hmac",
    "Gost.Src.C117_pbkdf",
    "Gost.Src.C117_random",
    "Gost.Src.C117_new",
    "Gost.Src.C117_cipher",
    "Gost.Src.C117_mac",
    "Gost.Src.C117_signature"
   ],
   "note": "Proved on the text of the package: what is seen is computed from the contents alone (hash_program, hmac_program, pbkdf_program, rand_program, sig_program). mode, pad_mode, size and counter are integers; seeds of at most 64 bytes. For sign the random value is given and not empty, and the modulus of the curve is positive and at most 2^512. Object identifiers take strings and are not in the statement."
  },
  {
   "property": "C118",
   "status": "proved",
   "theorems": [
    "Gost.Kuz.C118_kuznechik",
    "Gost.Kuz.C118_kuznechik_one",
    "Gost.Magma.C118_magma",
    "Gost.C118_random",
    "Gost.Sig.C118_signature",
    "Gost.Sig.C118_key"
   ],
   "note": "The erasure of the round keys, of the register and of the random value must therefore be complete; what clear() really does is the subject of C22, C38, C60 and C111."
  },
  {
   "property": "C119",
   "status": "proved",
   "theorems": [
    "Gost.C119_zeros",
    "Gost.C119_read",
    "Gost.C119_ctr",
    "Gost.C119_mac_keys",
    "Gost.C119_mac_cbc"
   ],
   "note": "New objects, before any other call. The counter of CTR is the one the code makes (C13), which is what the theorem on ECB shows; the MAC keys are read as attributes of the object."
  },
  {
   "property": "C12",
   "status": "partial",
   "theorems": [
    "Gost.C12_pad_mode_2_exact",
    "Gost.C12_procedure_2_partial",
    "Gost.C12_negation"
   ],
   "note": "False of the code for messages which are empty or not a multiple of the block size: one more block of zeros is appended (C12_negation). Exact behaviour proved."
  },
  {
   "property": "C120",
   "status": "proved",
   "theorems": [
    "Gost.Sig.C120_uniform",
    "Gost.Sig.C120_count",
    "Gost.Sig.C120_share",
    "Gost.Sig.C120_signature",
    "Gost.Sig.C120_zero"
   ],
   "note": "A draw is a number below 256^size, written in size bytes; os.urandom is the source. That sign uses the first draw below q is C60."
  },
  {
   "property": "C121",
   "status": "proved",
   "theorems": [
    "Gost.Kuz.C121_linear",
    "Gost.Kuz.C121_linear_reverse",
    "Gost.Kuz.C121_round",
    "Gost.Kuz.C121_active",
    "Gost.Kuz.C121_field",
    "Gost.C121_sbox",
    "Gost.C121_sbox_magma"
   ],
   "note": "The number 69 counts the bytes at the substitution of nine rounds (17 for each of four pairs of neighbouring rounds, and one more); it is a bound for differences between two blocks under one key, not a bound on the probability of a difference."
  },
  {
   "property": "C122",
   "status": "proved",
   "theorems": [
    "Gost.Hash.C122_lps",
    "Gost.Hash.C122_two",
    "Gost.Hash.C122_active",
    "Gost.Hash.C122_keys"
   ],
   "note": "On the tables as the code has them. The counts are for a difference in the block with equal keys and for a difference in the key of the schedule; for changes in both at the same time the two are added to each other in the state and no bound is claimed."
  },
  {
   "property": "C123",
   "status": "proved",
   "theorems": [
    "Gost.C123_block",
    "Gost.C123_modes",
    "Gost.C123_ecb"
   ],
   "note": "New objects, before any other call. A known property of the cipher of the standard, which the code has too. CTR and the MAC are not in the statement: their counter and their auxiliary keys cannot be flipped by the caller."
  },
  {
   "property": "C124",
   "status": "proved",
   "theorems": [
    "Gost.Sig.C124_second_key",
    "Gost.Sig.C124_which",
    "Gost.Sig.C124_negative",
    "Gost.Sig.C124_builtin",
    "Gost.Sig.C124_example"
   ],
   "note": "A property of the scheme which users of verify have to know; the keys are the answers of public_key_generate, the curve any which satisfies Good, and the built-in ones."
  },
  {
   "property": "C125",
   "status": "proved",
   "theorems": [
    "Gost.Kuz.C125_masks",
    "Gost.Kuz.C125_masks_reverse",
    "Gost.Kuz.C125_masks_exist",
    "Gost.C125_sbox",
    "Gost.C125_sbox_magma",
    "Gost.C125_reached"
   ],
   "note": "Counts for one substitution and one linear layer; no bound for the correlation of a whole encryption is claimed."
  },
  {
   "property": "C126",
   "status": "proved",
   "theorems": [
    "Gost.C126_involution",
    "Gost.C126_reflection",
    "Gost.C126_count",
    "Gost.C126_fixed"
   ],
   "note": "On the model of the class; the equality with the text is C96. A known property of the cipher of the standard."
  },
  {
   "property": "C127",
   "status": "proved",
   "theorems": [
    "Gost.C127_ecb",
    "Gost.C127_cbc",
    "Gost.C127_cfb",
    "Gost.C127_ofb",
    "Gost.C127_ctr"
   ],
   "note": "Objects with an empty register are in C78. The encrypted bytes reach the receiver unchanged and in order; for changed or lost ones see C52."
  },
  {
   "property": "C128",
   "status": "proved",
   "theorems": [
    "Gost.C128_ecb",
    "Gost.C128_cbc",
    "Gost.C128_cfb",
    "Gost.C128_ofb",
    "Gost.C128_ctr"
   ],
   "note": "ECB and CBC count whole blocks of the unpadded data; the padded last block is not counted."
  },
  {
   "property": "C129",
   "status": "proved",
   "theorems": [
    "Gost.C129_extend",
    "Gost.C129_any_end",
    "Gost.C129_exist"
   ],
   "note": "For MACs of full length of objects made with the message as data. A truncated MAC may agree without the full one."
  },
  {
   "property": "C13",
   "status": "partial",
   "theorems": [
    "Gost.C13_exact",
    "Gost.C13_standard_partial",
    "Gost.C13_negation"
   ],
   "note": "False of the code after 256 blocks: only the last byte of the counter is incremented. Exact behaviour and the first 256 blocks proved."
  },
  {
   "property": "C130",
   "status": "proved",
   "theorems": [
    "Gost.Src.C130_program",
    "Gost.Src.C130_parties",
    "Gost.Src.C130_key"
   ],
   "note": "About the generated text. Arguments which are attributes of an object, like the counter of a CTR object, are not among those of the programs; MAC objects are not among the objects."
  },
  {
   "property": "C131",
   "status": "proved",
   "theorems": [
    "Gost.Src.C131_program",
    "Gost.Src.C131_sealed",
    "Gost.Src.C131_generator",
    "Gost.Src.C131_signed"
   ],
   "note": "About the generated text. The hypothesis hn says that no call asks the system for random bytes, and that no loop of a signature object makes more than L turns (a private key 0 never ends). The size of the seed of a generator is at most 64 and its values have fewer blocks of 64 bytes than the context lets a loop turn (L, arbitrary). A signature object has a positive modulus of at most 512 bits, and the calls may be nested n + 11 deep with n at least 732. The methods are those of the public interface (update, digest, hexdigest, encrypt, decrypt, reset, clear, copy, derive, hexderive, random, public_key_generate, sign, verify)."
  },
  {
   "property": "C132",
   "status": "proved",
   "theorems": [
    "Gost.Src.C132_standard",
    "Gost.Src.C132_default",
    "Gost.Src.C132_default_returns",
    "Gost.Src.C132_known",
    "Gost.Src.C132_related",
    "Gost.Src.C132_reuse",
    "Gost.Src.C132_seed"
   ],
   "note": "About the generated text (the model version of the third formula is C62). Weaknesses of the scheme which callers of sign who pass rand_k have to know; that a divisor is zero is decided by the caller from public values. The limits of the calls may be any for which the call returns, with at least 743 nested calls."
  },
  {
   "property": "C133",
   "status": "proved",
   "theorems": [
    "Gost.Src.C133_form",
    "Gost.Src.C133_default",
    "Gost.Src.C133_first",
    "Gost.Src.C133_known",
    "Gost.Src.C133_reuse"
   ],
   "note": "Over the abstract syntax of the package and the semantics of Verif/Source/Semantics.lean; Signs is a returning call of sign with an explicit random number in some memory. p is positive and at most 2^512 (the recursion of _invert is followed to a depth which is enough for that); new accepts others too. That a call returns is not claimed: for the random number 0 it does not end (C106)."
  },
  {
   "property": "C134",
   "status": "partial",
   "theorems": [
    "Gost.Src.C134_accepted_partial",
    "Gost.Src.C134_public_key_partial",
    "Gost.Src.C134_sign_partial",
    "Gost.Src.C134_verify_partial",
    "Gost.Src.C134_public_key_negation",
    "Gost.Src.C134_sign_negation"
   ],
   "note": "Acceptance is proved for parameters in canonical form (not Edwards, where a, b, x and y are all 0). On a good curve, with coordinates which fit the size of the mode, public keys, signatures and answers are the same unless the base point is multiplied by 1: private key 1, random number 1, or a signature whose second half is e (and public keys with a coordinate 0 are left out). There the statement is false: _check_x_y computes modulo p but the coordinates are stored as given, and _mul_point returns them unreduced for the number 1. With x = 1 + p for 256-paramSetB the public key of 1 has a coordinate which is not below p, and a signature made with the random number 1 is refused by verify."
  },
  {
   "property": "C135",
   "status": "proved",
   "theorems": [
    "Gost.Src.C135_verify",
    "Gost.Src.C135_two_keys"
   ],
   "note": "About the generated text; Verifies is a call of verify with three byte strings in some memory which returns. For r + e = q the point is multiplied by 1 and its coordinates go into the last addition as they are; no claim is made there. That verify does not ask whether a key is on the curve is C64. A caller who compares or stores keys as byte strings has to reduce them."
  },
  {
   "property": "C14",
   "status": "partial",
   "theorems": [
    "Gost.C14_exact",
    "Gost.C14_distinct_partial",
    "Gost.C14_negation"
   ],
   "note": "False of the code: the keystream has period 256 blocks. Exact behaviour proved."
  },
  {
   "property": "C15",
   "status": "partial",
   "theorems": [
    "Gost.C15_negation",
    "Gost.C15_ctr_partial",
    "Gost.C15_ofb_exact",
    "Gost.C15_ofb_blocks",
    "Gost.C15_cfb_exact",
    "Gost.C15_cfb_blocks",
    "Gost.C15_cfb_negation"
   ],
   "note": "False of the code for CFB and OFB messages with a short last block; proved for CTR up to 256 blocks. C15_ofb_exact and C15_cfb_exact say which keystream block every call of any mixture uses, C15_ofb_blocks and C15_cfb_blocks when two of them are equal; in CFB there is reuse even for whole blocks if a ciphertext block repeats (C15_cfb_negation, true of the standard as well)."
  },
  {
   "property": "C16",
   "status": "proved",
   "theorems": [
    "Gost.C16_cbc_encrypt",
    "Gost.C16_cbc_decrypt",
    "Gost.C16_cfb_encrypt",
    "Gost.C16_cfb_decrypt",
    "Gost.C16_ofb"
   ],
   "note": ""
  },
  {
   "property": "C17",
   "status": "partial",
   "theorems": [
    "Gost.C17_omac_partial",
    "Gost.C17_negation"
   ],
   "note": "False of the code for messages of 1 to block_size-1 bytes, which raise IndexError. Proved for the empty message and every message of at least one block."
  },
  {
   "property": "C18",
   "status": "partial",
   "theorems": [
    "Gost.C18_exact",
    "Gost.C18_concat_partial",
    "Gost.C18_negation"
   ],
   "note": "False of the code: an update which does not complete a block raises IndexError. Exact outcome of every sequence of updates proved."
  },
  {
   "property": "C19",
   "status": "proved",
   "theorems": [
    "Gost.C19_digest_observation",
    "Gost.C19_mac_final_changes"
   ],
   "note": ""
  },
  {
   "property": "C20",
   "status": "partial",
   "theorems": [
    "Gost.C20_exact",
    "Gost.C20_documented_partial",
    "Gost.C20_defaults",
    "Gost.C20_negation",
    "Gost.C20_short_mac"
   ],
   "note": "False of the code for an empty IV in CBC, CFB, OFB (accepted) and for a MAC text shorter than a block (IndexError). Exact outcome for all arguments proved."
  },
  {
   "property": "C21",
   "status": "partial",
   "theorems": [
    "Gost.C21_attributes_partial",
    "Gost.C21_negation",
    "Gost.C21_negation_any"
   ],
   "note": "False of the code: a rejected call overwrites the round keys. Proved that nothing else changes."
  },
  {
   "property": "C22",
   "status": "partial",
   "theorems": [
    "Gost.C22_later_calls_partial",
    "Gost.C22_new_partial",
    "Gost.C22_magma_known_key",
    "Gost.C22_zero_negation",
    "Gost.C22_mac_negation"
   ],
   "note": "Key independence after clear() proved for the five encryption modes and every later history; false for MAC (auxiliary keys stay) and 'round keys are zero' is false."
  },
  {
   "property": "C23",
   "status": "proved",
   "theorems": [
    "Gost.C23_new",
    "Gost.C23_update",
    "Gost.C23_reset",
    "Gost.C23_variants"
   ],
   "note": ""
  },
  {
   "property": "C24",
   "status": "proved",
   "theorems": [
    "Gost.C24_tables",
    "Gost.C24_lps",
    "Gost.C24_constants"
   ],
   "note": ""
  },
  {
   "property": "C25",
   "status": "partial",
   "theorems": [
    "Gost.C25_exact",
    "Gost.C25_concat_partial",
    "Gost.C25_negation",
    "Gost.C25_statement_false"
   ],
   "note": "False of the code: an update which completes a started block exactly leaves the old buffer in place, and it is hashed again. Exact behaviour for every sequence proved."
  },
  {
   "property": "C26",
   "status": "proved",
   "theorems": [
    "Gost.C26_histories",
    "Gost.C26_digest_size",
    "Gost.C26_digest_length"
   ],
   "note": ""
  },
  {
   "property": "C27",
   "status": "proved",
   "theorems": [
    "Gost.C27_hmac",
    "Gost.C27_accepts",
    "Gost.C27_rejects"
   ],
   "note": ""
  },
  {
   "property": "C28",
   "status": "partial",
   "theorems": [
    "Gost.C28_exact",
    "Gost.C28_update_partial",
    "Gost.C28_negation",
    "Gost.C28_statement_false"
   ],
   "note": "False of the code: without an update digest() is the hash of (K xor opad) || H(empty) — the inner key block is never hashed. Exact value proved for every key; true as soon as update(b'') is called."
  },
  {
   "property": "C29",
   "status": "partial",
   "theorems": [
    "Gost.C29_exact",
    "Gost.C29_concat_partial",
    "Gost.C29_negation",
    "Gost.C29_statement_false"
   ],
   "note": "False of the code through the Streebog buffer defect (C25). Exact behaviour for every sequence of updates proved."
  },
  {
   "property": "C30",
   "status": "partial",
   "theorems": [
    "Gost.C30_reset",
    "Gost.C30_clear_partial",
    "Gost.C30_clear_key",
    "Gost.C30_negation",
    "Gost.C30_clear_reset"
   ],
   "note": "reset() part and key independence after clear() proved for every history; 'independent of the data received before' is false (clear keeps the update counter)."
  },
  {
   "property": "C31",
   "status": "partial",
   "theorems": [
    "Gost.Alias.C31_captured_partial",
    "Gost.Alias.C31_exact",
    "Gost.Alias.C31_negation",
    "Gost.Alias.C31_statement_false",
    "Gost.Alias.C31_caller"
   ],
   "note": "False of the code for a bytearray key of exactly 64 bytes, which is kept by reference; proved for all other keys over a heap model with arbitrary caller writes."
  },
  {
   "property": "C32",
   "status": "proved",
   "theorems": [
    "Gost.C32_pbkdf2",
    "Gost.C32_length",
    "Gost.C32_prefix",
    "Gost.C32_block",
    "Gost.C32_hexderive"
   ],
   "note": ""
  },
  {
   "property": "C33",
   "status": "proved",
   "theorems": [
    "Gost.C33_new",
    "Gost.C33_errors",
    "Gost.C33_salt",
    "Gost.C33_derive"
   ],
   "note": "A password of more than 64 bytes is rejected by GOSTHMACError, not GOSTPBKDFError."
  },
  {
   "property": "C34",
   "status": "partial",
   "theorems": [
    "Gost.C34_attribute_partial",
    "Gost.C34_exact",
    "Gost.C34_negation",
    "Gost.C34_statement_false"
   ],
   "note": "False of the code: clear() erases only the password attribute; the HMAC object keeps the key, and derive() is proved unchanged by clear() for every input."
  },
  {
   "property": "C35",
   "status": "proved",
   "theorems": [
    "Gost.C35_random",
    "Gost.C35_exact",
    "Gost.C35_system_seed",
    "Gost.C35_length",
    "Gost.C35_continues",
    "Gost.C35_huge_seed"
   ],
   "note": "C35_exact gives every call for every seed of up to 198 bytes, including the refusals for a zero seed part; longer (non-standard) seeds never give output (C35_huge_seed)."
  },
  {
   "property": "C36",
   "status": "proved",
   "theorems": [
    "Gost.C36_distinct",
    "Gost.C36_values"
   ],
   "note": "C36_distinct is about all numbers; C36_values follows an object with a seed of up to 198 bytes, longer ones never give output (C35_huge_seed)."
  },
  {
   "property": "C37",
   "status": "partial",
   "theorems": [
    "Gost.C37_seed_kept_partial",
    "Gost.C37_never_raised",
    "Gost.C37_overflow",
    "Gost.C37_negation",
    "Gost.C37_statement_false"
   ],
   "note": "False of the code: the limit 2^(8*(64-size_s)) exceeds what the 63-size_s counter bytes can hold; the error is proved never to be raised on a seeded object and the counter overflows into the seed."
  },
  {
   "property": "C38",
   "status": "proved",
   "theorems": [
    "Gost.C38_reset",
    "Gost.C38_new",
    "Gost.C38_zero_seed",
    "Gost.C38_clear"
   ],
   "note": ""
  },
  {
   "property": "C39",
   "status": "partial",
   "theorems": [
    "Gost.C39_octet_partial",
    "Gost.C39_iff",
    "Gost.C39_shape",
    "Gost.C39_der_injective",
    "Gost.C39_injective_partial",
    "Gost.C39_negation",
    "Gost.C39_statement_false",
    "Gost.C39_registered"
   ],
   "note": "The code sets the continuation bit only on the first octet of a component, so components of 2^14 and more are not DER and 1.2.16384 and 1.2.128.0 collide (C39_negation). C39_iff: for valid identifiers of any length the octets are DER exactly when every encoded number is below 2^14; tag and length are right for all (C39_shape). C39_registered: all entries of OBJECT_IDENTIFIER_TC26 are encoded correctly. The bound 256^126 on the length of the contents is DER's own."
  },
  {
   "property": "C40",
   "status": "partial",
   "theorems": [
    "Gost.C40_digit",
    "Gost.C40_digit_iff",
    "Gost.C40_digit_error",
    "Gost.C40_digit_total",
    "Gost.C40_octet_invalid",
    "Gost.C40_first",
    "Gost.C40_second_partial",
    "Gost.C40_single",
    "Gost.C40_second_negative",
    "Gost.C40_second_overflow",
    "Gost.C40_negation",
    "Gost.C40_statement_false"
   ],
   "note": "Parsing is proved in full (every list of naturals, every ASCII string). The last clause fails: a negative second component is not refused with GOSTOIDError (1.-5 is encoded as 0.35, or OverflowError), a missing one raises IndexError."
  },
  {
   "property": "C41",
   "status": "partial",
   "theorems": [
    "Gost.Sig.C41_sign_std",
    "Gost.Sig.C41_sign_returns",
    "Gost.Sig.C41_sign_verify_partial",
    "Gost.Sig.C41_example",
    "Gost.Sig.C41_statement_false"
   ],
   "note": "Proved for every curve with a base point of odd prime order (p prime, p <= 256^size, reduced base coordinates) over Mathlib's group law, except public keys with x coordinate 0 (the code replaces them by the base point: C41_statement_false gives sign -> verify False on built-in 256-paramSetD) and private keys d > q whose double-and-add passes through infinity."
  },
  {
   "property": "C42",
   "status": "partial",
   "theorems": [
    "Gost.Sig.C42_verify_partial",
    "Gost.Sig.C42_key_point",
    "Gost.Sig.C42_zero_x",
    "Gost.Sig.C42_infinity",
    "Gost.Sig.C42_statement_false"
   ],
   "note": "Exact whenever the public key has a non-zero x coordinate and z1*P+z2*Q is not infinity. The two remaining cases are characterised exactly (C42_zero_x, C42_infinity) and the code is wrong there: C42_statement_false shows a forged signature accepted on built-in 256-paramSetB because infinity is not rejected."
  },
  {
   "property": "C43",
   "status": "partial",
   "theorems": [
    "Gost.Sig.C43_private_key",
    "Gost.Sig.C43_point",
    "Gost.Sig.C43_result",
    "Gost.Sig.C43_mod_q_partial",
    "Gost.Sig.C43_multiple_of_q",
    "Gost.Sig.C43_key_q",
    "Gost.Sig.C43_wrap_top",
    "Gost.Sig.C43_wrap_second",
    "Gost.Sig.C43_wrap_third",
    "Gost.Sig.C43_wrap_builtin",
    "Gost.Sig.C43_all_keys",
    "Gost.Sig.C43_statement_false"
   ],
   "note": "0 < d < q: proved in full. For larger d the additions can meet the point at infinity (d = q is accepted and returns bytes that are no point, C43_statement_false); dependence on d mod q proved when this does not happen. The keys with an undefined addition are listed for q of 8*size, 8*size-1 and 8*size-2 bits and for every built-in set (for five of the seven only d = q), and the bytes returned for d = q are given exactly (C43_key_q)."
  },
  {
   "property": "C44",
   "status": "partial",
   "theorems": [
    "Gost.Sig.C44_terminates_partial",
    "Gost.Sig.C44_public_key",
    "Gost.Sig.C44_sign",
    "Gost.Sig.C44_sign_random",
    "Gost.Sig.C44_verify",
    "Gost.Sig.C44_zero_k",
    "Gost.Sig.C44_statement_false"
   ],
   "note": "The statement is false (C44_statement_false: private key 0 and k = 0 loop for ever). Exact: public_key_generate ends iff the key is not zero; sign ends iff the standard has a signature for that k; verify always ends."
  },
  {
   "property": "C45",
   "status": "partial",
   "theorems": [
    "Gost.Sig.C45_accepted_partial",
    "Gost.Sig.C45_accepted_edwards",
    "Gost.Sig.C45_rejected",
    "Gost.Sig.C45_builtin",
    "Gost.Sig.C45_statement_false"
   ],
   "note": "Exact acceptance condition proved, but the code never rejects because of p^t = 1 mod q (C45_statement_false). Built-in curves satisfy all conditions."
  },
  {
   "property": "C46",
   "status": "proved",
   "theorems": [
    "Gost.Sig.C46_formulas",
    "Gost.Sig.C46_on_curve",
    "Gost.Sig.C46_birational",
    "Gost.Sig.C46_example_c256A",
    "Gost.Sig.C46_example_c512C",
    "Gost.Sig.C46_hypotheses_c256A",
    "Gost.Sig.C46_hypotheses_c512C"
   ],
   "note": ""
  },
  {
   "property": "C47",
   "status": "proved",
   "theorems": [
    "Gost.Sig.C47_public_key_generate",
    "Gost.Sig.C47_verify",
    "Gost.Sig.C47_verify_range",
    "Gost.Sig.C47_sign",
    "Gost.Sig.C47_sign_output"
   ],
   "note": ""
  },
  {
   "property": "C48",
   "status": "partial",
   "theorems": [
    "Gost.C48_helpers_partial",
    "Gost.C48_compare",
    "Gost.C48_compare_to_zero",
    "Gost.C48_bytes_int_bytes",
    "Gost.C48_int_bytes_int",
    "Gost.C48_int_fits",
    "Gost.C48_conversions",
    "Gost.C48_xor_involution",
    "Gost.C48_xor_bytes",
    "Gost.C48_zero_fill",
    "Gost.C48_statement_false"
   ],
   "note": "zero_fill writes b'/x00' (a slash) for every byte: four times the length and no zero byte (C48_zero_fill). All other clauses hold."
  },
  {
   "property": "C49",
   "status": "partial",
   "theorems": [
    "Gost.Alias.C49_iv",
    "Gost.Alias.C49_callers_buffers",
    "Gost.Alias.C49_methods",
    "Gost.Alias.C49_arguments_partial",
    "Gost.Alias.C49_counter_negation",
    "Gost.Alias.C49_salt_negation",
    "Gost.Alias.C49_statement_false"
   ],
   "note": "iv: proved. counter and salt return the internal buffer: false, with exact effect of a write proved."
  },
  {
   "property": "C50",
   "status": "partial",
   "theorems": [
    "Gost.C50_truncated_exact",
    "Gost.C50_negation",
    "Gost.C50_aligned_partial",
    "Gost.C50_negation_modes",
    "Gost.C50_aligned_modes_partial"
   ],
   "note": "False of the code: the trailing bytes are dropped without an error, in ECB and in CBC, with both kinds of padding; block-aligned input is preserved in both."
  },
  {
   "property": "C51",
   "status": "proved",
   "theorems": [
    "Gost.C51_ofb_keystream",
    "Gost.C51_ctr_keystream",
    "Gost.C51_bit_flip"
   ],
   "note": ""
  },
  {
   "property": "C52",
   "status": "proved",
   "theorems": [
    "Gost.C52_cbc_local",
    "Gost.C52_cfb_local",
    "Gost.C52_wrong_iv"
   ],
   "note": ""
  },
  {
   "property": "C53",
   "status": "proved",
   "theorems": [
    "Gost.C53_stream_reverse",
    "Gost.C53_cbc_reverse"
   ],
   "note": ""
  },
  {
   "property": "C54",
   "status": "proved",
   "theorems": [
    "Gost.C54_ecb_blockwise",
    "Gost.C54_ecb_equal_blocks"
   ],
   "note": ""
  },
  {
   "property": "C55",
   "status": "proved",
   "theorems": [
    "Gost.C55_histories",
    "Gost.C55_log_is_hmac"
   ],
   "note": ""
  },
  {
   "property": "C56",
   "status": "proved",
   "theorems": [
    "Gost.C56_hash",
    "Gost.C56_hmac",
    "Gost.C56_mac",
    "Gost.C56_pbkdf",
    "Gost.C56_injective"
   ],
   "note": ""
  },
  {
   "property": "C57",
   "status": "proved",
   "theorems": [
    "Gost.C57_hmac",
    "Gost.C57_pbkdf"
   ],
   "note": ""
  },
  {
   "property": "C58",
   "status": "proved",
   "theorems": [
    "Gost.C58_histories"
   ],
   "note": ""
  },
  {
   "property": "C59",
   "status": "proved",
   "theorems": [
    "Gost.Sig.C59_paramSetA",
    "Gost.Sig.C59_paramSetB",
    "Gost.Sig.C59_paramSetC",
    "Gost.Sig.C59_paramSetD",
    "Gost.Sig.C59_paramSet512A",
    "Gost.Sig.C59_paramSet512B",
    "Gost.Sig.C59_paramSet512C",
    "Gost.Sig.C59_paramSetA_all",
    "Gost.Sig.C59_paramSetB_all",
    "Gost.Sig.C59_paramSetC_all",
    "Gost.Sig.C59_paramSetD_all",
    "Gost.Sig.C59_paramSet512A_all",
    "Gost.Sig.C59_paramSet512B_all",
    "Gost.Sig.C59_paramSet512C_all",
    "Gost.Sig.C59_all",
    "Gost.Sig.C41_statement_false"
   ],
   "note": "The _all theorems extend the claim to the private keys above q without an undefined addition (listed by C43_wrap_builtin)."
  },
  {
   "property": "C60",
   "status": "proved",
   "theorems": [
    "Gost.Sig.C60_explicit",
    "Gost.Sig.C60_drawn",
    "Gost.Sig.C60_draws_used"
   ],
   "note": ""
  },
  {
   "property": "C61",
   "status": "proved",
   "theorems": [
    "Gost.Sig.C61_digest"
   ],
   "note": ""
  },
  {
   "property": "C62",
   "status": "proved",
   "theorems": [
    "Gost.Sig.C62_reuse"
   ],
   "note": ""
  },
  {
   "property": "C63",
   "status": "partial",
   "theorems": [
    "Gost.Sig.C63_length_partial",
    "Gost.Sig.C63_mod_q",
    "Gost.Sig.C63_statement_false"
   ],
   "note": "False of the code: only the length is checked; sign uses the key modulo q (C63_mod_q) and signs with the keys 0 and q (C63_statement_false)."
  },
  {
   "property": "C64",
   "status": "partial",
   "theorems": [
    "Gost.Sig.C64_length_partial",
    "Gost.Sig.C64_any_key",
    "Gost.Sig.C64_statement_false"
   ],
   "note": "False of the code: the key is never checked to be a point. C64_any_key: for practically every pair of numbers there are a digest and a signature which verify accepts; witness (1, 1) on 256-paramSetD."
  },
  {
   "property": "C65",
   "status": "proved",
   "theorems": [
    "Gost.C65_ecb",
    "Gost.C65_cbc",
    "Gost.C65_cfb",
    "Gost.C65_ofb",
    "Gost.C65_ctr"
   ],
   "note": "CTR is stated with the counter which the code uses, see C13."
  },
  {
   "property": "C66",
   "status": "proved",
   "theorems": [
    "Gost.C66_new",
    "Gost.C66_update"
   ],
   "note": ""
  },
  {
   "property": "C67",
   "status": "proved",
   "theorems": [
    "Gost.C67_cipher",
    "Gost.C67_hash",
    "Gost.C67_hmac",
    "Gost.C67_sign",
    "Gost.C67_distinct"
   ],
   "note": "oid is assigned in the constructors only and is modelled as a function of the class or of the constructor's argument."
  },
  {
   "property": "C68",
   "status": "partial",
   "theorems": [
    "Gost.C68_registered_partial",
    "Gost.C68_statement_false"
   ],
   "note": "False of the code: only the names of 512-paramSetA and 512-paramSetB are registered names; the others are spelled 2012 instead of 12."
  },
  {
   "property": "C69",
   "status": "proved",
   "theorems": [
    "Gost.C69_cipher",
    "Gost.C69_hash"
   ],
   "note": "The same for HMAC objects is part of C55."
  },
  {
   "property": "C70",
   "status": "proved",
   "theorems": [
    "Gost.C70_history"
   ],
   "note": "The seed sizes up to 198 bytes; the refusal after clear is the counter-limit error, because zero_fill writes the bytes of '/x00'."
  },
  {
   "property": "C71",
   "status": "proved",
   "theorems": [
    "Gost.C71_ecb",
    "Gost.C71_cbc",
    "Gost.C71_cfb",
    "Gost.C71_ofb",
    "Gost.C71_ctr"
   ],
   "note": "CTR is stated with the counter which the code uses, see C13."
  },
  {
   "property": "C72",
   "status": "proved",
   "theorems": [
    "Gost.C72_history",
    "Gost.C72_standard"
   ],
   "note": "First data empty or of at least one block (otherwise new raises IndexError, C20)."
  },
  {
   "property": "C73",
   "status": "proved",
   "theorems": [
    "Gost.C73_kuznechik",
    "Gost.C73_magma"
   ],
   "note": ""
  },
  {
   "property": "C74",
   "status": "proved",
   "theorems": [
    "Gost.Sig.C74_injective",
    "Gost.Sig.C74_on_curve",
    "Gost.Sig.C74_builtin"
   ],
   "note": ""
  },
  {
   "property": "C75",
   "status": "proved",
   "theorems": [
    "Gost.Sig.C75_digests",
    "Gost.Sig.C75_opposite",
    "Gost.Sig.C75_second_half",
    "Gost.Sig.C75_keys",
    "Gost.Sig.C75_builtin"
   ],
   "note": "The +1 is the signature for which z1*P+z2*Q is the point at infinity, see C42."
  },
  {
   "property": "C76",
   "status": "proved",
   "theorems": [
    "Gost.C76_one_block"
   ],
   "note": ""
  },
  {
   "property": "C77",
   "status": "proved",
   "theorems": [
    "Gost.C77_ecb",
    "Gost.C77_cbc",
    "Gost.C77_cfb",
    "Gost.C77_ofb",
    "Gost.C77_ctr",
    "Gost.roundUp_least"
   ],
   "note": "Data of the types which the code accepts; others are C20."
  },
  {
   "property": "C78",
   "status": "proved",
   "theorems": [
    "Gost.C78_refused",
    "Gost.C78_cbc_decrypt"
   ],
   "note": ""
  },
  {
   "property": "C79",
   "status": "proved",
   "theorems": [
    "Gost.Sig.C79_enough",
    "Gost.Sig.C79_not_enough",
    "Gost.Sig.C79_limits"
   ],
   "note": ""
  },
  {
   "property": "C80",
   "status": "proved",
   "theorems": [
    "Gost.C80_sign_document",
    "Gost.C80_password"
   ],
   "note": "sign may also not return (C44), so the document part speaks of what it returns."
  },
  {
   "property": "C81",
   "status": "partial",
   "theorems": [
    "Gost.C81_cipher_partial",
    "Gost.C81_cipher",
    "Gost.C81_unbounded",
    "Gost.C81_refused",
    "Gost.C81_statement_false",
    "Gost.C81_hmac",
    "Gost.C81_random",
    "Gost.C81_pbkdf"
   ],
   "note": "The statement is false: zero_fill returns four bytes for each byte, so clear and refused calls make the key material four times as large. C81_cipher and C81_hmac give the exact number of bytes after any calls."
  },
  {
   "property": "C82",
   "status": "proved",
   "theorems": [
    "Gost.C82_512",
    "Gost.C82_256",
    "Gost.C82_standard",
    "Gost.C82_hmac",
    "Gost.C82_pieces"
   ],
   "note": ""
  },
  {
   "property": "C83",
   "status": "proved",
   "theorems": [
    "Gost.C83_lps",
    "Gost.C83_get_key",
    "Gost.C83_hash_e",
    "Gost.C83_hash_g"
   ],
   "note": ""
  },
  {
   "property": "C84",
   "status": "proved",
   "theorems": [
    "Gost.C84_block",
    "Gost.C84_fixed",
    "Gost.C84_ecb"
   ],
   "note": "A property of the standard's key schedule; the package does not warn of such keys."
  },
  {
   "property": "C85",
   "status": "partial",
   "theorems": [
    "Gost.C85_partial",
    "Gost.C85_exact",
    "Gost.C85_statement_false"
   ],
   "note": "The statement is false: new does not look at the number, and every number below one is used as one."
  },
  {
   "property": "C86",
   "status": "proved",
   "theorems": [
    "Gost.C86_gf",
    "Gost.C86_mac_keys"
   ],
   "note": "Stated with the polynomials of Mathlib."
  },
  {
   "property": "C87",
   "status": "proved",
   "theorems": [
    "Gost.C87_keys",
    "Gost.C87_padding"
   ],
   "note": "Messages of 1 to block_size-1 bytes are not accepted (C17)."
  },
  {
   "property": "C88",
   "status": "partial",
   "theorems": [
    "Gost.C88_exact",
    "Gost.C88_dotted_partial",
    "Gost.C88_unique",
    "Gost.C88_statement_false"
   ],
   "note": "The lookup is by the string, not by the components: other spellings that digit accepts (01.2.643.7.1) have no name (C88_statement_false). Exact for every string; for the dotted notation the statement holds."
  },
  {
   "property": "C89",
   "status": "partial",
   "theorems": [
    "Gost.C89_partial",
    "Gost.C89_cipher",
    "Gost.C89_hmac",
    "Gost.C89_random",
    "Gost.C89_pbkdf",
    "Gost.C89_kuznechik",
    "Gost.C89_magma",
    "Gost.C89_statement_false",
    "Gost.C89_negation",
    "Gost.C89_left_behind"
   ],
   "note": "True for everything made by new() of gostcipher, gosthmac and gostrandom, whether new() returns or raises. False for the block cipher classes used directly with a key of less than 32 bytes (IndexError in __del__) and for a PBKDF object whose password was refused (AttributeError in __del__); the theorems give the exact condition in each case. The overwriting of the attributes which exist holds always."
  },
  {
   "property": "C90",
   "status": "proved",
   "theorems": [
    "Gost.Sig.C90_forge",
    "Gost.Sig.C90_all",
    "Gost.Sig.C90_exists",
    "Gost.Sig.C90_example"
   ],
   "note": "From C42: what the verification accepts is described without the private key; C90_forge makes accepted pairs of digest and signature, C90_all shows there are no others, C90_exists that each pair a, b gives one."
  },
  {
   "property": "C91",
   "status": "proved",
   "theorems": [
    "Gost.C91_results",
    "Gost.C91_compare",
    "Gost.C91_reads"
   ],
   "note": "Over a model which records the operations; the time of one operation on Python numbers is not modelled."
  },
  {
   "property": "C92",
   "status": "proved",
   "theorems": [
    "Gost.Sig.C92_results",
    "Gost.Sig.C92_public_key",
    "Gost.Sig.C92_count",
    "Gost.Sig.C92_sign"
   ],
   "note": "Over a model which records the calls of _add; C92_results shows that it returns what the model returns. Nothing is asked of the curve; for sign q is a prime, without which the private key modulo q is not determined."
  },
  {
   "property": "C93",
   "status": "partial",
   "theorems": [
    "Gost.C93_exact",
    "Gost.C93_partial",
    "Gost.C93_statement_false"
   ],
   "note": "The numbers are compared separately, so that 4.0 to 4.5 are refused; true up to major version 3."
  },
  {
   "property": "C94",
   "status": "proved",
   "theorems": [
    "Gost.C94_results",
    "Gost.C94_messages",
    "Gost.C94_count",
    "Gost.C94_none"
   ],
   "note": "The first value is computed twice, so that each block takes one computation more than the standard needs."
  },
  {
   "property": "C95",
   "status": "proved",
   "theorems": [
    "Gost.Src.C95_utils"
   ],
   "note": "Over the abstract syntax of utils.py, written by tools/gen_source.py, and the semantics of Verif/Source/Semantics.lean."
  },
  {
   "property": "C96",
   "status": "proved",
   "theorems": [
    "Gost.Src.C96_new",
    "Gost.Src.C96_methods",
    "Gost.Src.C96_standard"
   ],
   "note": "Over the abstract syntax of gost_34_12_2015.py, written by tools/gen_source.py, and the semantics of Verif/Source/Semantics.lean."
  },
  {
   "property": "C97",
   "status": "proved",
   "theorems": [
    "Gost.Src.C97_new",
    "Gost.Src.C97_methods",
    "Gost.Src.C97_standard",
    "Gost.Src.C97_updates"
   ],
   "note": "Over the abstract syntax of gost_34_11_2012.py, written by tools/gen_source.py, and the semantics of Verif/Source/Semantics.lean. That updates in pieces may differ from one update is the subject of C25; here the text is shown to behave in exactly that way."
  },
  {
   "property": "C98",
   "status": "proved",
   "theorems": [
    "Gost.Src.C98_new",
    "Gost.Src.C98_methods",
    "Gost.Src.C98_standard",
    "Gost.Src.C98_updates"
   ],
   "note": "Over the abstract syntax of r_50_1_113_2016.py and the semantics of Verif/Source/Semantics.lean. That empty data in the constructor does not give the HMAC of the empty message is the subject of C28."
  },
  {
   "property": "C99",
   "status": "proved",
   "theorems": [
    "Gost.Src.C99_new",
    "Gost.Src.C99_defaults",
    "Gost.Src.C99_methods",
    "Gost.Src.C99_standard"
   ],
   "note": "Over the abstract syntax of r_50_1_111_2016.py and the semantics of Verif/Source/Semantics.lean; the random bytes are a list in memory cell 0, from which os.urandom takes the next ones."
  }
 ]
}
