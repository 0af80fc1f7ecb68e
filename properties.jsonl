{"id": "C01", "title": "Kuznechik decryption inverts encryption", "statement": "For a Kuznechik object built from a 32-byte key, decrypting an encrypted 16-byte block returns the block, and encrypting a decrypted block returns the block; both calls always return exactly 16 bytes and never raise.", "quantifier": "every 32-byte key, every 16-byte block", "why_tests_cant": "2^256 keys x 2^128 blocks; the inverse relies on 16 lookup tables and 10 rounds agreeing on every entry, a wrong entry can stay unseen by sampled vectors", "anchors": ["gostcrypto/gostcipher/gost_34_12_2015.py:GOST34122015Kuznechik.encrypt", "gostcrypto/gostcipher/gost_34_12_2015.py:GOST34122015Kuznechik.decrypt", "gostcrypto/gostcipher/gost_34_12_2015.py:_GF", "gostcrypto/gostcipher/gost_34_12_2015.py:_S_BOX_KUZNECHIK", "gostcrypto/gostcipher/gost_34_12_2015.py:_S_BOX_REVERSE_KUZNECHIK"]}
{"id": "C02", "title": "Magma decryption inverts encryption", "statement": "For a Magma object built from a 32-byte key, decrypting an encrypted 8-byte block returns the block and vice versa; both calls return exactly 8 bytes and never raise.", "quantifier": "every 32-byte key, every 8-byte block", "why_tests_cant": "the domain of keys and blocks cannot be enumerated", "anchors": ["gostcrypto/gostcipher/gost_34_12_2015.py:GOST34122015Magma.encrypt", "gostcrypto/gostcipher/gost_34_12_2015.py:GOST34122015Magma.decrypt"]}
{"id": "C03", "title": "Kuznechik is the cipher of GOST R 34.12-2015", "statement": "The Kuznechik object computes the cipher of the standard: key schedule by 32 Feistel steps with constants L(i), nine rounds X-S-L and a final X, where L is sixteen applications of the linear map over GF(2^8) modulo x^8+x^7+x^6+x+1 with the published coefficients. The precomputed multiplication tables agree with field multiplication on all 16*256 entries.", "quantifier": "every 32-byte key, every 16-byte block; every table entry", "why_tests_cant": "published vectors exercise a handful of key/block pairs; a wrong table entry or wrong round key in an unexercised position would pass", "anchors": ["gostcrypto/gostcipher/gost_34_12_2015.py:GOST34122015Kuznechik", "gostcrypto/gostcipher/gost_34_12_2015.py:_GF"]}
{"id": "C04", "title": "Magma is the cipher of GOST R 34.12-2015", "statement": "The Magma object computes the 32-round Feistel cipher of the standard on 32-bit words: addition modulo 2^32, eight 4-bit S-boxes, rotation by 11, subkeys K1..K8 three times forward and once reversed.", "quantifier": "every 32-byte key, every 8-byte block", "why_tests_cant": "carry chains and rotations are data dependent; vectors cover a few", "anchors": ["gostcrypto/gostcipher/gost_34_12_2015.py:GOST34122015Magma"]}
{"id": "C05", "title": "ECB round trip", "statement": "Decrypting with a fresh ECB object what an ECB object with the same key and padding mode encrypted returns the padded plaintext, which begins with the plaintext; its length is a multiple of the block size and exceeds the plaintext by less than one block (mode 1, non-empty) or by one to two blocks (mode 2).", "quantifier": "both algorithms, every key, both padding modes, every message of any length including empty", "why_tests_cant": "unbounded message lengths and contents", "anchors": ["gostcrypto/gostcipher/gost_34_13_2015.py:GOST34132015ecb.encrypt", "gostcrypto/gostcipher/gost_34_13_2015.py:GOST34132015ecb.decrypt", "gostcrypto/gostcipher/gost_34_13_2015.py:GOST34132015CipherPadding"]}
{"id": "C06", "title": "CBC round trip", "statement": "Decrypting with a fresh CBC object (same key, IV, padding mode) what a CBC object encrypted returns the padded plaintext, for IVs of any positive number of blocks.", "quantifier": "both algorithms, every key, every IV of one or more blocks, both padding modes, every message", "why_tests_cant": "unbounded message and IV lengths; the shift register makes block i depend on block i-m", "anchors": ["gostcrypto/gostcipher/gost_34_13_2015.py:GOST34132015cbc.encrypt", "gostcrypto/gostcipher/gost_34_13_2015.py:GOST34132015cbc.decrypt", "gostcrypto/gostcipher/gost_34_13_2015.py:GOST34132015CipherFeedBack"]}
{"id": "C07", "title": "CFB round trip", "statement": "Decrypting with a fresh CFB object (same key and IV) what a CFB object encrypted returns the plaintext exactly, with the same length.", "quantifier": "both algorithms, every key, every IV of one or more blocks, every message of any length", "why_tests_cant": "unbounded message and IV lengths", "anchors": ["gostcrypto/gostcipher/gost_34_13_2015.py:GOST34132015cfb.encrypt", "gostcrypto/gostcipher/gost_34_13_2015.py:GOST34132015cfb.decrypt"]}
{"id": "C08", "title": "OFB round trip", "statement": "Decrypting with a fresh OFB object (same key and IV) what an OFB object encrypted returns the plaintext exactly, with the same length.", "quantifier": "both algorithms, every key, every IV of one or more blocks, every message of any length", "why_tests_cant": "unbounded message and IV lengths", "anchors": ["gostcrypto/gostcipher/gost_34_13_2015.py:GOST34132015ofb.encrypt", "gostcrypto/gostcipher/gost_34_13_2015.py:GOST34132015ofb.decrypt"]}
{"id": "C09", "title": "CTR round trip", "statement": "Decrypting with a fresh CTR object (same key and IV) what a CTR object encrypted returns the plaintext exactly, with the same length.", "quantifier": "both algorithms, every key, every half-block IV, every message of any length", "why_tests_cant": "unbounded message lengths", "anchors": ["gostcrypto/gostcipher/gost_34_13_2015.py:GOST34132015ctr.encrypt", "gostcrypto/gostcipher/gost_34_13_2015.py:GOST34132015ctr.decrypt"]}
{"id": "C10", "title": "Streaming by whole blocks", "statement": "Feeding a message to the same object in several calls gives the concatenation of the results of the calls equal to the result of one call on the concatenation, and leaves the object in the same state, provided every call but the last carries a whole number of blocks. This holds for encryption and decryption in CFB, OFB and CTR, for decryption in CBC, and for encryption in CBC with PAD_MODE_1 if no piece is empty (PAD_MODE_2 appends its mark in every call and cannot be streamed).", "quantifier": "all four chaining modes, every key and IV, every split of every message into any number of block-aligned pieces", "why_tests_cant": "number of pieces and their lengths are unbounded; the claim is about all histories of one object", "anchors": ["gostcrypto/gostcipher/gost_34_13_2015.py:GOST34132015cbc", "gostcrypto/gostcipher/gost_34_13_2015.py:GOST34132015cfb", "gostcrypto/gostcipher/gost_34_13_2015.py:GOST34132015ofb", "gostcrypto/gostcipher/gost_34_13_2015.py:GOST34132015ctr"]}
{"id": "C11", "title": "Padding can be undone", "statement": "With PAD_MODE_2 two different plaintexts never give the same ciphertext under the same key/IV, and the plaintext is recovered from the decryption by removing the trailing zeros and one 0x80 byte. With PAD_MODE_1 two plaintexts giving the same ciphertext differ only in trailing zero bytes.", "quantifier": "both algorithms, every key and IV, ECB and CBC, every pair of messages", "why_tests_cant": "injectivity over all pairs of messages", "anchors": ["gostcrypto/gostcipher/gost_34_13_2015.py:GOST34132015CipherPadding._set_pad_mode_1", "gostcrypto/gostcipher/gost_34_13_2015.py:GOST34132015CipherPadding._set_pad_mode_2"]}
{"id": "C12", "title": "PAD_MODE_2 is procedure 2 of GOST R 34.13-2015", "statement": "PAD_MODE_2 appends one 0x80 byte and then the least number of zero bytes reaching a block boundary.", "quantifier": "every message of any length, both block sizes", "why_tests_cant": "depends on the residue of an unbounded length, and the repository vectors only use block-aligned data", "anchors": ["gostcrypto/gostcipher/gost_34_13_2015.py:GOST34132015CipherPadding._set_pad_mode_2"]}
{"id": "C13", "title": "CTR keystream is the one of the standard", "statement": "The i-th keystream block (counting from 0 over all calls) of a CTR object is the encryption of the IV followed by zeros, incremented i times as a big-endian number modulo 2^(8*block size).", "quantifier": "both algorithms, every key and IV, every block index", "why_tests_cant": "needs messages longer than 256 blocks and all indices; vectors in the repository have four blocks", "anchors": ["gostcrypto/gostcipher/gost_34_13_2015.py:GOST34132015ctr._inc_ctr", "gostcrypto/gostcipher/gost_34_13_2015.py:GOST34132015ctr.encrypt"]}
{"id": "C14", "title": "CTR never reuses a counter block", "statement": "Within one CTR object two different keystream blocks are encryptions of two different counter values as long as fewer than 2^(4*block size) blocks were processed.", "quantifier": "every key and IV, every pair of block indices below the period", "why_tests_cant": "quantifies over pairs of positions in unboundedly long histories", "anchors": ["gostcrypto/gostcipher/gost_34_13_2015.py:GOST34132015ctr._inc_ctr"]}
{"id": "C15", "title": "No keystream reuse between calls", "statement": "In CFB, OFB and CTR, two successive calls on one object never use the same keystream block.", "quantifier": "every key and IV, every pair of messages passed in successive calls, all lengths", "why_tests_cant": "depends on the residue of the first message's length and on the object's history", "anchors": ["gostcrypto/gostcipher/gost_34_13_2015.py:GOST34132015CipherFeedBack._final_cipher", "gostcrypto/gostcipher/gost_34_13_2015.py:GOST34132015cfb.encrypt", "gostcrypto/gostcipher/gost_34_13_2015.py:GOST34132015ofb.encrypt", "gostcrypto/gostcipher/gost_34_13_2015.py:GOST34132015ctr.encrypt"]}
{"id": "C16", "title": "Chaining modes follow the standard's register equations", "statement": "With an IV of m blocks, block i of CBC is E(P_i xor X_i), of CFB is P_i xor E(X_i), of OFB is P_i xor Y_i with Y_i = E(X_i), where X_i is IV block i for i<m and afterwards the ciphertext (OFB: the keystream) block i-m. The last short block is xored with the leading bytes of the keystream. The iv attribute is the last block put into the register.", "quantifier": "both algorithms, every key, every m >= 1, every IV of m blocks, every message", "why_tests_cant": "unbounded m and message length; recurrences reach back m blocks", "anchors": ["gostcrypto/gostcipher/gost_34_13_2015.py:GOST34132015CipherFeedBack._set_init_vect", "gostcrypto/gostcipher/gost_34_13_2015.py:GOST34132015cbc.encrypt", "gostcrypto/gostcipher/gost_34_13_2015.py:GOST34132015cfb.encrypt", "gostcrypto/gostcipher/gost_34_13_2015.py:GOST34132015ofb.encrypt"]}
{"id": "C17", "title": "MAC is the OMAC of GOST R 34.13-2015", "statement": "The digest of a MAC object fed with a message is the standard's MAC: CBC chaining from zero, last block padded with 0x80 0x00.. if short or empty, masked with K1 (complete) or K2 (padded), K1/K2 obtained from E(0) by doubling in GF(2^64) / GF(2^128), truncated to the requested number of leading bytes.", "quantifier": "both algorithms, every key, every message of any length, every size 0..block size", "why_tests_cant": "unbounded message lengths", "anchors": ["gostcrypto/gostcipher/gost_34_13_2015.py:GOST34132015mac.update", "gostcrypto/gostcipher/gost_34_13_2015.py:GOST34132015mac.mac_final", "gostcrypto/gostcipher/gost_34_13_2015.py:GOST34132015mac._get_mac_key"]}
{"id": "C18", "title": "MAC updates concatenate", "statement": "As documented, m.update(a); m.update(b) is equivalent to m.update(a+b): the call sequence never raises for byte data and the digest is the one of the concatenation.", "quantifier": "both algorithms, every key, every sequence of updates of any lengths", "why_tests_cant": "all ways of cutting all messages; histories are unbounded", "anchors": ["gostcrypto/gostcipher/gost_34_13_2015.py:GOST34132015mac.update"]}
{"id": "C19", "title": "MAC digest is an observation", "statement": "digest(n) does not change the object: it can be repeated, followed by further updates, and for n up to the block size it is the first n bytes of the full digest; sizes above the block size are rejected and leave the object unchanged.", "quantifier": "every state reachable by any sequence of updates and digests, every integer size", "why_tests_cant": "all histories", "anchors": ["gostcrypto/gostcipher/gost_34_13_2015.py:GOST34132015mac.digest", "gostcrypto/gostcipher/gost_34_13_2015.py:GOST34132015mac.mac_final"]}
{"id": "C20", "title": "gostcipher.new accepts exactly the documented arguments", "statement": "new() for a cipher succeeds exactly when the mode and the algorithm are supported, the key is a byte object of 32 bytes, the padding mode is valid (ECB, CBC), and the IV is a byte object of the documented length (half a block for CTR, a positive multiple of the block size for CBC, CFB, OFB); otherwise it raises GOSTCipherError with the message of the first failing check. Default arguments always succeed.", "quantifier": "every combination of argument values, including values of wrong type", "why_tests_cant": "the argument space is infinite and the order of checks matters", "anchors": ["gostcrypto/gostcipher/gost_34_13_2015.py:new", "gostcrypto/gostcipher/gost_34_13_2015.py:GOST34132015.__init__", "gostcrypto/gostcipher/gost_34_13_2015.py:GOST34132015CipherPadding.__init__", "gostcrypto/gostcipher/gost_34_13_2015.py:GOST34132015CipherFeedBack.__init__", "gostcrypto/gostcipher/gost_34_13_2015.py:GOST34132015ctr.__init__"]}
{"id": "C21", "title": "A rejected call does not change a cipher object", "statement": "If encrypt(), decrypt() or update() raises GOSTCipherError because its argument is not a byte object, the object behaves afterwards as if the call had not been made.", "quantifier": "all modes, every state of the object, every non-byte argument, every later call", "why_tests_cant": "quantifies over histories after the failure; no test continues using the object", "anchors": ["gostcrypto/gostcipher/gost_34_13_2015.py:GOST34132015Cipher.encrypt", "gostcrypto/gostcipher/gost_34_13_2015.py:GOST34132015Cipher.decrypt", "gostcrypto/gostcipher/gost_34_13_2015.py:GOST34132015mac.update", "gostcrypto/gostcipher/gost_34_13_2015.py:GOST34132015.clear"]}
{"id": "C22", "title": "clear() erases the cipher key", "statement": "After clear(), nothing the object does depends on the key it was created with, and the round keys are zero.", "quantifier": "both algorithms, every pair of keys, every later sequence of calls", "why_tests_cant": "two-run property over all later histories", "anchors": ["gostcrypto/gostcipher/gost_34_13_2015.py:GOST34132015.clear", "gostcrypto/gostcipher/gost_34_12_2015.py:GOST34122015Kuznechik.clear", "gostcrypto/gostcipher/gost_34_12_2015.py:GOST34122015Magma.clear", "gostcrypto/utils/utils.py:zero_fill"]}
{"id": "C23", "title": "Streebog digest is GOST R 34.11-2012", "statement": "The digest of an object that received a message in a single update (or at construction, or after reset) is the hash of the standard: padding, the compression function g_N with twelve rounds of LPSX and the published constants, the 512-bit counters N and Sigma, for both digest sizes.", "quantifier": "both variants, every message of any length", "why_tests_cant": "unbounded message lengths; the tables have 8*256 entries of 64 bits", "anchors": ["gostcrypto/gosthash/gost_34_11_2012.py:GOST34112012.update", "gostcrypto/gosthash/gost_34_11_2012.py:GOST34112012.hash_final", "gostcrypto/gosthash/gost_34_11_2012.py:GOST34112012._hash_lps", "gostcrypto/gosthash/gost_34_11_2012.py:_T", "gostcrypto/gosthash/gost_34_11_2012.py:_C"]}
{"id": "C24", "title": "Streebog tables are L o P o S", "statement": "The eight 256-entry tables used by the implementation equal the composition of the S-box, the byte transposition and the linear map of the standard for every input; the round function computed from them is the standard's LPS on every 64-byte block.", "quantifier": "every table entry, every 64-byte block", "why_tests_cant": "2^512 blocks", "anchors": ["gostcrypto/gosthash/gost_34_11_2012.py:_T", "gostcrypto/gosthash/gost_34_11_2012.py:GOST34112012._hash_lps"]}
{"id": "C25", "title": "Hash updates concatenate", "statement": "As documented, m.update(a); m.update(b) is equivalent to m.update(a+b), for any number of updates.", "quantifier": "both variants, every sequence of updates of any lengths", "why_tests_cant": "all ways of cutting all messages", "anchors": ["gostcrypto/gosthash/gost_34_11_2012.py:GOST34112012.update"]}
{"id": "C26", "title": "Hash objects are independent and digest is an observation", "statement": "digest() and hexdigest() do not change the object; copy() gives an object that evolves independently; reset() makes the object equivalent to a new one; a rejected update changes nothing; the digest always has digest_size bytes.", "quantifier": "every interleaving of update, digest, copy, reset on any number of objects", "why_tests_cant": "all histories over several objects", "anchors": ["gostcrypto/gosthash/gost_34_11_2012.py:GOST34112012.digest", "gostcrypto/gosthash/gost_34_11_2012.py:GOST34112012.copy", "gostcrypto/gosthash/gost_34_11_2012.py:GOST34112012.reset"]}
{"id": "C27", "title": "HMAC is the HMAC of R 50.1.113-2016", "statement": "For a key of up to 64 bytes and a message passed in one update, digest() is H(K xor opad || H(K xor ipad || message)) with K the zero-padded key; keys longer than 64 bytes and non-byte keys are rejected.", "quantifier": "both variants, every key of any length, every message", "why_tests_cant": "unbounded messages, all keys", "anchors": ["gostcrypto/gosthmac/r_50_1_113_2016.py:R5011132016.__init__", "gostcrypto/gosthmac/r_50_1_113_2016.py:R5011132016.update", "gostcrypto/gosthmac/r_50_1_113_2016.py:R5011132016.digest"]}
{"id": "C28", "title": "HMAC of the empty message", "statement": "An HMAC object that received no data (or data=b'') gives the HMAC of the empty message.", "quantifier": "both variants, every key of up to 64 bytes", "why_tests_cant": "all keys", "anchors": ["gostcrypto/gosthmac/r_50_1_113_2016.py:R5011132016.digest", "gostcrypto/gosthmac/r_50_1_113_2016.py:R5011132016.update"]}
{"id": "C29", "title": "HMAC updates concatenate", "statement": "As documented, m.update(a); m.update(b) is equivalent to m.update(a+b), for any number of updates.", "quantifier": "both variants, every key, every sequence of updates", "why_tests_cant": "all ways of cutting all messages", "anchors": ["gostcrypto/gosthmac/r_50_1_113_2016.py:R5011132016.update"]}
{"id": "C30", "title": "HMAC reset and clear", "statement": "reset() makes the object equivalent to a new one with the same key; after clear() every later result is independent of the key and of the data received before.", "quantifier": "every history before and after the call, every pair of keys", "why_tests_cant": "two-run property over histories", "anchors": ["gostcrypto/gosthmac/r_50_1_113_2016.py:R5011132016.reset", "gostcrypto/gosthmac/r_50_1_113_2016.py:R5011132016.clear"]}
{"id": "C31", "title": "HMAC key is captured at construction", "statement": "Changing the caller's key buffer after the HMAC object was created does not change its results.", "quantifier": "every key, every later contents of the caller's buffer, every history", "why_tests_cant": "aliasing shows only for one key length and one argument type", "anchors": ["gostcrypto/gosthmac/r_50_1_113_2016.py:R5011132016.__init__"]}
{"id": "C32", "title": "PBKDF is PBKDF2 of R 50.1.111-2016", "statement": "derive(n) returns exactly n bytes equal to the leading bytes of T_1||T_2||..., T_i = U_1 xor ... xor U_c, U_1 = HMAC512(password, salt||INT(i)), U_j = HMAC512(password, U_{j-1}). It can be repeated with any lengths, and a shorter key is a prefix of a longer one.", "quantifier": "every password of up to 64 bytes, every non-empty salt, every iteration count >= 1, every length 0..(2^32-1)*64, every sequence of derive calls", "why_tests_cant": "unbounded iteration counts, lengths and histories", "anchors": ["gostcrypto/gostpbkdf/r_50_1_111_2016.py:R5011112016.derive", "gostcrypto/gostpbkdf/r_50_1_111_2016.py:R5011112016._calculate_pbkdf", "gostcrypto/gostpbkdf/r_50_1_111_2016.py:R5011112016._f"]}
{"id": "C33", "title": "PBKDF argument checks", "statement": "new() rejects exactly passwords that are not byte objects or longer than 64 bytes and salts that are not byte objects; an omitted or empty salt is replaced by 32 random bytes; derive() rejects exactly lengths above (2^32-1)*64.", "quantifier": "every argument value", "why_tests_cant": "infinite argument space", "anchors": ["gostcrypto/gostpbkdf/r_50_1_111_2016.py:R5011112016.__init__", "gostcrypto/gostpbkdf/r_50_1_111_2016.py:R5011112016.derive"]}
{"id": "C34", "title": "PBKDF clear() erases the password", "statement": "After clear(), derive() no longer depends on the password.", "quantifier": "every pair of passwords, salt, iteration count and length", "why_tests_cant": "two-run property", "anchors": ["gostcrypto/gostpbkdf/r_50_1_111_2016.py:R5011112016.clear", "gostcrypto/gostpbkdf/r_50_1_111_2016.py:R5011112016.derive"]}
{"id": "C35", "title": "Generator output is that of R 1323565.1.006-2017", "statement": "random() returns exactly rand_size bytes: the hashes of U+1, U+2, ... in order (the last one truncated to its trailing bytes), where U is the seed followed by zeros; later calls continue the sequence.", "quantifier": "every non-zero seed of up to 63 bytes (the standard has 32, 40 and 48), every rand_size >= 0, any number of calls until the counter part is used up", "why_tests_cant": "unbounded sizes and call histories", "anchors": ["gostcrypto/gostrandom/r_1323565_1_006_2017.py:R132356510062017.random", "gostcrypto/gostrandom/r_1323565_1_006_2017.py:R132356510062017._rand_iter", "gostcrypto/gostrandom/r_1323565_1_006_2017.py:R132356510062017._inc_rand_u"]}
{"id": "C36", "title": "Generator never hashes the same value twice", "statement": "Within one seeding, the values hashed for different output blocks are pairwise different for the first 2^504 - 1 blocks.", "quantifier": "every seed, every pair of positions in any history of random() calls", "why_tests_cant": "pairs of positions in unbounded histories", "anchors": ["gostcrypto/gostrandom/r_1323565_1_006_2017.py:R132356510062017._inc_rand_u"]}
{"id": "C37", "title": "Generator stops at the counter limit", "statement": "random() raises 'exceeded the limit value of the counter' before the counter part overflows into the seed part.", "quantifier": "every seed, every history", "why_tests_cant": "needs 2^120 steps or more to observe", "anchors": ["gostcrypto/gostrandom/r_1323565_1_006_2017.py:R132356510062017._rand_iter"]}
{"id": "C38", "title": "Generator clear, reset and zero seed", "statement": "random() never returns output for an all-zero seed; after clear() no output is produced until reset(); reset(seed) makes the object equivalent to a new one with that seed; a rejected reset changes nothing.", "quantifier": "every state, every seed, every rand_size > 0", "why_tests_cant": "all histories", "anchors": ["gostcrypto/gostrandom/r_1323565_1_006_2017.py:R132356510062017.random", "gostcrypto/gostrandom/r_1323565_1_006_2017.py:R132356510062017.reset", "gostcrypto/gostrandom/r_1323565_1_006_2017.py:R132356510062017.clear"]}
{"id": "C39", "title": "OID octets are DER", "statement": "octet is the DER encoding of the identifier: tag 6, definite length in the shortest form, first octet 40*X+Y, each further component base 128 with the continuation bit on all but the last octet; hence different identifiers have different encodings.", "quantifier": "every identifier with any number of components of any size", "why_tests_cant": "unbounded components and lengths", "anchors": ["gostcrypto/gostoid/oid.py:_int_to_octet", "gostcrypto/gostoid/oid.py:_len_oid_octet", "gostcrypto/gostoid/oid.py:_encode_octet", "gostcrypto/gostoid/oid.py:ObjectIdentifier.octet"]}
{"id": "C40", "title": "OID strings parse back", "statement": "digit returns the components of the dotted decimal string for every sequence of non-negative integers, and raises GOSTOIDError('invalid OID value') for a string with a component that is not an integer literal; octet raises GOSTOIDError for a bad first or second component.", "quantifier": "every sequence of naturals; every ASCII string", "why_tests_cant": "infinite input space", "anchors": ["gostcrypto/gostoid/oid.py:ObjectIdentifier.digit", "gostcrypto/gostoid/oid.py:_encode_octet"]}
{"id": "C41", "title": "A signature made with a key verifies with its public key", "statement": "On an accepted curve whose base point has prime order q, verify(public_key_generate(d), e, sign(d, e, k)) is True whenever sign returns.", "quantifier": "every curve with p prime > 3, p <= 256^size, reduced base coordinates and a base point of prime order q, every private key d, digest e and random value k", "why_tests_cant": "the space of keys, digests and nonces; requires the group law on the curve", "anchors": ["gostcrypto/gostsignature/gost_34_10_2012.py:GOST34102012.sign", "gostcrypto/gostsignature/gost_34_10_2012.py:GOST34102012.verify", "gostcrypto/gostsignature/gost_34_10_2012.py:GOST34102012.public_key_generate"]}
{"id": "C42", "title": "Verification is the check of GOST R 34.10-2012", "statement": "For a public key that is a multiple of the base point, verify returns True exactly when 0<r<q, 0<s<q and the x coordinate of z1*P+z2*Q is r modulo q (with the point at infinity rejected).", "quantifier": "every curve with p prime > 3, p <= 256^size, reduced base coordinates and a base point of prime order q, every public key point, digest and 2*size-byte signature", "why_tests_cant": "soundness quantifies over all forged signatures", "anchors": ["gostcrypto/gostsignature/gost_34_10_2012.py:GOST34102012.verify", "gostcrypto/gostsignature/gost_34_10_2012.py:GOST34102012._verify_step_1", "gostcrypto/gostsignature/gost_34_10_2012.py:GOST34102012._mul_point", "gostcrypto/gostsignature/gost_34_10_2012.py:GOST34102012._add"]}
{"id": "C43", "title": "Scalar multiplication is the group's", "statement": "public_key_generate(d) is d times the base point in the elliptic curve group, for all 0<d<q; it only depends on d modulo q and never meets an undefined addition.", "quantifier": "every curve with p prime > 3, p <= 256^size, reduced base coordinates and base point of odd prime order q, every d", "why_tests_cant": "all scalars on all curves", "anchors": ["gostcrypto/gostsignature/gost_34_10_2012.py:GOST34102012.public_key_generate", "gostcrypto/gostsignature/gost_34_10_2012.py:GOST34102012._mul_point", "gostcrypto/gostsignature/gost_34_10_2012.py:GOST34102012._add", "gostcrypto/gostsignature/gost_34_10_2012.py:GOST34102012._invert"]}
{"id": "C44", "title": "sign and public_key_generate terminate", "statement": "sign() and public_key_generate() return or raise for every argument.", "quantifier": "every accepted curve, private key, digest and explicit random value", "why_tests_cant": "termination is not observable by a finite test", "anchors": ["gostcrypto/gostsignature/gost_34_10_2012.py:GOST34102012.sign", "gostcrypto/gostsignature/gost_34_10_2012.py:GOST34102012._bits", "gostcrypto/gostsignature/gost_34_10_2012.py:GOST34102012._mul_point"]}
{"id": "C45", "title": "Curve acceptance", "statement": "signature.new accepts a curve exactly when m != p, the base point satisfies y^2 = x^3+ax+b mod p, q is in the prescribed range for the mode, and p^t != 1 mod q for t = 1..31 (131); all built-in curves are accepted in their mode.", "quantifier": "every curve parameter dictionary", "why_tests_cant": "infinite parameter space; the rejecting branch of the p^t check is never exercised", "anchors": ["gostcrypto/gostsignature/gost_34_10_2012.py:GOST34102012._check_curve", "gostcrypto/gostsignature/gost_34_10_2012.py:GOST34102012._check_p", "gostcrypto/gostsignature/gost_34_10_2012.py:GOST34102012._check_q", "gostcrypto/gostsignature/gost_34_10_2012.py:GOST34102012._check_x_y"]}
{"id": "C46", "title": "Edwards parameters are converted to the equivalent canonical curve", "statement": "For parameters given as (e,d,u,v) with e*u^2+v^2 = 1+d*u^2*v^2 modulo a prime p > 3, v != 1 and u != 0, the converted base point lies on the converted curve, so that check never rejects, and the conversion is the birational map of R 1323565.1.024-2019.", "quantifier": "every prime p and every point of every twisted Edwards curve", "why_tests_cant": "field identity over all p", "anchors": ["gostcrypto/gostsignature/gost_34_10_2012.py:GOST34102012._edvards_to_canonical"]}
{"id": "C47", "title": "Signature input checks", "statement": "sign, verify and public_key_generate reject exactly arguments of wrong type or length (and a random value >= q) with the documented error, verify returns False for r or s outside 1..q-1, and sign returns exactly 2*size bytes with 0<r<q and 0<s<q.", "quantifier": "every argument value", "why_tests_cant": "infinite argument space", "anchors": ["gostcrypto/gostsignature/gost_34_10_2012.py:GOST34102012.sign", "gostcrypto/gostsignature/gost_34_10_2012.py:GOST34102012.verify"]}
{"id": "C48", "title": "Byte helpers", "statement": "Integer/byte conversions are mutually inverse for values that fit and reduce modulo 256^n otherwise; compare(a,b) is equality of byte strings; compare_to_zero(a) is 'all bytes zero'; xor is an involution; zero_fill returns zeros of the same length.", "quantifier": "every byte string, every integer, every length", "why_tests_cant": "unbounded sizes", "anchors": ["gostcrypto/utils/utils.py:bytearray_to_int", "gostcrypto/utils/utils.py:int_to_bytearray", "gostcrypto/utils/utils.py:compare", "gostcrypto/utils/utils.py:compare_to_zero", "gostcrypto/utils/utils.py:add_xor", "gostcrypto/utils/utils.py:zero_fill"]}
{"id": "C49", "title": "Aliased attributes do not let callers change an object", "statement": "Byte objects returned by the attributes iv, counter and salt, and byte objects passed as arguments, are not shared with the object: later changes to them do not change results, and later calls do not change them.", "quantifier": "every history, every mutation by the caller", "why_tests_cant": "aliasing is invisible unless a test mutates the returned buffer", "anchors": ["gostcrypto/gostcipher/gost_34_13_2015.py:GOST34132015ctr.counter", "gostcrypto/gostcipher/gost_34_13_2015.py:GOST34132015CipherFeedBack.iv", "gostcrypto/gostpbkdf/r_50_1_111_2016.py:R5011112016.salt"]}
{"id": "C50", "title": "Decryption detects or preserves truncated input", "statement": "ECB and CBC decryption of data whose length is not a multiple of the block size raises an error instead of silently dropping the trailing bytes.", "quantifier": "both algorithms, every key, every input length", "why_tests_cant": "all lengths", "anchors": ["gostcrypto/gostcipher/gost_34_13_2015.py:GOST34132015ecb.decrypt", "gostcrypto/gostcipher/gost_34_13_2015.py:GOST34132015cbc.decrypt"]}
{"id": "C51", "title": "OFB and CTR are a keystream xored onto the data", "statement": "In every state an OFB or CTR object can reach, there is a keystream g and a next state for each length, both independent of the data, such that encrypt and decrypt of any data d return d xor g and move to the next state for len(d). Hence xoring a mask onto the input xors the same mask onto the output and changes neither the rest of the output nor any later call.", "quantifier": "both algorithms, every key and non-empty initialisation vector accepted by new() (for empty ones see C78), every reachable state (any calls before), every data and mask", "why_tests_cant": "relates two runs on all data from all reachable states", "anchors": ["gostcrypto/gostcipher/gost_34_13_2015.py:GOST34132015ofb.encrypt", "gostcrypto/gostcipher/gost_34_13_2015.py:GOST34132015ctr.encrypt", "gostcrypto/gostcipher/gost_34_13_2015.py:GOST34132015ofb.decrypt", "gostcrypto/gostcipher/gost_34_13_2015.py:GOST34132015ctr.decrypt"]}
{"id": "C52", "title": "CBC and CFB decryption recover from errors", "statement": "Decrypting two ciphertexts of equal length, under initialisation vectors of equal length, the outputs agree on every block whose own ciphertext block and the block m places before it (m = number of blocks of the initialisation vector) agree; in CBC a difference in the earlier block alone is xored onto the output block. A wrong initialisation vector damages at most the first len(iv) bytes.", "quantifier": "both algorithms, every key, every pair of non-empty initialisation vectors and of ciphertexts", "why_tests_cant": "two-run property over all lengths and vectors", "anchors": ["gostcrypto/gostcipher/gost_34_13_2015.py:GOST34132015cbc.decrypt", "gostcrypto/gostcipher/gost_34_13_2015.py:GOST34132015cfb.decrypt"]}
{"id": "C53", "title": "Encryption inverts decryption", "statement": "For CFB, OFB and CTR, encrypting decrypt(c) from the same state returns c, for every c. For CBC the same holds for data of whole blocks with PAD_MODE_1, and with PAD_MODE_2 the result is c followed by one more block. So decryption never maps two ciphertexts to the same message.", "quantifier": "both algorithms, every key and non-empty initialisation vector, every ciphertext (a non-empty multiple of the block size for CBC)", "why_tests_cant": "all ciphertexts of all lengths", "anchors": ["gostcrypto/gostcipher/gost_34_13_2015.py:GOST34132015cfb.encrypt", "gostcrypto/gostcipher/gost_34_13_2015.py:GOST34132015ofb.encrypt", "gostcrypto/gostcipher/gost_34_13_2015.py:GOST34132015ctr.encrypt", "gostcrypto/gostcipher/gost_34_13_2015.py:GOST34132015cbc.encrypt"]}
{"id": "C54", "title": "ECB works block by block", "statement": "ECB encryption pads the data and applies the block cipher of the standard to each block on its own; two single blocks have the same ciphertext exactly when they are equal; the object never changes state. ECB decryption returns one block for each whole block of the input, the one which the cipher maps to it.", "quantifier": "both algorithms, every key, both padding modes, every data", "why_tests_cant": "all lengths and data", "anchors": ["gostcrypto/gostcipher/gost_34_13_2015.py:GOST34132015ecb.encrypt", "gostcrypto/gostcipher/gost_34_13_2015.py:GOST34132015ecb.decrypt"]}
{"id": "C55", "title": "HMAC objects are independent and their history is a log", "statement": "For any number of HMAC objects and any interleaving of new, update, digest, hexdigest, copy, reset, clear, digest_size, block_size and name with accepted or rejected arguments, every result equals that of a log in which each object is a name, a key, a message and a flag of its own: queries change nothing, copy makes an independent object, rejected calls change nothing, and operations on one object never affect another.", "quantifier": "every sequence of calls on every number of objects", "why_tests_cant": "unbounded histories and interleavings", "anchors": ["gostcrypto/gosthmac/r_50_1_113_2016.py:R5011132016.update", "gostcrypto/gosthmac/r_50_1_113_2016.py:R5011132016.digest", "gostcrypto/gosthmac/r_50_1_113_2016.py:R5011132016.copy", "gostcrypto/gosthmac/r_50_1_113_2016.py:R5011132016.reset", "gostcrypto/gosthmac/r_50_1_113_2016.py:R5011132016.clear"]}
{"id": "C56", "title": "Hexadecimal results stand for the binary results", "statement": "hexdigest of hash, HMAC and MAC objects and hexderive return lower case hexadecimal text of twice as many characters which decodes to exactly what digest or derive returns; they accept the same arguments, raise the same exceptions and have the same effect on the object.", "quantifier": "every state of every object, every argument", "why_tests_cant": "all states and results", "anchors": ["gostcrypto/gosthash/gost_34_11_2012.py:GOST34112012.hexdigest", "gostcrypto/gosthmac/r_50_1_113_2016.py:R5011132016.hexdigest", "gostcrypto/gostcipher/gost_34_13_2015.py:GOST34132015mac.hexdigest", "gostcrypto/gostpbkdf/r_50_1_111_2016.py:R5011112016.hexderive"]}
{"id": "C57", "title": "Zero bytes at the end of a key or password are ignored", "statement": "An HMAC key (or PBKDF password) and the same key followed by zero bytes, at most 64 bytes in all, give objects which behave identically in every history of calls; for HMAC two keys give the same object only in this case.", "quantifier": "both HMAC names, every key, password, salt, iteration count and history", "why_tests_cant": "two-run property over all keys and histories", "anchors": ["gostcrypto/gosthmac/r_50_1_113_2016.py:R5011132016.__init__", "gostcrypto/gostpbkdf/r_50_1_111_2016.py:R5011112016.__init__"]}
{"id": "C58", "title": "PBKDF objects are independent and their history is a log", "statement": "For any number of key derivation objects and any interleaving of new, derive, hexderive, clear and salt with accepted or rejected arguments, any iteration count (values below 1 act as 1) and any length (values below 0 act as 0), every result equals that of a log in which each object is a password, a salt and an iteration count which never change.", "quantifier": "every sequence of calls on every number of objects", "why_tests_cant": "unbounded histories and interleavings", "anchors": ["gostcrypto/gostpbkdf/r_50_1_111_2016.py:R5011112016.derive", "gostcrypto/gostpbkdf/r_50_1_111_2016.py:R5011112016.hexderive", "gostcrypto/gostpbkdf/r_50_1_111_2016.py:R5011112016.clear", "gostcrypto/gostpbkdf/r_50_1_111_2016.py:R5011112016.salt"]}
{"id": "C59", "title": "Signing with a built-in curve always verifies", "statement": "For every parameter set of the built-in dictionary (256-paramSetA to D, 512-paramSetA to C): every private key 0 < d < q has a public key, and verify with this key accepts every signature that sign returns for any digest and random value; the only exception is the private key q-1 of 256-paramSetD, for which it fails. Nothing is assumed about the curves: primality of p and q and the order of the base point are part of the proof.", "quantifier": "every private key, digest, random value and random source, for all seven built-in parameter sets", "why_tests_cant": "2^256 or 2^512 keys; the single failing key of 256-paramSetD would not be met by sampling", "anchors": ["gostcrypto/gostsignature/gost_34_10_2012.py:GOST34102012.sign", "gostcrypto/gostsignature/gost_34_10_2012.py:GOST34102012.verify", "gostcrypto/gostsignature/gost_34_10_2012.py:GOST34102012.public_key_generate", "gostcrypto/gostsignature/gost_34_10_2012.py:CURVES_R_1323565_1_024_2019"]}
{"id": "C60", "title": "The random value of a signature comes from one source", "statement": "When the caller passes a random value, sign uses exactly this value and the system's random source has no influence on the result; without it, the result is the one for the first draw of size bytes that is below q, and later draws have no influence.", "quantifier": "every object, argument and random source", "why_tests_cant": "all random sources, including those whose first draws are rejected, cannot be enumerated", "anchors": ["gostcrypto/gostsignature/gost_34_10_2012.py:GOST34102012.sign", "gostcrypto/gostsignature/gost_34_10_2012.py:GOST34102012._get_rand_k"]}
{"id": "C61", "title": "Only the digest modulo q matters", "statement": "For every object with 1 < q <= 256^size, sign and verify return the same for two digests of size bytes that agree modulo q, and a digest that is 0 modulo q acts as one that is 1 modulo q.", "quantifier": "every object, pair of digests, key, random value, signature", "why_tests_cant": "pairs of digests that agree modulo q are rare among samples", "anchors": ["gostcrypto/gostsignature/gost_34_10_2012.py:GOST34102012._set_e", "gostcrypto/gostsignature/gost_34_10_2012.py:GOST34102012.sign", "gostcrypto/gostsignature/gost_34_10_2012.py:GOST34102012.verify"]}
{"id": "C62", "title": "Reusing the random value reveals the private key", "statement": "On a curve with base point of odd prime order q, two signatures that sign returns for the same private key and the same explicit random value, for digests that differ after reduction modulo q, have the same first half r, and d = (e2*s1 - e1*s2) / (r*(e2 - e1)) modulo q.", "quantifier": "every such curve, key, random value and pair of digests", "why_tests_cant": "an algebraic identity over all keys, digests and random values", "anchors": ["gostcrypto/gostsignature/gost_34_10_2012.py:GOST34102012.sign"]}
{"id": "C63", "title": "sign refuses a private key out of range", "statement": "sign raises 'invalid private key value' exactly for private keys that are not size bytes or whose number is not between 1 and q-1.", "quantifier": "every private key", "why_tests_cant": "keys out of range are a vanishing part of the key space of some curves and the check is easy to forget", "anchors": ["gostcrypto/gostsignature/gost_34_10_2012.py:GOST34102012.sign"]}
{"id": "C64", "title": "verify refuses a public key that is not on the curve", "statement": "verify returns True only for public keys that are points of the curve.", "quantifier": "every public key, digest and signature", "why_tests_cant": "tests use public keys from public_key_generate; all pairs of numbers cannot be tried", "anchors": ["gostcrypto/gostsignature/gost_34_10_2012.py:GOST34102012.verify"]}
{"id": "C65", "title": "A cipher object follows a log through any mixture of encrypt and decrypt", "statement": "For an object from new(), any sequence of encrypt and decrypt calls with byte data in any order returns what a log prescribes: in CBC and CFB the log gets every ciphertext block, whether produced or received, in OFB every keystream block used in full, and the block in use is the m-th from the end of the log, which starts with the m blocks of the initialisation vector; in CTR only the number of counter blocks used so far is remembered; ECB remembers nothing. A short last block of CFB and OFB is masked but not logged. The attribute iv is always the last entry of the log, the attribute counter the next counter block.", "quantifier": "every key, initialisation vector of m > 0 blocks (half a block for CTR), padding mode, and every sequence of calls of any length", "why_tests_cant": "the order of calls and the data are unbounded; mixing the two directions on one object is not covered by round trip tests", "anchors": ["gostcrypto/gostcipher/gost_34_13_2015.py:GOST34132015cbc.encrypt", "gostcrypto/gostcipher/gost_34_13_2015.py:GOST34132015cbc.decrypt", "gostcrypto/gostcipher/gost_34_13_2015.py:GOST34132015cfb.encrypt", "gostcrypto/gostcipher/gost_34_13_2015.py:GOST34132015cfb.decrypt", "gostcrypto/gostcipher/gost_34_13_2015.py:GOST34132015ofb.encrypt", "gostcrypto/gostcipher/gost_34_13_2015.py:GOST34132015ctr.encrypt", "gostcrypto/gostcipher/gost_34_13_2015.py:GOST34132015ecb.encrypt", "gostcrypto/gostcipher/gost_34_13_2015.py:GOST34132015CipherFeedBack._set_init_vect"]}
{"id": "C66", "title": "gosthash.new and update accept exactly the documented arguments", "statement": "gosthash.new accepts exactly the names 'streebog256' and 'streebog512' with no data or with a byte object, and raises GOSTHashError('GOSTHashError: unsupported hash type') or GOSTHashError('GOSTHashError: invalid data value') otherwise, the name being checked first; an accepted call returns an object with this name that holds exactly the given data. update accepts exactly byte objects, and a rejected update leaves the object as it was.", "quantifier": "every name, every data argument, every state of the object", "why_tests_cant": "the names and values that must be rejected are unbounded", "anchors": ["gostcrypto/gosthash/gost_34_11_2012.py:new", "gostcrypto/gosthash/gost_34_11_2012.py:GOST34112012.__init__", "gostcrypto/gosthash/gost_34_11_2012.py:GOST34112012.update"]}
{"id": "C67", "title": "Objects carry the registered identifier of their algorithm", "statement": "The attribute oid of every object that a constructor of the package returns (ciphers, hash, HMAC, signature) is the identifier of exactly the algorithm the object computes: the string is its dotted form, digit its components, octet its DER encoding and name its name in the register of TC 26. Different algorithms have different digit, octet and name.", "quantifier": "every successful call of a constructor, with any arguments", "why_tests_cant": "tests look at single constructors; the claim links all accepted arguments with the algorithm that is computed", "anchors": ["gostcrypto/gostoid/oid.py:ObjectIdentifier", "gostcrypto/gostoid/oid.py:OBJECT_IDENTIFIER_TC26", "gostcrypto/gostcipher/gost_34_12_2015.py:GOST34122015Kuznechik.__init__", "gostcrypto/gostcipher/gost_34_12_2015.py:GOST34122015Magma.__init__", "gostcrypto/gostcipher/gost_34_13_2015.py:GOST34132015.__init__", "gostcrypto/gosthash/gost_34_11_2012.py:GOST34112012.__init__", "gostcrypto/gosthmac/r_50_1_113_2016.py:R5011132016.__init__", "gostcrypto/gostsignature/gost_34_10_2012.py:GOST34102012.__init__"]}
{"id": "C68", "title": "Built-in curves are listed under registered names", "statement": "Every key of CURVES_R_1323565_1_024_2019 is the name that OBJECT_IDENTIFIER_TC26 gives to some identifier.", "quantifier": "every built-in curve", "why_tests_cant": "two tables in different modules that no test compares", "anchors": ["gostcrypto/gostsignature/gost_34_10_2012.py:CURVES_R_1323565_1_024_2019", "gostcrypto/gostoid/oid.py:OBJECT_IDENTIFIER_TC26"]}
{"id": "C69", "title": "Sizes, names and identifiers never change", "statement": "Whatever sequence of methods is called on a cipher object of any mode or on a hash object, with valid or invalid arguments, whether the calls return or raise, oid, block_size and key_size of a cipher and name, digest_size and block_size of a hash object stay those of the algorithm it was made for.", "quantifier": "every accepted constructor call and every sequence of method calls of any length", "why_tests_cant": "the sequences of calls are unbounded and include rejected calls and clear", "anchors": ["gostcrypto/gostcipher/gost_34_13_2015.py:GOST34132015.block_size", "gostcrypto/gostcipher/gost_34_12_2015.py:GOST34122015Kuznechik.block_size", "gostcrypto/gostcipher/gost_34_12_2015.py:GOST34122015Magma.key_size", "gostcrypto/gosthash/gost_34_11_2012.py:GOST34112012.digest_size", "gostcrypto/gosthash/gost_34_11_2012.py:GOST34112012.name"]}
{"id": "C70", "title": "A generator object follows its last seed through any calls", "statement": "For a generator object, any sequence of random, reset and clear calls in any order, also refused resets, returns what the last accepted seed (given or drawn from the system) and the number of hash blocks drawn since prescribe: random returns the last bytes of H(U+k+1), H(U+k+2), ... and advances the count; a refused reset changes nothing; after clear no call of random returns bytes until the next reset.", "quantifier": "every seed size up to 198 bytes and every output size, every seed, every value of the system generator, every sequence of calls of any length", "why_tests_cant": "sequences of calls and seeds are unbounded; the state after clear and after refused calls is not tested", "anchors": ["gostcrypto/gostrandom/r_1323565_1_006_2017.py:R132356510062017.random", "gostcrypto/gostrandom/r_1323565_1_006_2017.py:R132356510062017.reset", "gostcrypto/gostrandom/r_1323565_1_006_2017.py:R132356510062017.clear", "gostcrypto/gostrandom/r_1323565_1_006_2017.py:R132356510062017._rand_iter", "gostcrypto/gostrandom/r_1323565_1_006_2017.py:R132356510062017._inc_rand_u"]}
{"id": "C71", "title": "A cipher object follows its log through calls of every kind", "statement": "For an object from new(), any sequence of encrypt, decrypt and clear calls with arguments of any type returns what a log prescribes. Accepted data are treated as in C65. A refused call raises the documented error and has the effect of clear; neither touches the log or the counter. From the first clear or refused call on, the block cipher in use is one fixed permutation which does not depend on the key: for magma the cipher with the key '/x00' repeated, for kuznechik the rounds with the round key '/x00' repeated.", "quantifier": "every key, non-empty initialisation vector, padding mode, and every sequence of calls of any length, including refused ones and clear", "why_tests_cant": "what an object computes after a refused call or clear is not tested anywhere; the sequences are unbounded", "anchors": ["gostcrypto/gostcipher/gost_34_13_2015.py:GOST34132015.clear", "gostcrypto/gostcipher/gost_34_13_2015.py:GOST34132015cbc.encrypt", "gostcrypto/gostcipher/gost_34_13_2015.py:GOST34132015cfb.decrypt", "gostcrypto/gostcipher/gost_34_13_2015.py:GOST34132015ofb.encrypt", "gostcrypto/gostcipher/gost_34_13_2015.py:GOST34132015ctr.encrypt", "gostcrypto/gostcipher/gost_34_13_2015.py:GOST34132015ecb.encrypt", "gostcrypto/gostcipher/gost_34_12_2015.py:GOST34122015Kuznechik.clear", "gostcrypto/gostcipher/gost_34_12_2015.py:GOST34122015Magma.clear", "gostcrypto/utils/utils.py:zero_fill"]}
{"id": "C72", "title": "A MAC object follows its log through calls of every kind", "statement": "For a MAC object from new(), any sequence of update, digest, hexdigest, mac_final and clear calls with arguments of any type returns what a log of the whole blocks accepted and the incomplete end prescribe. digest and hexdigest change nothing, whether they return or raise. An update which would leave less than one block raises IndexError and changes nothing. After clear or a refused update further blocks go through the key-independent permutation of C71, while the masks of the last block stay those of the key. Without mac_final, clear and refused calls the code is that of the standard; after the public mac_final an incomplete last block gets the mask of complete blocks until the next accepted data.", "quantifier": "every key, every first message that new accepts and every sequence of calls of any length", "why_tests_cant": "the interleaving of the calls and the states after refused calls are unbounded", "anchors": ["gostcrypto/gostcipher/gost_34_13_2015.py:GOST34132015mac.update", "gostcrypto/gostcipher/gost_34_13_2015.py:GOST34132015mac.mac_final", "gostcrypto/gostcipher/gost_34_13_2015.py:GOST34132015mac.digest", "gostcrypto/gostcipher/gost_34_13_2015.py:GOST34132015mac.hexdigest", "gostcrypto/gostcipher/gost_34_13_2015.py:GOST34132015.clear"]}
{"id": "C73", "title": "Block cipher classes used directly", "statement": "GOST34122015Kuznechik(key) and GOST34122015Magma(key) raise IndexError exactly for keys of less than 32 bytes. For other keys encrypt(block) and decrypt(block) raise IndexError exactly for blocks of less than block_size bytes, and otherwise compute the cipher of GOST R 34.12-2015 and its inverse for the first 32 bytes of the key and the first block_size bytes of the block; further bytes have no influence.", "quantifier": "every key and block of any length", "why_tests_cant": "the lengths are unbounded; the round key made from the bytes after the 16th is longer than a block for a long key", "anchors": ["gostcrypto/gostcipher/gost_34_12_2015.py:GOST34122015Kuznechik.__init__", "gostcrypto/gostcipher/gost_34_12_2015.py:GOST34122015Kuznechik.encrypt", "gostcrypto/gostcipher/gost_34_12_2015.py:GOST34122015Kuznechik.decrypt", "gostcrypto/gostcipher/gost_34_12_2015.py:GOST34122015Magma.__init__", "gostcrypto/gostcipher/gost_34_12_2015.py:GOST34122015Magma.encrypt", "gostcrypto/gostcipher/gost_34_12_2015.py:GOST34122015Magma.decrypt", "gostcrypto/gostcipher/gost_34_12_2015.py:GOST34122015Magma._expand_iter_key"]}
{"id": "C74", "title": "Different private keys have different public keys", "statement": "For private keys 0 < d < q public_key_generate is injective; its result is a pair of numbers below p, the second not zero, which satisfy the equation of the curve modulo p; the key q - d has the same x and p - y.", "quantifier": "every curve with a base point of odd prime order, every pair of private keys; all built-in curves", "why_tests_cant": "collisions of a function on 2^256 keys cannot be searched", "anchors": ["gostcrypto/gostsignature/gost_34_10_2012.py:GOST34102012.public_key_generate", "gostcrypto/gostsignature/gost_34_10_2012.py:GOST34102012._mul_point", "gostcrypto/gostsignature/gost_34_10_2012.py:GOST34102012._add"]}
{"id": "C75", "title": "A signature fits few digests, few second halves and few keys", "statement": "For a fixed public key and signature verify returns True for at most 2*(floor(p/q)+1) digests modulo q (at most ten on the built-in curves), and it gives the same answer for digests e and q - e; for a fixed key, digest and first half at most 2*(floor(p/q)+1)+1 second halves are accepted; for a fixed digest and signature at most that many private keys (with public x coordinate not 0) fit.", "quantifier": "every curve with a base point of odd prime order, every public key that is a point of order q, every digest and signature", "why_tests_cant": "counting over all digests, second halves or keys is not possible by running the code", "anchors": ["gostcrypto/gostsignature/gost_34_10_2012.py:GOST34102012.verify", "gostcrypto/gostsignature/gost_34_10_2012.py:GOST34102012._verify_step_1", "gostcrypto/gostsignature/gost_34_10_2012.py:GOST34102012._set_e"]}
{"id": "C76", "title": "Changing one block changes the MAC", "statement": "Two messages of the same length, at least one block, which differ only within one block (or only within the incomplete last block) have different MACs of the full length under the same key.", "quantifier": "every key, every pair of such messages of any length, both ciphers", "why_tests_cant": "an unbounded set of messages and all keys; a test compares a few digests", "anchors": ["gostcrypto/gostcipher/gost_34_13_2015.py:GOST34132015mac.update", "gostcrypto/gostcipher/gost_34_13_2015.py:GOST34132015mac.mac_final", "gostcrypto/gostcipher/gost_34_13_2015.py:GOST34132015mac.digest"]}
{"id": "C77", "title": "Lengths of the results of encrypt and decrypt", "statement": "For every object reached by any calls, with a non-empty register: ECB and CBC encrypt return the least positive multiple of the block size which is not below the length of the data with PAD_MODE_1, and always one block more than that with PAD_MODE_2; decrypt returns the length of the data rounded down to whole blocks; CFB, OFB and CTR return as many bytes as they are given. None of these calls raises.", "quantifier": "every key, initialisation vector, padding mode, every history of calls, data of every length", "why_tests_cant": "all lengths and all histories", "anchors": ["gostcrypto/gostcipher/gost_34_13_2015.py:GOST34132015ecb.encrypt", "gostcrypto/gostcipher/gost_34_13_2015.py:GOST34132015ecb.decrypt", "gostcrypto/gostcipher/gost_34_13_2015.py:GOST34132015cbc.encrypt", "gostcrypto/gostcipher/gost_34_13_2015.py:GOST34132015cbc.decrypt", "gostcrypto/gostcipher/gost_34_13_2015.py:GOST34132015cfb.encrypt", "gostcrypto/gostcipher/gost_34_13_2015.py:GOST34132015ofb.encrypt", "gostcrypto/gostcipher/gost_34_13_2015.py:GOST34132015ctr.encrypt"]}
{"id": "C78", "title": "Objects with an empty initialisation vector", "statement": "An object made with an empty initialisation vector: CBC encrypt always, CFB and OFB for non-empty data, raise IndexError and leave the object as it was; CBC decrypt uses the first block of its data as the initialisation vector and returns one block less than it is given.", "quantifier": "every key, padding mode and data of every length", "why_tests_cant": "no test makes such an object", "anchors": ["gostcrypto/gostcipher/gost_34_13_2015.py:GOST34132015cbc.encrypt", "gostcrypto/gostcipher/gost_34_13_2015.py:GOST34132015cbc.decrypt", "gostcrypto/gostcipher/gost_34_13_2015.py:GOST34132015cfb.encrypt", "gostcrypto/gostcipher/gost_34_13_2015.py:GOST34132015cfb.decrypt", "gostcrypto/gostcipher/gost_34_13_2015.py:GOST34132015ofb.encrypt", "gostcrypto/gostcipher/gost_34_13_2015.py:GOST34132015ofb.decrypt", "gostcrypto/gostcipher/gost_34_13_2015.py:new"]}
{"id": "C79", "title": "Depth of the recursion of _invert", "statement": "For every value and every positive modulus up to 2^512, _invert nests at most 739 calls of gcdex (370 for moduli up to 2^256), so it does not meet Python's default limit of 1000 nested calls; both numbers are the least possible. No limit is enough for every modulus: for a modulus of 694 bits there is a value which needs more than 1000 calls.", "quantifier": "every integer value and every modulus", "why_tests_cant": "the worst case are neighbouring Fibonacci numbers, which tests with random numbers do not meet", "anchors": ["gostcrypto/gostsignature/gost_34_10_2012.py:GOST34102012._invert"]}
{"id": "C80", "title": "The parts of the package fit together", "statement": "For every built-in curve in the mode of its size and every private key 0 < d < q (except q - 1 for 256-paramSetD), the streebog digest of the same size of any document is accepted by sign, and what sign returns is accepted by verify with the public key and the digest which another object computes from the same document in pieces (not completing a started block exactly). Two PBKDF objects with the same password, salt and iterations derive the same 32 bytes, which gostcipher.new accepts as a key, and decrypt inverts encrypt under it in CBC, CFB, OFB and CTR.", "quantifier": "every document, private key, random source, password of up to 64 bytes, salt, iteration count, initialisation vector and message", "why_tests_cant": "the combinations are unbounded and the package has no test which joins its parts", "anchors": ["gostcrypto/gosthash/gost_34_11_2012.py:GOST34112012.digest", "gostcrypto/gostsignature/gost_34_10_2012.py:GOST34102012.sign", "gostcrypto/gostsignature/gost_34_10_2012.py:GOST34102012.verify", "gostcrypto/gostsignature/gost_34_10_2012.py:GOST34102012.public_key_generate", "gostcrypto/gostpbkdf/r_50_1_111_2016.py:R5011112016.derive", "gostcrypto/gostcipher/gost_34_13_2015.py:new"]}
{"id": "C81", "title": "Calls do not make an object grow", "statement": "For every object there is a number of bytes which is enough for its key material, whatever methods are called on it, returning or raising.", "quantifier": "every object of every cipher mode, HMAC, PBKDF and generator, every sequence of calls", "why_tests_cant": "all sequences of calls; no test calls clear or a refused method more than once", "anchors": ["gostcrypto/utils/utils.py:zero_fill", "gostcrypto/gostcipher/gost_34_13_2015.py:GOST34132015.clear", "gostcrypto/gostcipher/gost_34_13_2015.py:GOST34132015ctr.encrypt", "gostcrypto/gosthmac/r_50_1_113_2016.py:R5011132016.clear", "gostcrypto/gostrandom/r_1323565_1_006_2017.py:R132356510062017.clear"]}
{"id": "C82", "title": "A collision of the hash is a collision of its compression function", "statement": "When two hash objects given different messages (each in one call, shorter than 2^512 bits) return equal streebog512 digests, the compression function _hash_g returns the same value for two different arguments with the same counter, one met while hashing each message; for streebog256 the same, or the two last applications differ and agree in the upper half. When two HMAC objects with the same key agree on different non-empty messages, the hash has a collision at the inner or at the outer input. For messages given in pieces this does not hold: a piece which completes a started block gives the digest of another, longer message.", "quantifier": "every pair of different messages", "why_tests_cant": "it is a statement about collisions, which no test can exhibit; it fails if padding, length or chaining were wrong in rare cases only", "anchors": ["gostcrypto/gosthash/gost_34_11_2012.py:GOST34112012.update", "gostcrypto/gosthash/gost_34_11_2012.py:GOST34112012.hash_final", "gostcrypto/gosthash/gost_34_11_2012.py:GOST34112012._hash_g", "gostcrypto/gosthmac/r_50_1_113_2016.py:R5011132016.digest"]}
{"id": "C83", "title": "The round functions of the hash lose nothing", "statement": "_hash_lps, _hash_get_key in every round and _hash_e under every key are permutations of the 64-byte blocks; for given chaining value and counter the block is determined by the result of _hash_g combined with it.", "quantifier": "all blocks of 64 bytes and all keys", "why_tests_cant": "2^512 blocks; a test compares a few digests", "anchors": ["gostcrypto/gosthash/gost_34_11_2012.py:GOST34112012._hash_lps", "gostcrypto/gosthash/gost_34_11_2012.py:GOST34112012._hash_get_key", "gostcrypto/gosthash/gost_34_11_2012.py:GOST34112012._hash_e", "gostcrypto/gosthash/gost_34_11_2012.py:GOST34112012._hash_g"]}
{"id": "C84", "title": "Magma keys whose words form a palindrome", "statement": "When the eight words of the key read the same in both directions, encrypt and decrypt of the Magma class are the same function, encrypting twice in ECB returns the plaintext of whole blocks, and there are at least 2^32 blocks which encryption does not change. gostcipher.new accepts these keys.", "quantifier": "all 2^128 such keys, all blocks, all messages of whole blocks", "why_tests_cant": "the keys are a negligible part of all keys, so tests with random or published keys do not meet them", "anchors": ["gostcrypto/gostcipher/gost_34_12_2015.py:GOST34122015Magma.encrypt", "gostcrypto/gostcipher/gost_34_12_2015.py:GOST34122015Magma.decrypt", "gostcrypto/gostcipher/gost_34_12_2015.py:GOST34122015Magma._expand_iter_key", "gostcrypto/gostcipher/gost_34_13_2015.py:GOST34132015ecb.encrypt"]}
{"id": "C85", "title": "PBKDF refuses iteration counts below one", "statement": "gostpbkdf.new refuses every iteration count below one.", "quantifier": "every integer", "why_tests_cant": "no test passes such a count", "anchors": ["gostcrypto/gostpbkdf/r_50_1_111_2016.py:new", "gostcrypto/gostpbkdf/r_50_1_111_2016.py:R5011112016._f"]}
{"id": "C86", "title": "The field arithmetic is that of the standards' polynomials", "statement": "Every entry _GF[i][b] is the remainder of c_i * b, as polynomials over GF(2), modulo x^8+x^7+x^6+x+1, where c_i is the coefficient of the linear form; the MAC keys are the remainders of x*E(0) and x^2*E(0) modulo x^64+x^4+x^3+x+1 (Magma) or x^128+x^7+x^2+x+1 (Kuznyechik).", "quantifier": "all 16*256 table entries; every key, both algorithms", "why_tests_cant": "tests touch the entries their few blocks select; the reduction in the MAC key happens for half of the keys only, and each branch has its own constant", "anchors": ["gostcrypto/gostcipher/gost_34_12_2015.py:GOST34122015Kuznechik._cipher_r", "gostcrypto/gostcipher/gost_34_12_2015.py:GOST34122015Kuznechik._cipher_r_reverse", "gostcrypto/gostcipher/gost_34_13_2015.py:GOST34132015mac._get_mac_key"]}
{"id": "C87", "title": "A message and its padded form have different MACs", "statement": "A message which does not end with a whole block (or is empty) and the same message followed by the padding 0x80 0x00... have the same full-length MAC exactly when the cipher under the key maps the zero block to itself; the two MAC keys are equal, or one of them zero, under exactly the same condition.", "quantifier": "both algorithms, every key, every accepted message", "why_tests_cant": "it is a statement about all keys and messages; a test compares one MAC", "anchors": ["gostcrypto/gostcipher/gost_34_13_2015.py:GOST34132015mac._get_mac_key", "gostcrypto/gostcipher/gost_34_13_2015.py:GOST34132015mac._set_pad_mode_3", "gostcrypto/gostcipher/gost_34_13_2015.py:GOST34132015mac.mac_final"]}
{"id": "C88", "title": "Names of object identifiers", "statement": "ObjectIdentifier.name is the name under which the identifier with these components (digit) is registered in OBJECT_IDENTIFIER_TC26 and '' for every other identifier; identifiers with the same non-empty name are the same.", "quantifier": "every string", "why_tests_cant": "the tests ask for the name of a few registered identifiers; unregistered ones and other spellings are not tried", "anchors": ["gostcrypto/gostoid/oid.py:ObjectIdentifier.name", "gostcrypto/gostoid/oid.py:ObjectIdentifier.digit", "gostcrypto/gostoid/oid.py:OBJECT_IDENTIFIER_TC26"]}
{"id": "C89", "title": "Destruction of objects", "statement": "When an object is destroyed, after any calls or because its constructor raised an exception, __del__ raises nothing, and every round key, key, password or generator state which the object has is overwritten by the fill text.", "quantifier": "every class with a __del__ method, all constructor arguments (valid or not), every sequence of calls", "why_tests_cant": "exceptions in __del__ are printed and ignored by the interpreter, so no test sees them; the state in which a raising constructor leaves an object is not observable", "anchors": ["gostcrypto/gostcipher/gost_34_12_2015.py:GOST34122015Kuznechik.__del__", "gostcrypto/gostcipher/gost_34_12_2015.py:GOST34122015Kuznechik.clear", "gostcrypto/gostcipher/gost_34_12_2015.py:GOST34122015Magma.__del__", "gostcrypto/gostcipher/gost_34_12_2015.py:GOST34122015Magma.clear", "gostcrypto/gostcipher/gost_34_13_2015.py:GOST34132015.__del__", "gostcrypto/gostcipher/gost_34_13_2015.py:GOST34132015.clear", "gostcrypto/gosthmac/r_50_1_113_2016.py:R5011132016.__del__", "gostcrypto/gostpbkdf/r_50_1_111_2016.py:R5011112016.__del__", "gostcrypto/gostrandom/r_1323565_1_006_2017.py:R132356510062017.__del__"]}
{"id": "C90", "title": "Accepted signatures are the combinations of the base point and the key", "statement": "For a public key Q, the digests (modulo q) and signatures which verify accepts, where z1*P + z2*Q is not the point at infinity, are exactly those computed from two numbers a, b in 1..q-1 by r = x(a*P + b*Q) mod q, e = -r/b mod q, s = a*e mod q; each such pair a, b belongs to one digest number and signature, and the private key is not needed to compute them.", "quantifier": "every curve satisfying the conditions of the standard, every public key of order q, every digest and signature", "why_tests_cant": "a statement about all signatures accepted by a key; tests verify signatures made by sign", "anchors": ["gostcrypto/gostsignature/gost_34_10_2012.py:GOST34102012.verify", "gostcrypto/gostsignature/gost_34_10_2012.py:GOST34102012._verify_step_1", "gostcrypto/gostsignature/gost_34_10_2012.py:GOST34102012._mul_point", "gostcrypto/gostsignature/gost_34_10_2012.py:GOST34102012._add"]}
{"id": "C91", "title": "The comparisons read everything", "statement": "compare and compare_to_zero carry out the same sequence of operations (tests, readings of bytes, exclusive ors, additions) for all operands of the same lengths; every byte of both operands is read, also after a difference was found.", "quantifier": "all byte strings of all lengths", "why_tests_cant": "the claim of constant time in the docstring is about the operations carried out, not about results; a version which returns early passes all tests", "anchors": ["gostcrypto/utils/utils.py:compare", "gostcrypto/utils/utils.py:compare_to_zero"]}
{"id": "C92", "title": "The sequence of point additions reveals the scalar", "statement": "The sequence of additions and doublings which public_key_generate carries out determines the private key; that of sign determines the random value and, with the digest and the signature, the private key modulo q. There is one doubling for each binary digit of the scalar less one and one addition for each digit 1.", "quantifier": "every curve, every private key, digest and random value for which the call returns; for sign the number q is a prime of at most the size of half a signature", "why_tests_cant": "a statement about operations carried out for all keys; tests see results", "anchors": ["gostcrypto/gostsignature/gost_34_10_2012.py:GOST34102012._mul_point", "gostcrypto/gostsignature/gost_34_10_2012.py:GOST34102012._bits", "gostcrypto/gostsignature/gost_34_10_2012.py:GOST34102012.sign", "gostcrypto/gostsignature/gost_34_10_2012.py:GOST34102012.public_key_generate"]}
{"id": "C93", "title": "Versions of Python", "statement": "Importing the package goes on exactly if the version of the interpreter is 3.6 or higher.", "quantifier": "every pair of major and minor version numbers", "why_tests_cant": "a test runs on the versions that exist", "anchors": ["gostcrypto/__init__.py:version_info"]}
{"id": "C94", "title": "Work of the key derivation", "statement": "Deriving n bytes with c iterations computes HMAC exactly max(c,1)+1 times for each of the ceil(n/64) blocks: for block i it authenticates salt||INT(i) twice and then U_1, ..., U_(c-1), nothing else, whatever was derived before; a negative or too large length costs no computation.", "quantifier": "all passwords up to 64 bytes, salts, iteration counts and sequences of lengths up to (2^32-1)*64", "why_tests_cant": "tests see the derived key, not the work done for it, which is what the iteration count is for", "anchors": ["gostcrypto/gostpbkdf/r_50_1_111_2016.py:R5011112016._f", "gostcrypto/gostpbkdf/r_50_1_111_2016.py:R5011112016._calculate_pbkdf", "gostcrypto/gostpbkdf/r_50_1_111_2016.py:R5011112016.derive"]}
{"id": "C95", "title": "utils.py, statement by statement", "statement": "Run statement by statement, each function of utils.py returns the value described in its docstring as far as the other properties use it (length check, top bit, exclusive or of the common length, the fill text, numbers from and to bytes, equality), returns byte arrays that are new objects, and changes no object which existed before the call.", "quantifier": "all byte objects (bytes or bytearray, any aliasing between the arguments), all integers, every state of memory", "why_tests_cant": "tests look at a few results; that no argument is modified and that the result shares nothing with them, for all inputs and all aliasing, is not observable from results", "anchors": ["gostcrypto/utils/utils.py:check_value", "gostcrypto/utils/utils.py:msb", "gostcrypto/utils/utils.py:add_xor", "gostcrypto/utils/utils.py:zero_fill", "gostcrypto/utils/utils.py:bytearray_to_int", "gostcrypto/utils/utils.py:int_to_bytearray", "gostcrypto/utils/utils.py:compare", "gostcrypto/utils/utils.py:compare_to_zero"]}
{"id": "C96", "title": "The block cipher classes, statement by statement", "statement": "Run statement by statement, the constructors of GOST34122015Kuznechik and GOST34122015Magma followed by encrypt return the ciphertext block of GOST R 34.12-2015 for every 32-byte key and every block; for byte objects of any other length they raise exactly the exceptions of the model; the results are new byte arrays and neither the key, the block, the round keys nor any other object is changed. clear changes the list of round keys only.", "quantifier": "all byte objects as keys and blocks (bytes or bytearray, any length, any aliasing), every state of memory, every cipher object", "why_tests_cant": "tests look at a few results; that arguments are not modified, that results share nothing with the state of the object, and the behaviour for all keys and blocks is not observable from them", "anchors": ["gostcrypto/gostcipher/gost_34_12_2015.py:GOST34122015Kuznechik.__init__", "gostcrypto/gostcipher/gost_34_12_2015.py:GOST34122015Kuznechik.encrypt", "gostcrypto/gostcipher/gost_34_12_2015.py:GOST34122015Kuznechik.decrypt", "gostcrypto/gostcipher/gost_34_12_2015.py:GOST34122015Kuznechik.clear", "gostcrypto/gostcipher/gost_34_12_2015.py:GOST34122015Magma.__init__", "gostcrypto/gostcipher/gost_34_12_2015.py:GOST34122015Magma.encrypt", "gostcrypto/gostcipher/gost_34_12_2015.py:GOST34122015Magma.decrypt", "gostcrypto/gostcipher/gost_34_12_2015.py:GOST34122015Magma.clear"]}
{"id": "C97", "title": "The hash class, statement by statement", "statement": "Run statement by statement, gosthash.new(name, data=m).digest() returns the hash of GOST R 34.11-2012 of m for every message m and both names; any other name or data value raises GOSTHashError; after any sequence of updates the digest is the hash of the message described in the property about updates. Digests are new byte arrays, a copy shares nothing with the original, and no call changes anything but the object on which it is made (digest, hexdigest and copy change nothing at all).", "quantifier": "all byte objects as messages (bytes or bytearray, any length, any aliasing), all other values as data or name, every state of memory, every hash object, every sequence of updates", "why_tests_cant": "tests look at a few digests; that messages and other objects are not modified and that copies share nothing, for all states of memory, is not observable from results", "anchors": ["gostcrypto/gosthash/gost_34_11_2012.py:new", "gostcrypto/gosthash/gost_34_11_2012.py:GOST34112012.__init__", "gostcrypto/gosthash/gost_34_11_2012.py:GOST34112012.update", "gostcrypto/gosthash/gost_34_11_2012.py:GOST34112012.hash_final", "gostcrypto/gosthash/gost_34_11_2012.py:GOST34112012.digest", "gostcrypto/gosthash/gost_34_11_2012.py:GOST34112012.hexdigest", "gostcrypto/gosthash/gost_34_11_2012.py:GOST34112012.reset", "gostcrypto/gosthash/gost_34_11_2012.py:GOST34112012.copy"]}
{"id": "C98", "title": "The HMAC class, statement by statement", "statement": "Run statement by statement, gosthmac.new(name, key, data=m).digest() returns HMAC of R 50.1.113-2016 for every key of at most 64 bytes and every non-empty message; after one or more updates the digest is the HMAC of the message described in the properties about updates. The checks of name, key and data are made in this order and raise GOSTHMACError. A key of exactly 64 bytes is kept as the object given by the caller, a shorter one in a new byte array. No call changes anything but the HMAC object and its hash object (digest, hexdigest and copy change nothing at all).", "quantifier": "all values as name, key and data (bytes or bytearray, any length, any aliasing), every state of memory, every HMAC object, every non-empty sequence of updates", "why_tests_cant": "tests look at a few digests; whether the key is shared, what else is modified and the order of the checks for all states of memory is not observable from results", "anchors": ["gostcrypto/gosthmac/r_50_1_113_2016.py:new", "gostcrypto/gosthmac/r_50_1_113_2016.py:R5011132016.__init__", "gostcrypto/gosthmac/r_50_1_113_2016.py:R5011132016.update", "gostcrypto/gosthmac/r_50_1_113_2016.py:R5011132016.digest", "gostcrypto/gosthmac/r_50_1_113_2016.py:R5011132016.hexdigest", "gostcrypto/gosthmac/r_50_1_113_2016.py:R5011132016.reset", "gostcrypto/gosthmac/r_50_1_113_2016.py:R5011132016.clear", "gostcrypto/gosthmac/r_50_1_113_2016.py:R5011132016.copy"]}
{"id": "C99", "title": "The key derivation class, statement by statement", "statement": "Run statement by statement, gostpbkdf.new(password, salt=s, counter=c).derive(n) returns PBKDF2 over HMAC_GOSTR3411_2012_512 for every password of at most 64 bytes, non-empty salt, c and n up to (2^32-1)*64, also after any derivations with the same object. Password and salt are checked in this order; a password of more than 64 bytes is refused by the HMAC module. Without a salt the next 32 random bytes are the salt, without a counter there are 1000 iterations. Derived keys are new byte arrays, and nothing which existed before the object is changed (except that random bytes are consumed).", "quantifier": "all values as password and salt (bytes or bytearray, any length, any aliasing), all iteration counts, every state of memory, every sequence of lengths", "why_tests_cant": "tests look at a few keys; that arguments are not modified, that derived keys share nothing and that earlier derivations leave no trace for all states of memory is not observable from results", "anchors": ["gostcrypto/gostpbkdf/r_50_1_111_2016.py:new", "gostcrypto/gostpbkdf/r_50_1_111_2016.py:R5011112016.__init__", "gostcrypto/gostpbkdf/r_50_1_111_2016.py:R5011112016.derive", "gostcrypto/gostpbkdf/r_50_1_111_2016.py:R5011112016.hexderive", "gostcrypto/gostpbkdf/r_50_1_111_2016.py:R5011112016.clear", "gostcrypto/gostpbkdf/r_50_1_111_2016.py:R5011112016.salt", "gostcrypto/gostpbkdf/r_50_1_111_2016.py:R5011112016._u_first", "gostcrypto/gostpbkdf/r_50_1_111_2016.py:R5011112016._u_iter", "gostcrypto/gostpbkdf/r_50_1_111_2016.py:R5011112016._f", "gostcrypto/gostpbkdf/r_50_1_111_2016.py:R5011112016._calculate_pbkdf"]}
{"id": "C100", "title": "The random generator class, statement by statement", "statement": "Run statement by statement, gostrandom.new(size, rand_k=seed, size_s=len(seed)) followed by any number of calls of random() gives, call by call, the outputs of the sequence of R 1323565.1.006-2017 or the refusal while the seed part is zero. A non-empty seed is accepted exactly if it is a byte object of the declared size; without one the seed is read from the source of random bytes, and without a declared size it has 48 bytes. Outputs are new byte arrays, seeds are copied, and nothing which existed before the object is changed (except that random bytes are consumed).", "quantifier": "all values as seed (bytes or bytearray, any aliasing), seed sizes up to 64, all output sizes, every state of memory, every sequence of calls", "why_tests_cant": "tests look at a few outputs; that the seed given by the caller is not shared or modified and the behaviour of every sequence of calls is not observable from them", "anchors": ["gostcrypto/gostrandom/r_1323565_1_006_2017.py:new", "gostcrypto/gostrandom/r_1323565_1_006_2017.py:R132356510062017.__init__", "gostcrypto/gostrandom/r_1323565_1_006_2017.py:R132356510062017._rand_iter", "gostcrypto/gostrandom/r_1323565_1_006_2017.py:R132356510062017._inc_rand_u", "gostcrypto/gostrandom/r_1323565_1_006_2017.py:R132356510062017.random", "gostcrypto/gostrandom/r_1323565_1_006_2017.py:R132356510062017.reset", "gostcrypto/gostrandom/r_1323565_1_006_2017.py:R132356510062017.clear"]}
{"id": "C101", "title": "The encryption modes, statement by statement", "statement": "Run statement by statement, gostcipher.new for ECB, CBC, CFB, OFB and CTR makes exactly the objects of the model and raises exactly its exceptions, for every key and every keyword argument; any sequence of encrypt, decrypt and clear calls on the object, with arguments of any type, returns the results of the modes of GOST R 34.13-2015 (with the registers carried on from call to call). Results are new byte arrays; only the registers and round keys of the object change; the vector given by the caller is copied.", "quantifier": "all values as key, vector and data (bytes or bytearray, any length, any aliasing), all padding modes, every state of memory, every sequence of calls", "why_tests_cant": "tests look at a few results; that the arguments are not modified, that nothing is shared with the object and the behaviour of every sequence of calls is not observable from them", "anchors": ["gostcrypto/gostcipher/gost_34_13_2015.py:new", "gostcrypto/gostcipher/gost_34_13_2015.py:GOST34132015.__init__", "gostcrypto/gostcipher/gost_34_13_2015.py:GOST34132015ecb.encrypt", "gostcrypto/gostcipher/gost_34_13_2015.py:GOST34132015ecb.decrypt", "gostcrypto/gostcipher/gost_34_13_2015.py:GOST34132015cbc.encrypt", "gostcrypto/gostcipher/gost_34_13_2015.py:GOST34132015cbc.decrypt", "gostcrypto/gostcipher/gost_34_13_2015.py:GOST34132015cfb.encrypt", "gostcrypto/gostcipher/gost_34_13_2015.py:GOST34132015cfb.decrypt", "gostcrypto/gostcipher/gost_34_13_2015.py:GOST34132015ofb.encrypt", "gostcrypto/gostcipher/gost_34_13_2015.py:GOST34132015ctr.encrypt", "gostcrypto/gostcipher/gost_34_13_2015.py:GOST34132015.clear"]}
{"id": "C102", "title": "The MAC class, statement by statement", "statement": "Run statement by statement, gostcipher.new(alg, key, MODE_MAC, data=m).digest(i) returns the first i bytes of the MAC of GOST R 34.13-2015 for every m of at least one block; any sequence of update, digest, hexdigest, mac_final and clear calls, also refused ones, returns the answers of the specification; digest and hexdigest leave every object unchanged, the others change only the object and its round keys.", "quantifier": "all values as key and data (bytes or bytearray, any length, any aliasing), all lengths, every state of memory, every sequence of calls", "why_tests_cant": "tests look at a few codes; that digest works on a copy which shares nothing with the object, for every history, is not observable from them", "anchors": ["gostcrypto/gostcipher/gost_34_13_2015.py:new", "gostcrypto/gostcipher/gost_34_13_2015.py:GOST34132015mac.__init__", "gostcrypto/gostcipher/gost_34_13_2015.py:GOST34132015mac.update", "gostcrypto/gostcipher/gost_34_13_2015.py:GOST34132015mac.mac_final", "gostcrypto/gostcipher/gost_34_13_2015.py:GOST34132015mac.digest", "gostcrypto/gostcipher/gost_34_13_2015.py:GOST34132015mac.hexdigest", "gostcrypto/gostcipher/gost_34_13_2015.py:GOST34132015mac._set_pad_mode_3", "gostcrypto/gostcipher/gost_34_13_2015.py:GOST34132015mac._get_mac_key"]}
{"id": "C103", "title": "Object identifiers, statement by statement", "statement": "Run statement by statement, for an object made with ObjectIdentifier(s): str(o) is s; o.name is the entry of s in the table of the file, or the empty string if there is none; o.digit is the tuple of the values of the components if each is an integer literal and raises GOSTOIDError otherwise; o.octet of a valid identifier is a new byte array with its DER encoding exactly if every encoded number is below 2^14, and malformed strings, bad first and bad second components raise GOSTOIDError. Nothing which exists before is changed.", "quantifier": "all strings, all valid identifiers with bodies below 256^126 bytes, every state of memory", "why_tests_cant": "tests look at a few identifiers; which numbers are encoded rightly, and that every string without an entry has the empty name, needs all strings", "anchors": ["gostcrypto/gostoid/oid.py:ObjectIdentifier.__init__", "gostcrypto/gostoid/oid.py:ObjectIdentifier.__str__", "gostcrypto/gostoid/oid.py:ObjectIdentifier.name", "gostcrypto/gostoid/oid.py:ObjectIdentifier.digit", "gostcrypto/gostoid/oid.py:ObjectIdentifier.octet", "gostcrypto/gostoid/oid.py:_encode_octet", "gostcrypto/gostoid/oid.py:_int_to_octet", "gostcrypto/gostoid/oid.py:_len_oid_octet", "gostcrypto/gostoid/oid.py:_len_int"]}
{"id": "C104", "title": "The signature class, statement by statement", "statement": "Run statement by statement, gostsignature.new and the methods public_key_generate, sign and verify of the object return exactly the results of the model, raise exactly its exceptions, and run for ever exactly if it does; the table CURVES_R_1323565_1_024_2019 has exactly the seven curves of the model. Results are new byte arrays; nothing which exists is changed, except that the source of random bytes is read if sign gets no random number or an empty one.", "quantifier": "all modes, all dictionaries whose curve parameters are integers, all values as keys, digests, signatures and random numbers (bytes or bytearray, any length, any aliasing, other types), moduli up to 2^512 with a bound on nested calls (all moduli with enough of them), every state of memory", "why_tests_cant": "tests look at a few signatures; that arguments are never modified, which calls raise or run for ever, and the whole parameter table are not observable from them", "anchors": ["gostcrypto/gostsignature/gost_34_10_2012.py:new", "gostcrypto/gostsignature/gost_34_10_2012.py:GOST34102012.__init__", "gostcrypto/gostsignature/gost_34_10_2012.py:GOST34102012._edvards_to_canonical", "gostcrypto/gostsignature/gost_34_10_2012.py:GOST34102012._check_curve", "gostcrypto/gostsignature/gost_34_10_2012.py:GOST34102012._add", "gostcrypto/gostsignature/gost_34_10_2012.py:GOST34102012._mul_point", "gostcrypto/gostsignature/gost_34_10_2012.py:GOST34102012._invert", "gostcrypto/gostsignature/gost_34_10_2012.py:GOST34102012._get_rand_k", "gostcrypto/gostsignature/gost_34_10_2012.py:GOST34102012.public_key_generate", "gostcrypto/gostsignature/gost_34_10_2012.py:GOST34102012.sign", "gostcrypto/gostsignature/gost_34_10_2012.py:GOST34102012.verify"]}
{"id": "C105", "title": "The signature class as it is written computes GOST R 34.10-2012", "statement": "Run statement by statement, on a curve of the package: public_key_generate returns the coordinates of d*P in the group of the curve; sign returns (r, s) of the standard whenever the standard has a signature for the random number; verify gives the answer of the standard unless z1*P + z2*Q is the point at infinity; and the program which takes a curve from the table by its name, makes the object and the public key, signs and verifies returns nothing else than True, except for the key q - 1 of 256-paramSetD, for which it can return False.", "quantifier": "all private keys 0 < d < q, all digests, all random numbers and random sources, all seven curves, every state of memory", "why_tests_cant": "the set of keys and random numbers has about 2^256 or 2^512 elements; the one key which fails is never met by a test", "anchors": ["gostcrypto/gostsignature/gost_34_10_2012.py:new", "gostcrypto/gostsignature/gost_34_10_2012.py:GOST34102012.public_key_generate", "gostcrypto/gostsignature/gost_34_10_2012.py:GOST34102012.sign", "gostcrypto/gostsignature/gost_34_10_2012.py:GOST34102012.verify", "gostcrypto/gostsignature/gost_34_10_2012.py:GOST34102012._mul_point"]}
{"id": "C106", "title": "The departures from the standards are in the text", "statement": "Run as they are written, programs of calls of the package give the following results. zero_fill does not write zeros but four characters for each byte. Two updates of a hash object with 32 bytes each do not give the hash of the 64 bytes. An HMAC object which was given no data does not return the HMAC of the empty message. CTR uses the keystream block 0 again as block 256; CFB and OFB use the same keystream for two messages shorter than a block; PAD_MODE_2 adds a block too much; decryption drops the bytes after the last whole block; a MAC message shorter than a block raises IndexError; an empty vector is accepted and then raises IndexError; a refused call changes what the same object returns later. A cleared PBKDF object derives the same keys, and a counter below one counts as one. Different object identifiers have the same octets. verify accepts a signature for which the standard's point is at infinity and a key which is not on the curve; public_key_generate accepts the key q and does not end for the key 0; sign does not end for the random number 0 and signs with the keys 0 and q; new accepts a composite modulus.", "quantifier": "all memories, keys, vectors and messages of the stated lengths, both block ciphers, all numbers of loop turns and of nested calls above stated bounds; the signature cases are runs with curves of the package", "why_tests_cant": "the defects are found by reading; a test suite which has them as expected values does not exist, and that a loop never ends cannot be tested", "anchors": ["gostcrypto/utils/utils.py:zero_fill", "gostcrypto/gostcipher/gost_34_13_2015.py:GOST34132015ctr._inc_ctr", "gostcrypto/gostcipher/gost_34_13_2015.py:GOST34132015cfb.encrypt", "gostcrypto/gostcipher/gost_34_13_2015.py:GOST34132015ofb.encrypt", "gostcrypto/gostcipher/gost_34_13_2015.py:GOST34132015CipherPadding._set_pad_mode_2", "gostcrypto/gostcipher/gost_34_13_2015.py:GOST34132015mac.update", "gostcrypto/gosthash/gost_34_11_2012.py:GOST34112012.update", "gostcrypto/gosthmac/r_50_1_113_2016.py:R5011132016.digest", "gostcrypto/gostpbkdf/r_50_1_111_2016.py:R5011112016.clear", "gostcrypto/gostoid/oid.py:ObjectIdentifier.octet", "gostcrypto/gostsignature/gost_34_10_2012.py:GOST34102012.verify", "gostcrypto/gostsignature/gost_34_10_2012.py:GOST34102012.public_key_generate", "gostcrypto/gostsignature/gost_34_10_2012.py:GOST34102012.sign", "gostcrypto/gostsignature/gost_34_10_2012.py:GOST34102012._check_curve"]}
{"id": "C107", "title": "Programs which use several modules, as they are written", "statement": "Run statement by statement: two programs, each with its own cipher object made from the same key, mode and vector, of which one encrypts and the other decrypts, give back the message: exactly in the modes CFB, OFB and CTR, and with its padding in ECB and CBC. The same holds if each side derives its key from the same password and salt with the key derivation class. For each curve of the table, a program which makes the object and the public key, hashes a document with the hash of the size of the curve, signs the digest, hashes the document again and verifies returns nothing else than True, and does return True if the standard has a signature for the random number. No memory cell of the caller is changed, except that the random source is read.", "quantifier": "both block ciphers, all keys, vectors, messages, passwords, salts and counts, all seven curves, all private keys 0 < d < q except q - 1 of 256-paramSetD, all documents, every state of memory", "why_tests_cant": "the modules are tested one by one; that what one returns is accepted by the next, for all inputs and with no shared memory between the objects, is not", "anchors": ["gostcrypto/gostcipher/gost_34_13_2015.py:new", "gostcrypto/gostcipher/gost_34_13_2015.py:GOST34132015ecb.encrypt", "gostcrypto/gostcipher/gost_34_13_2015.py:GOST34132015cbc.encrypt", "gostcrypto/gostcipher/gost_34_13_2015.py:GOST34132015cfb.encrypt", "gostcrypto/gostcipher/gost_34_13_2015.py:GOST34132015ofb.encrypt", "gostcrypto/gostcipher/gost_34_13_2015.py:GOST34132015ctr.encrypt", "gostcrypto/gostpbkdf/r_50_1_111_2016.py:R5011112016.derive", "gostcrypto/gosthash/gost_34_11_2012.py:GOST34112012.digest", "gostcrypto/gostsignature/gost_34_10_2012.py:GOST34102012.sign", "gostcrypto/gostsignature/gost_34_10_2012.py:GOST34102012.verify"]}
{"id": "C108", "title": "Programs which share no object do not influence each other", "statement": "Run as they are written, a call of a function of the package changes no object which cannot be reached from its arguments or the source of random bytes. If several programs of calls of the package are run in one process, with their statements interleaved in any way, and share no object at the beginning, then each of them meets the same exceptions and computes the same values, up to the addresses of objects, as if it were run alone. There is no state at the module level through which one use of the package could change another.", "quantifier": "all functions of the package, all arguments, all programs of the fragment (calls, attributes, assignments, loops, conditions), any number of programs, all interleavings of their statements, every state of memory; for the interleavings no random bytes are drawn", "why_tests_cant": "the number of interleavings is unbounded, and a test sees only the objects it looks at; absence of an influence is not observable by a test", "anchors": ["gostcrypto/utils/utils.py:zero_fill", "gostcrypto/gostcipher/gost_34_12_2015.py:GOST34122015Kuznechik.encrypt", "gostcrypto/gostcipher/gost_34_13_2015.py:new", "gostcrypto/gostcipher/gost_34_13_2015.py:GOST34132015ctr.encrypt", "gostcrypto/gosthash/gost_34_11_2012.py:GOST34112012.update", "gostcrypto/gosthmac/r_50_1_113_2016.py:R5011132016.update", "gostcrypto/gostpbkdf/r_50_1_111_2016.py:R5011112016.derive", "gostcrypto/gostrandom/r_1323565_1_006_2017.py:R132356510062017.random", "gostcrypto/gostoid/oid.py:ObjectIdentifier.octet", "gostcrypto/gostsignature/gost_34_10_2012.py:GOST34102012.sign"]}
{"id": "C109", "title": "The destructors as they are written", "statement": "Run statement by statement, __del__ of an object of the cipher, HMAC, PBKDF and generator classes, in whatever state the object is, raises nothing, overwrites the secrets as clear does and changes only cells of the object itself. Objects which raising constructors of HMAC, PBKDF and the generators leave behind are destroyed without an exception, apart from the PBKDF object whose password was refused, which raises AttributeError; a block cipher object with fewer round keys than rounds has those it has overwritten and raises IndexError.", "quantifier": "all objects of the classes in all states, all values which constructors refuse, every state of memory", "why_tests_cant": "the interpreter calls destructors when it likes and discards their exceptions; a test does not see them", "anchors": ["gostcrypto/gostcipher/gost_34_12_2015.py:GOST34122015Kuznechik.__del__", "gostcrypto/gostcipher/gost_34_12_2015.py:GOST34122015Magma.__del__", "gostcrypto/gostcipher/gost_34_13_2015.py:GOST34132015.__del__", "gostcrypto/gosthmac/r_50_1_113_2016.py:R5011132016.__del__", "gostcrypto/gostpbkdf/r_50_1_111_2016.py:R5011112016.__del__", "gostcrypto/gostrandom/r_1323565_1_006_2017.py:R132356510062017.__del__", "gostcrypto/gostcipher/gost_34_13_2015.py:GOST34132015.clear"]}
{"id": "C110", "title": "Where the objects of a result come from", "statement": "Run as they are written: whatever a function of the package is called with, the objects which can be reached afterwards from its result and from its arguments are those which the arguments (and the source of random bytes) reached before the call, and new ones. The package keeps no object behind the calls, and every reference is to an object in memory. The results of two calls whose arguments share no object share no object, and the second call leaves what the first one returned as it is. The outcome of a call depends on nothing but the contents of what the arguments and the source of random bytes reach.", "quantifier": "all functions of the package, all arguments, every state of memory, calls which return and calls which raise; for two calls, memories without random bytes", "why_tests_cant": "a cache or a shared default object would show only in a test which uses two objects in the order that reveals it", "anchors": ["gostcrypto/utils/utils.py:zero_fill", "gostcrypto/gostcipher/gost_34_13_2015.py:new", "gostcrypto/gostcipher/gost_34_13_2015.py:GOST34132015ctr.counter", "gostcrypto/gosthash/gost_34_11_2012.py:GOST34112012.__init__", "gostcrypto/gosthmac/r_50_1_113_2016.py:R5011132016.__init__", "gostcrypto/gostpbkdf/r_50_1_111_2016.py:R5011112016.salt", "gostcrypto/gostrandom/r_1323565_1_006_2017.py:R132356510062017.__init__", "gostcrypto/gostoid/oid.py:ObjectIdentifier.__init__", "gostcrypto/gostsignature/gost_34_10_2012.py:GOST34102012.__init__"]}
{"id": "C111", "title": "Sharing, erasure and limits: the departures are in the text", "statement": "Run as they are written, programs of calls of the package give the following results. A MAC object which received at least a block raises IndexError at an update which does not complete the next block. A cleared MAC object keeps the second auxiliary key, a cleared block cipher goes on encrypting with round keys made of the characters /x00, and a cleared HMAC object still shows whether it had been updated. Two updates of an HMAC object with 32 bytes do not give the code of the 64 bytes. A key of 64 bytes given to HMAC in a byte array is not copied: when the caller changes the array, the code is that of the changed key. What is written to the array returned by counter of a CTR object is its next counter block, and the array itself goes on counting: after m blocks it is another value unless 256 divides m; what is written to the array returned by salt of a PBKDF object is its salt. The generator answers 256^(63-n) calls for 64 bytes with a seed of n bytes, after which the seed in the register is another one. k calls of clear multiply the size of the keys in memory by 4^k. Two strings for the same object identifier have different names, and one of the curves is listed under a name which no object identifier has.", "quantifier": "all memories, keys, vectors, messages, salts and seeds of the stated lengths, both block ciphers, both HMAC names, all modes and all k for the growth; C29 and C88 with one message and one identifier", "why_tests_cant": "the defects need a sequence of calls, a shared array or 2^120 calls; no test has them", "anchors": ["gostcrypto/gostcipher/gost_34_13_2015.py:GOST34132015mac.update", "gostcrypto/gostcipher/gost_34_13_2015.py:GOST34132015mac.clear", "gostcrypto/gostcipher/gost_34_13_2015.py:GOST34132015.clear", "gostcrypto/gostcipher/gost_34_13_2015.py:GOST34132015ctr.counter", "gostcrypto/gosthmac/r_50_1_113_2016.py:R5011132016.__init__", "gostcrypto/gosthmac/r_50_1_113_2016.py:R5011132016.update", "gostcrypto/gosthmac/r_50_1_113_2016.py:R5011132016.clear", "gostcrypto/gostpbkdf/r_50_1_111_2016.py:R5011112016.salt", "gostcrypto/gostrandom/r_1323565_1_006_2017.py:R132356510062017.random", "gostcrypto/utils/utils.py:zero_fill", "gostcrypto/gostoid/oid.py:ObjectIdentifier.name", "gostcrypto/gostsignature/gost_34_10_2012.py:CURVES_R_1323565_1_024_2019"]}
{"id": "C112", "title": "One outcome, or none", "statement": "Run as they are written, a call of the package, an access to an attribute and a program of statements which uses the package either never end or have exactly one outcome (a value or an exception, with the memory): the bounds on turns of loops and on nested calls, which the semantics needs to be a function, have no influence on what comes out, and an outcome within some bounds is the outcome within all larger ones. public_key_generate with the private key 0 and sign with the random number 0 have no outcome within any bounds; a hash value has an outcome, and within whatever bounds it comes out it is that of the standard.", "quantifier": "all functions of the package, all arguments, all programs of the fragment, every state of memory, all bounds", "why_tests_cant": "a test runs for a finite time; it cannot tell a call which needs longer from one which never ends, nor show that a limit of the checking tool did not make the result", "anchors": ["gostcrypto/gostsignature/gost_34_10_2012.py:GOST34102012.public_key_generate", "gostcrypto/gostsignature/gost_34_10_2012.py:GOST34102012.sign", "gostcrypto/gostsignature/gost_34_10_2012.py:GOST34102012._mul_point", "gostcrypto/gostsignature/gost_34_10_2012.py:GOST34102012._get_rand_k", "gostcrypto/gosthash/gost_34_11_2012.py:GOST34112012.digest", "gostcrypto/utils/utils.py:check_value", "gostcrypto/gostcipher/gost_34_13_2015.py:GOST34132015cbc.encrypt", "gostcrypto/gostrandom/r_1323565_1_006_2017.py:R132356510062017.random"]}
{"id": "C113", "title": "Names, numbers of arguments and exceptions of the package", "statement": "Run as they are written, whatever they are called with: no function, method or property of the package uses a variable before it has a value, a name which its module does not have or a function which does not exist. What a function raises by itself is one of the seven exception classes of the package with one of its 31 messages; functions of the signature module raise only GOSTSignatureError, those of the object identifiers only GOSTOIDError, those of the block ciphers and of utils none. A function called with a number of arguments which it takes never makes a call with a wrong number of arguments; this last part is for the functions which do not lead to a method digest, the only one which takes different numbers of arguments in different classes.", "quantifier": "all functions of the package, all arguments (of whatever type), every state of memory, all paths", "why_tests_cant": "a name which is not assigned on one path fails only in a test which takes that path; the paths of errors are the ones which tests leave out", "anchors": ["gostcrypto/gostcipher/gost_34_12_2015.py:GOST34122015Magma._expand_iter_key_final", "gostcrypto/utils/utils.py:zero_fill", "gostcrypto/gostcipher/gost_34_13_2015.py:new", "gostcrypto/gostcipher/gost_34_13_2015.py:GOST34132015cbc.encrypt", "gostcrypto/gosthash/gost_34_11_2012.py:GOST34112012.update", "gostcrypto/gosthmac/r_50_1_113_2016.py:R5011132016.__init__", "gostcrypto/gostpbkdf/r_50_1_111_2016.py:R5011112016.derive", "gostcrypto/gostrandom/r_1323565_1_006_2017.py:R132356510062017.random", "gostcrypto/gostoid/oid.py:ObjectIdentifier.octet", "gostcrypto/gostsignature/gost_34_10_2012.py:GOST34102012.sign", "gostcrypto/gostsignature/gost_34_10_2012.py:GOST34102012.verify"]}
{"id": "C114", "title": "Two objects with the same key", "statement": "Of two CTR objects made with the same key and different initialisation vectors no block of the one keystream is a block of the other, however long the messages are. A cipher object made without a vector is the object made with a vector written in the text, which does not depend on the key. With equal vectors, the exclusive or of two CTR or OFB results is that of the two messages; two CBC results, and two CFB results, agree in exactly as many leading whole blocks as the messages, and the exclusive or of the CFB blocks which follow is that of the blocks of the messages.", "quantifier": "both algorithms, all keys, all vectors of the sizes which the modes take, both padding modes, all messages of all lengths, all positions of blocks", "why_tests_cant": "that two keystreams never meet is a claim about all pairs of positions and vectors; a test compares a few blocks", "anchors": ["gostcrypto/gostcipher/gost_34_13_2015.py:new", "gostcrypto/gostcipher/gost_34_13_2015.py:GOST34132015ctr.encrypt", "gostcrypto/gostcipher/gost_34_13_2015.py:GOST34132015ctr.__init__", "gostcrypto/gostcipher/gost_34_13_2015.py:GOST34132015ofb.encrypt", "gostcrypto/gostcipher/gost_34_13_2015.py:GOST34132015cbc.encrypt", "gostcrypto/gostcipher/gost_34_13_2015.py:GOST34132015cfb.encrypt"]}
{"id": "C115", "title": "The path through the symmetric part depends on lengths only", "statement": "Take as the path of a run the sequence of executed statements, of truth values on which if, while, and, or decide, of turns of loops, of functions entered and of built-in functions applied. Two runs of a function of utils.py, of the block ciphers, of ECB, CBC, CFB, OFB and CTR, of the hash, of HMAC or of PBKDF2, on arguments and objects which differ only in the contents of byte strings, take the same path and end with the same exception or with results of the same shape. compare and compare_to_zero do not stop at the first difference. The derivation of the MAC keys is an exception: it branches on bits of the encrypted zero block, and two keys take different paths.", "quantifier": "all keys, vectors, passwords, salts and data of equal lengths, all algorithms and names, all memories of the same shape, all bounds of loops and calls, all clients which the check accepts", "why_tests_cant": "A statement about pairs of runs on all inputs: a test compares the paths of a few pairs, and a branch on one value of one byte is met with probability 1/256 or less.", "anchors": ["gostcrypto/utils/utils.py:compare", "gostcrypto/utils/utils.py:compare_to_zero", "gostcrypto/utils/utils.py:add_xor", "gostcrypto/gostcipher/gost_34_12_2015.py:GOST34122015Kuznechik.encrypt", "gostcrypto/gostcipher/gost_34_12_2015.py:GOST34122015Magma.encrypt", "gostcrypto/gostcipher/gost_34_13_2015.py:new", "gostcrypto/gostcipher/gost_34_13_2015.py:GOST34132015cbc.encrypt", "gostcrypto/gostcipher/gost_34_13_2015.py:GOST34132015mac._get_mac_key", "gostcrypto/gosthash/gost_34_11_2012.py:GOST34112012.update", "gostcrypto/gosthmac/r_50_1_113_2016.py:R5011132016.digest", "gostcrypto/gostpbkdf/r_50_1_111_2016.py:R5011112016.derive"]}
{"id": "C116", "title": "Which exceptions reach the caller", "statement": "Every constructor of the package and, on an object which a constructor has returned, every sequence of calls of its public methods and reads of its properties answers with a result or with the exception class of that module: GOSTCipherError, GOSTHashError, GOSTHMACError, GOSTPBKDFError, GOSTRandomError, GOSTOIDError, GOSTSignatureError. No IndexError, TypeError, OverflowError, ValueError, ZeroDivisionError or AttributeError comes out, and no exception of another module. Calls which raise are caught, and the sequence goes on with the object as it was left.", "quantifier": "all arguments named as data, keys, vectors, salts, passwords, digests, signatures and seeds, of whatever type; all integers as modes, sizes, lengths and counters; all strings as names and object identifiers; all sequences of uses; every state of memory", "why_tests_cant": "The exception of one call says nothing about the next one: an object is left behind changed after a refused call. Callers catch the documented class; another one goes through. Tests use the arguments their author has thought of.", "anchors": ["gostcrypto/gostcipher/gost_34_13_2015.py:new", "gostcrypto/gostcipher/gost_34_13_2015.py:GOST34132015cbc.encrypt", "gostcrypto/gostcipher/gost_34_13_2015.py:GOST34132015mac.update", "gostcrypto/gostcipher/gost_34_13_2015.py:GOST34132015mac.__init__", "gostcrypto/gosthash/gost_34_11_2012.py:new", "gostcrypto/gosthash/gost_34_11_2012.py:GOST34112012.update", "gostcrypto/gosthmac/r_50_1_113_2016.py:new", "gostcrypto/gosthmac/r_50_1_113_2016.py:R5011132016.update", "gostcrypto/gostpbkdf/r_50_1_111_2016.py:new", "gostcrypto/gostpbkdf/r_50_1_111_2016.py:R5011112016.derive", "gostcrypto/gostrandom/r_1323565_1_006_2017.py:new", "gostcrypto/gostrandom/r_1323565_1_006_2017.py:R132356510062017.reset", "gostcrypto/gostoid/oid.py:ObjectIdentifier.octet", "gostcrypto/gostsignature/gost_34_10_2012.py:new", "gostcrypto/gostsignature/gost_34_10_2012.py:GOST34102012.sign", "gostcrypto/gostsignature/gost_34_10_2012.py:GOST34102012.verify"]}
{"id": "C117", "title": "Only the contents of the arguments matter", "statement": "What a program sees of an object of the package (the exceptions, the contents of the results, in order) depends on the contents of the arguments only: a byte array and bytes with the same contents are interchangeable, and so are any two values which are neither. Where the arguments lie in memory and what else is there has no influence. Of the keyword arguments only those which the documentation names matter, with their contents: a keyword with another name, also a misspelled one, is ignored, and a curve is the eleven numbers of its dictionary.", "quantifier": "all pairs of programs made of new() and a sequence of calls of methods and reads of properties, over gostcipher (with the MAC), gosthash, gosthmac, gostpbkdf, gostrandom and gostsignature; all memories; all dictionaries of keyword arguments; for pbkdf and random the same bytes of the operating system", "why_tests_cant": "A statement about pairs of runs over all memories and all sequences of calls; a test calls each method with one type of argument, mostly bytearray, and never with a misspelled keyword.", "anchors": ["gostcrypto/utils/utils.py:zero_fill", "gostcrypto/gostcipher/gost_34_13_2015.py:new", "gostcrypto/gostcipher/gost_34_13_2015.py:GOST34132015.__init__", "gostcrypto/gostcipher/gost_34_13_2015.py:GOST34132015cbc.encrypt", "gostcrypto/gostcipher/gost_34_13_2015.py:GOST34132015mac.update", "gostcrypto/gosthash/gost_34_11_2012.py:new", "gostcrypto/gosthash/gost_34_11_2012.py:GOST34112012.update", "gostcrypto/gosthmac/r_50_1_113_2016.py:new", "gostcrypto/gosthmac/r_50_1_113_2016.py:R5011132016.update", "gostcrypto/gostpbkdf/r_50_1_111_2016.py:new", "gostcrypto/gostpbkdf/r_50_1_111_2016.py:R5011112016.derive", "gostcrypto/gostrandom/r_1323565_1_006_2017.py:new", "gostcrypto/gostrandom/r_1323565_1_006_2017.py:R132356510062017.reset", "gostcrypto/gostsignature/gost_34_10_2012.py:new", "gostcrypto/gostsignature/gost_34_10_2012.py:GOST34102012.sign", "gostcrypto/gostsignature/gost_34_10_2012.py:GOST34102012.verify"]}
{"id": "C118", "title": "What a part of the secret state gives away", "statement": "Two neighbouring round keys of a Kuznechik object (numbers 2i-1 and 2i of the ten) are the whole key: it is computed from them by steps of the key schedule; a single round key is compatible with every value of its neighbour, so it does not limit the other half. Each word of a Magma key is the round key of four of the 32 rounds, and any eight round keys for different words are the key. The register of the generator contains the seed in clear and gives back every output since the seeding. The random value of one signature, drawn or given, gives the private key modulo q from the digest and the signature, and the private key gives the random value.", "quantifier": "all 256-bit keys, all positions of round keys; all nonzero seeds of up to 63 bytes, all output sizes and all numbers of calls before the counter is used up; all curves with a base point of prime order, all digests, keys and random values for which sign returns", "why_tests_cant": "Statements about the inverse of a computation on all keys and states; a test can check an instance but does not look for the inverse.", "anchors": ["gostcrypto/gostcipher/gost_34_12_2015.py:GOST34122015Kuznechik.__init__", "gostcrypto/gostcipher/gost_34_12_2015.py:GOST34122015Magma.__init__", "gostcrypto/gostcipher/gost_34_12_2015.py:GOST34122015Magma._expand_iter_key", "gostcrypto/gostcipher/gost_34_12_2015.py:GOST34122015Magma._expand_iter_key_final", "gostcrypto/gostrandom/r_1323565_1_006_2017.py:R132356510062017._rand_iter", "gostcrypto/gostrandom/r_1323565_1_006_2017.py:R132356510062017._inc_rand_u", "gostcrypto/gostrandom/r_1323565_1_006_2017.py:R132356510062017.random", "gostcrypto/gostsignature/gost_34_10_2012.py:GOST34102012.sign"]}
{"id": "C119", "title": "One key in several modes", "statement": "What objects with the same key in different modes tell about each other. On a message of zeros CFB, OFB and, for whole blocks and PAD_MODE_1, CBC give the same result; so CFB with the same vector yields the keystream which hides and reads all messages of OFB. What CTR adds to a message is what ECB makes of the counter blocks. One block of CTR with the vector zero is the value from which both keys of the MAC are doubled, and the MAC of a message of whole blocks is the last block which CBC with the vector zero makes of the message with the first of these keys added to the last block.", "quantifier": "both algorithms, all keys of 32 bytes, all vectors of the sizes which the modes take, all messages of all lengths (of whole blocks for CBC and the MAC)", "why_tests_cant": "An equation between the results of different classes over all messages and keys; tests check every mode by itself against the examples of the standard.", "anchors": ["gostcrypto/gostcipher/gost_34_13_2015.py:GOST34132015ecb.encrypt", "gostcrypto/gostcipher/gost_34_13_2015.py:GOST34132015cbc.encrypt", "gostcrypto/gostcipher/gost_34_13_2015.py:GOST34132015cfb.encrypt", "gostcrypto/gostcipher/gost_34_13_2015.py:GOST34132015ofb.encrypt", "gostcrypto/gostcipher/gost_34_13_2015.py:GOST34132015ofb.decrypt", "gostcrypto/gostcipher/gost_34_13_2015.py:GOST34132015ctr.encrypt", "gostcrypto/gostcipher/gost_34_13_2015.py:GOST34132015mac.__init__", "gostcrypto/gostcipher/gost_34_13_2015.py:GOST34132015mac.digest", "gostcrypto/gostcipher/gost_34_13_2015.py:new"]}
{"id": "C120", "title": "The random value of a signature is drawn without bias", "statement": "Count the tables of n draws of size bytes. For every n, each value below q is the one which sign uses for the same number of tables, so with a uniform source of bytes the random value is uniform; of the 256^size strings exactly q are taken, and on every curve which the constructor accepts this is at least one of 16, so that n draws are all refused for at most (15/16)^n of the tables. Different random values give different signatures of a digest, so all signatures which sign can return for a key and a digest come out for the same number of tables. The value 0 is one of those which are drawn, as often as the others, and sign does not return with it.", "quantifier": "all accepted curves (for signatures: with a base point of prime order), all private keys and digests, all numbers of draws, all tables of draws", "why_tests_cant": "A distribution over 2^256 and more strings: a bias of a reduction modulo q, or of a mask, is not seen in any sample which a test can draw.", "anchors": ["gostcrypto/gostsignature/gost_34_10_2012.py:GOST34102012._get_rand_k", "gostcrypto/gostsignature/gost_34_10_2012.py:GOST34102012.sign", "gostcrypto/gostsignature/gost_34_10_2012.py:GOST34102012._check_q", "gostcrypto/utils/utils.py:bytearray_to_int"]}
{"id": "C121", "title": "How changes spread in Kuznechik and in the substitutions", "statement": "The linear transformation of Kuznechik and its inverse have the branch number 17, the largest possible one: for two different blocks, at least 17 of the 32 bytes of the blocks and of their images are changed. So one changed byte before a round changes all sixteen after it, with any round key, and in the nine rounds of an encryption of two different blocks the substitution gets at least 69 changed bytes. The bytes with the multiplication of the code are a field. The substitution of Kuznechik takes a given difference other than 0 to a given difference for at most 8 of the 256 bytes, each substitution of Magma for at most 4 of the 16 values.", "quantifier": "all pairs of different blocks, all keys, all differences; both directions of the linear transformation", "why_tests_cant": "A minimum over 2^256 pairs of blocks: a wrong coefficient in the linear form or a wrong entry of a table can leave all tests of inverses right and lower it.", "anchors": ["gostcrypto/gostcipher/gost_34_12_2015.py:GOST34122015Kuznechik._cipher_l", "gostcrypto/gostcipher/gost_34_12_2015.py:GOST34122015Kuznechik._cipher_l_reverse", "gostcrypto/gostcipher/gost_34_12_2015.py:GOST34122015Kuznechik._cipher_s", "gostcrypto/gostcipher/gost_34_12_2015.py:GOST34122015Kuznechik._cipher_r", "gostcrypto/gostcipher/gost_34_12_2015.py:GOST34122015Kuznechik.encrypt", "gostcrypto/gostcipher/gost_34_12_2015.py:GOST34122015Magma._cipher_t"]}
{"id": "C122", "title": "How changes spread in the hash", "statement": "In the step LPS of the hash the eight bytes of a column of the 8 by 8 table make the eight bytes of a row of the result. A column without a change gives a row without a change; otherwise at least nine of these sixteen bytes are changed. One changed byte changes exactly eight bytes after one step and all 64 after two, whatever key is added between them. For two different blocks and one key, in any four of the twelve rounds of the block transformation the substitution gets at least 81 changed bytes, in all twelve at least 243. The same holds for the twelve steps of the round keys for two different keys.", "quantifier": "all pairs of strings of 64 bytes, all keys, all positions of four rounds", "why_tests_cant": "A minimum over all pairs of blocks. The code has the step as eight tables of 256 words; one wrong word out of 2048 changes the hash of a small part of the messages and lowers the minimum.", "anchors": ["gostcrypto/gosthash/gost_34_11_2012.py:GOST34112012._hash_lps", "gostcrypto/gosthash/gost_34_11_2012.py:GOST34112012._hash_get_key", "gostcrypto/gosthash/gost_34_11_2012.py:GOST34112012._hash_e"]}
{"id": "C123", "title": "Keys of Magma which differ in the highest bits of their words", "statement": "If the highest bits of the eight 32-bit words of a Magma key and of the two words of a block are flipped, the highest bits of the two words of the encrypted (decrypted) block are flipped and nothing else changes. So objects of the package with the keys K and K' in ECB mode make of messages of whole blocks which differ in these bits results which differ in these bits; in CBC (PAD_MODE_1), CFB and OFB mode, with the flipped vector, they make of the same message, of any length, the same result with these bits flipped: two keys are not independent.", "quantifier": "all keys of 32 bytes, all blocks, all vectors of whole blocks, all messages of all lengths (of whole blocks for ECB)", "why_tests_cant": "A relation between two keys over all 2^256 keys; tests take single keys.", "anchors": ["gostcrypto/gostcipher/gost_34_12_2015.py:GOST34122015Magma._cipher_g", "gostcrypto/gostcipher/gost_34_12_2015.py:GOST34122015Magma._cipher_add_32", "gostcrypto/gostcipher/gost_34_12_2015.py:GOST34122015Magma.encrypt", "gostcrypto/gostcipher/gost_34_12_2015.py:GOST34122015Magma.decrypt", "gostcrypto/gostcipher/gost_34_13_2015.py:GOST34132015ecb.encrypt", "gostcrypto/gostcipher/gost_34_13_2015.py:GOST34132015cbc.encrypt", "gostcrypto/gostcipher/gost_34_13_2015.py:GOST34132015cfb.encrypt", "gostcrypto/gostcipher/gost_34_13_2015.py:GOST34132015ofb.encrypt"]}
{"id": "C124", "title": "An accepted signature does not say whose it is", "statement": "On every curve whose parameters are as the standard requires (p and q prime, the base point of order q), and for every digest: if verify accepts the pair (r, s) for the public key of d, and d' is a private key with r*(d + d') = 2*s modulo q, then verify accepts the same pair for the same digest and the public key of d'. For 0 < r < q there is exactly one such d' below q, and it differs from d for every signature made with d. Likewise (r, s) is accepted for the public key of d exactly if (r, q - s) is accepted for the public key of q - d, whose x coordinate is the same.", "quantifier": "for all such curves, private keys, digests and pairs r, s (public keys with x coordinate 0, which verify does not read, are excluded)", "why_tests_cant": "A test with another key picks it at random and sees the signature refused; the one key which accepts it depends on the signature.", "anchors": ["gostcrypto/gostsignature/gost_34_10_2012.py:verify", "gostcrypto/gostsignature/gost_34_10_2012.py:public_key_generate", "gostcrypto/gostsignature/gost_34_10_2012.py:sign"]}
{"id": "C125", "title": "How linear relations spread in Kuznechik and in the substitutions", "statement": "For masks u and v of 16 bytes, not both 0, such that the parity of the bits of a block selected by u is always that of the bits of its image under _cipher_l selected by v, at least 17 of the 32 bytes of the masks are not 0; the same for _cipher_l_reverse. For every v there is such a u. For a mask b other than 0 and any mask a, the parity of the bits of a byte selected by a is that of the bits of its image under the substitution of Kuznechik selected by b for at least 100 and at most 156 of the 256 bytes; for each substitution of Magma for at least 4 and at most 12 of the 16 values. All four numbers are reached.", "quantifier": "all masks; all blocks and bytes; all eight substitutions of Magma", "why_tests_cant": "The masks number 2^256, and each relation is one about all blocks; a wrong entry of a table or a wrong coefficient changes the counts without any vector showing it unless the vector uses that entry.", "anchors": ["gostcrypto/gostcipher/gost_34_12_2015.py:GOST34122015Kuznechik._cipher_l", "gostcrypto/gostcipher/gost_34_12_2015.py:GOST34122015Kuznechik._cipher_l_reverse", "gostcrypto/gostcipher/gost_34_12_2015.py:GOST34122015Kuznechik._cipher_s", "gostcrypto/gostcipher/gost_34_12_2015.py:GOST34122015Magma._cipher_t"]}
{"id": "C126", "title": "The last sixteen rounds of Magma undo themselves", "statement": "For every key of Magma: the ciphertext of a block b is the state of a block b' after the first sixteen steps of encrypt exactly if the ciphertext of b' is the state of b after sixteen steps. The ciphertext of b is its own state after sixteen steps exactly if the state after 24 steps has equal halves; there is one such block for each of the 2^32 words of four bytes, and no other. For a key whose eight words read the same in both directions, the blocks which encryption does not change are likewise one for each word of four bytes and no other.", "quantifier": "all keys of 32 bytes, all pairs of blocks of 8 bytes", "why_tests_cant": "The exceptional blocks are one in 2^32 and depend on the key; a test with random blocks does not meet them, and no test can show that there are no others.", "anchors": ["gostcrypto/gostcipher/gost_34_12_2015.py:GOST34122015Magma.encrypt", "gostcrypto/gostcipher/gost_34_12_2015.py:GOST34122015Magma._expand_iter_key", "gostcrypto/gostcipher/gost_34_12_2015.py:GOST34122015Magma._expand_iter_key_final", "gostcrypto/gostcipher/gost_34_12_2015.py:GOST34122015Magma._cipher_g_prev", "gostcrypto/gostcipher/gost_34_12_2015.py:GOST34122015Magma._cipher_g_fin"]}
{"id": "C127", "title": "Two parties which exchange messages stay in step", "statement": "Two objects of the same mode in the same state, with which two parties send each other any sequence of messages in any order (the sender encrypts, the receiver decrypts what the sender returned): every message is received, in CFB, OFB and CTR exactly as it was sent, in ECB and CBC with its padding, and after the exchange the two objects are in the same state again. No call raises.", "quantifier": "every state which an object can reach by any calls (also after clear), with a non-empty register; any number of messages of any lengths, also empty ones and ones which end within a block; both parties may send", "why_tests_cant": "The number of sequences is unbounded, and the states differ only in what earlier messages left behind: a register which the receiver updates in another way shows in a later message only.", "anchors": ["gostcrypto/gostcipher/gost_34_13_2015.py:GOST34132015cbc.encrypt", "gostcrypto/gostcipher/gost_34_13_2015.py:GOST34132015cbc.decrypt", "gostcrypto/gostcipher/gost_34_13_2015.py:GOST34132015cfb.encrypt", "gostcrypto/gostcipher/gost_34_13_2015.py:GOST34132015cfb.decrypt", "gostcrypto/gostcipher/gost_34_13_2015.py:GOST34132015ofb.decrypt", "gostcrypto/gostcipher/gost_34_13_2015.py:GOST34132015ctr.decrypt", "gostcrypto/gostcipher/gost_34_13_2015.py:GOST34132015ecb.decrypt"]}
{"id": "C128", "title": "Two results from one state show how far the inputs agree", "statement": "Two calls from the same state (encryption or decryption): in CFB, OFB and CTR the results agree in their first k bytes if and only if the two data agree in their first k bytes, and data cut after k bytes give the result cut after k bytes; in ECB and CBC the results agree in the first k whole blocks if and only if the data do. So a repeated initialisation vector shows the exact length of the common beginning, and no call looks ahead.", "quantifier": "every state which an object can reach (also after clear) with a non-empty register, both algorithms, every pair of inputs of any lengths, every k not above the shorter length", "why_tests_cant": "The statement is an equivalence over all pairs of inputs of unbounded length: a result which depended on later bytes in rare cases, or two different blocks with one result, would not be met by chance.", "anchors": ["gostcrypto/gostcipher/gost_34_13_2015.py:GOST34132015ecb.encrypt", "gostcrypto/gostcipher/gost_34_13_2015.py:GOST34132015cbc.encrypt", "gostcrypto/gostcipher/gost_34_13_2015.py:GOST34132015cbc.decrypt", "gostcrypto/gostcipher/gost_34_13_2015.py:GOST34132015cfb.encrypt", "gostcrypto/gostcipher/gost_34_13_2015.py:GOST34132015cfb.decrypt", "gostcrypto/gostcipher/gost_34_13_2015.py:GOST34132015ofb.encrypt", "gostcrypto/gostcipher/gost_34_13_2015.py:GOST34132015ctr.encrypt"]}
{"id": "C129", "title": "A collision of the MAC stays one whatever is appended", "statement": "For every key, two non-empty messages of whole blocks and every non-empty string of bytes: the two messages have the same MAC of full length if and only if the messages followed by that string have the same one. So it does not depend on the string whether they agree, and one pair with equal MACs gives forgeries for every continuation. Such pairs exist for every key: for blocks b, b' with the ciphertext blocks c, c' the messages b||d and b'||(d xor c xor c') have the same MAC for every block d, and with every continuation.", "quantifier": "both algorithms, every 32-byte key, all messages of whole blocks of any length, every continuation of any length (also one which ends within a block)", "why_tests_cant": "Colliding messages are not met by a test, and the equivalence is about all continuations.", "anchors": ["gostcrypto/gostcipher/gost_34_13_2015.py:GOST34132015mac.update", "gostcrypto/gostcipher/gost_34_13_2015.py:GOST34132015mac.digest", "gostcrypto/gostcipher/gost_34_13_2015.py:GOST34132015mac.mac_final", "gostcrypto/gostcipher/gost_34_13_2015.py:GOST34132015mac._set_pad_mode_3"]}
{"id": "C130", "title": "Cipher objects which pass each other their results influence each other in no other way", "statement": "A program makes any number of cipher objects of the modes ECB, CBC, CFB, OFB and CTR and calls their encrypt, decrypt and clear in any order. The arguments, including the keys and vectors of objects made later, are values which existed before or results of earlier calls of the same program; exceptions are caught. Run as it is written, the program shows after each step exactly what objects show which have no memory in common: a call changes no other object and no earlier result. Hence two objects with one key and vector exchange any sequence of messages in both directions and each message is received, and a key which one object has encrypted and another has decrypted serves as key for further objects on both sides.", "quantifier": "every program of this form of any length, every memory at the beginning, all algorithms, keys, vectors, paddings and arguments, accepted or rejected", "why_tests_cant": "the programs are unbounded in length and number of objects; an influence through a shared list or register would show only for a particular order of calls", "anchors": ["gostcrypto/gostcipher/gost_34_13_2015.py:new", "gostcrypto/gostcipher/gost_34_13_2015.py:GOST34132015ecb.encrypt", "gostcrypto/gostcipher/gost_34_13_2015.py:GOST34132015cbc.decrypt", "gostcrypto/gostcipher/gost_34_13_2015.py:GOST34132015cfb.encrypt", "gostcrypto/gostcipher/gost_34_13_2015.py:GOST34132015ofb.decrypt", "gostcrypto/gostcipher/gost_34_13_2015.py:GOST34132015ctr.encrypt", "gostcrypto/gostcipher/gost_34_13_2015.py:GOST34132015.clear"]}
{"id": "C131", "title": "Objects of all kinds which pass each other their results influence each other in no other way", "statement": "A program makes any number of objects of any kind (ciphers of all modes, MAC, hash functions, HMAC, key derivation, random number generators, signatures), copies hash and HMAC objects, and calls their methods (also mac_final, hash_final and get_hash) in any order. The arguments, including keys, vectors, data, passwords, salts, seeds and random numbers, also for objects made later, are values which existed before or results of earlier calls of the same program; exceptions are caught. No call asks the system for random bytes (an empty salt, seed or random number, or a reset of a generator without a seed, does). Run as it is written, the program shows after each step exactly what objects show which have no memory in common: no call changes another object, a copy and its original are independent, and no result is changed later. Hence a message which is encrypted with a key from a password, and whose ciphertext is authenticated with HMAC under a second key from the password, is read by whoever knows the password and the salts: the derived keys are those of PBKDF2, the reader computes the same HMAC and gets the message (with its padding in ECB and CBC). Likewise a message encrypted with a key from a generator is read by whoever has the seed: the generators give the same values whatever is called between. And a document signed with a random number from a generator gets the signature of the standard for that number, which a verifier with objects of their own accepts.", "quantifier": "every program of this form of any length, every memory at the beginning, all arguments, accepted or rejected; for the protected message all passwords of at most 64 bytes, all non-empty salts, iteration counts, modes and messages; for the generators all non-zero seeds of 48 bytes; for the signatures all curves of the table, all documents, and all private keys from 1 to q-1 but the key q-1 of 256-paramSetD", "why_tests_cant": "the programs are unbounded in length and number of objects; an influence through a shared register or hash object would show only for a particular order of calls", "anchors": ["gostcrypto/gostcipher/gost_34_13_2015.py:new", "gostcrypto/gostcipher/gost_34_13_2015.py:GOST34132015mac.update", "gostcrypto/gosthash/gost_34_11_2012.py:new", "gostcrypto/gosthash/gost_34_11_2012.py:GOST34112012.update", "gostcrypto/gosthash/gost_34_11_2012.py:GOST34112012.copy", "gostcrypto/gosthmac/r_50_1_113_2016.py:new", "gostcrypto/gosthmac/r_50_1_113_2016.py:R5011132016.update", "gostcrypto/gosthmac/r_50_1_113_2016.py:R5011132016.copy", "gostcrypto/gostpbkdf/r_50_1_111_2016.py:new", "gostcrypto/gostpbkdf/r_50_1_111_2016.py:R5011112016.derive", "gostcrypto/gostrandom/r_1323565_1_006_2017.py:new", "gostcrypto/gostrandom/r_1323565_1_006_2017.py:R132356510062017.random", "gostcrypto/gostsignature/gost_34_10_2012.py:GOST34102012.sign", "gostcrypto/gostsignature/gost_34_10_2012.py:GOST34102012.verify"]}
{"id": "C132", "title": "What is known about the random numbers of two signatures, as sign is written, gives away the private key", "statement": "Run as it is written, in any memory and for any object on a good curve, sign with an explicit random number returns nothing but the signature of the standard for it. Without one it returns nothing but the signature for the first of the numbers drawn from the system which is below q, and it returns this whenever the standard has a signature for that number. Hence: who knows the random number of one signature has the private key modulo q, (s - k*e)/r. Two signatures by the same key whose random numbers satisfy k' = u*k + t modulo q for known u and t give it away as (s'*e - u*s*e' - t*e*e')/(r'*e - u*r*e'), unless the divisor is zero. With the same random number for two digests which differ modulo q the signatures begin with the same r, and the key is (s'*e - s*e')/(r*(e - e')). This happens, for every curve of the table, when a program which takes the random number from a generator of the package is run twice with the same seed.", "quantifier": "all memories, objects, private keys, digests and random numbers for which the calls return; all numbers u and t; all curves of the table, documents and non-zero seeds of 48 bytes for the programs", "why_tests_cant": "a test signs with a few fixed numbers; that the formula yields the key for every signature is a statement about all of them", "anchors": ["gostcrypto/gostsignature/gost_34_10_2012.py:GOST34102012.sign", "gostcrypto/gostsignature/gost_34_10_2012.py:GOST34102012._mul_point", "gostcrypto/gostsignature/gost_34_10_2012.py:GOST34102012._set_e", "gostcrypto/gostrandom/r_1323565_1_006_2017.py:R132356510062017.random", "gostcrypto/gostrandom/r_1323565_1_006_2017.py:R132356510062017.__init__"]}
{"id": "C133", "title": "Signatures on whatever parameters are accepted", "statement": "On whatever parameters new accepts - p and q need not be primes, q need not be the order of the base point - what sign returns, as it is written, has twice the size of the mode in bytes; its halves are numbers r and s from 1 to q-1, the range which verify asks for, and s is r*d + k*e modulo q, where d is the private key, k the random number and e the digest modulo q, or 1 if that is 0. r depends on the parameters and the random number alone. Hence, if q is a prime, whoever knows the random number of one signature, or has two signatures with one random number and different e, computes the private key modulo q, whatever the curve is.", "quantifier": "all parameters which new accepts with 0 < p <= 2^512, all private keys, digests and random numbers, given or drawn from the system, for which the call returns, every state of memory", "why_tests_cant": "the parameters come from the caller; tests use the curves of the package, on which p and q are primes and the group law holds", "anchors": ["gostcrypto/gostsignature/gost_34_10_2012.py:new", "gostcrypto/gostsignature/gost_34_10_2012.py:GOST34102012.__init__", "gostcrypto/gostsignature/gost_34_10_2012.py:GOST34102012._check_q", "gostcrypto/gostsignature/gost_34_10_2012.py:GOST34102012.sign"]}
{"id": "C134", "title": "Base points with coordinates equal modulo p are treated alike", "statement": "Parameters which differ only by multiples of p in the coordinates of the base point describe the same curve and the same point. new accepts either all of them or none. The objects made from them compute the same public key from a private key, and each of them accepts the signatures it makes, with the public key which belongs to the private key on the curve.", "quantifier": "all modes, all parameters with p, x and y given, all multiples of p; all private keys, digests and random numbers", "why_tests_cant": "tests use the parameter sets of the table, whose coordinates are reduced; whether the check and the operations agree on the others is a statement about parameters no test has", "anchors": ["gostcrypto/gostsignature/gost_34_10_2012.py:GOST34102012.__init__", "gostcrypto/gostsignature/gost_34_10_2012.py:GOST34102012._check_x_y", "gostcrypto/gostsignature/gost_34_10_2012.py:GOST34102012._mul_point", "gostcrypto/gostsignature/gost_34_10_2012.py:GOST34102012.public_key_generate", "gostcrypto/gostsignature/gost_34_10_2012.py:GOST34102012.sign", "gostcrypto/gostsignature/gost_34_10_2012.py:GOST34102012.verify"]}
{"id": "C135", "title": "A public key can be written in more than one way", "statement": "verify does not ask that the coordinates of a public key are below p. On every curve whose parameters are as the standard requires, for the encoding of a point of order q and any other string of the same length whose halves are congruent to its halves modulo p, verify, as it is written, gives the same answers for both strings, for every digest and every signature with r + e different from q, where e is the digest modulo q, or 1 if that is 0; the halves are not 0. On a built-in curve there are two different strings with which verify accepts the same signature of the same digest.", "quantifier": "all such curves, points of order q, strings, digests and signatures", "why_tests_cant": "tests verify with keys made by public_key_generate, whose coordinates are reduced", "anchors": ["gostcrypto/gostsignature/gost_34_10_2012.py:GOST34102012.verify", "gostcrypto/gostsignature/gost_34_10_2012.py:GOST34102012._mul_point", "gostcrypto/gostsignature/gost_34_10_2012.py:GOST34102012._add", "gostcrypto/gostsignature/gost_34_10_2012.py:GOST34102012._invert"]}
