import Verif.Source.Syntax

/-! Written by `tools/gen_source.py` from /repo/gostcrypto/gostcipher/gost_34_13_2015.py. -/

namespace Gost.Src

/-- `MODE_ECB`, gost_34_13_2015.py 47-47. -/
def Modes.g_MODE_ECB : Val := .int 1

/-- `MODE_CBC`, gost_34_13_2015.py 48-48. -/
def Modes.g_MODE_CBC : Val := .int 2

/-- `MODE_CFB`, gost_34_13_2015.py 49-49. -/
def Modes.g_MODE_CFB : Val := .int 3

/-- `MODE_OFB`, gost_34_13_2015.py 50-50. -/
def Modes.g_MODE_OFB : Val := .int 5

/-- `MODE_CTR`, gost_34_13_2015.py 51-51. -/
def Modes.g_MODE_CTR : Val := .int 6

/-- `MODE_MAC`, gost_34_13_2015.py 52-52. -/
def Modes.g_MODE_MAC : Val := .int 255

/-- `PAD_MODE_1`, gost_34_13_2015.py 54-54. -/
def Modes.g_PAD_MODE_1 : Val := .int 2147483888

/-- `PAD_MODE_2`, gost_34_13_2015.py 55-55. -/
def Modes.g_PAD_MODE_2 : Val := .int 2147483889

/-- `_KEY_SIZE`, gost_34_13_2015.py 57-57. -/
def Modes.g_KEY_SIZE : Val := .int 32

/-- `_DEFAULT_IV_CTR_KUZNECHIK`, gost_34_13_2015.py 59-61. -/
def Modes.g_DEFAULT_IV_CTR_KUZNECHIK : Val := .bytes [18, 52, 86, 120, 144, 171, 206, 240]

/-- `_DEFAULT_IV_CTR_MAGMA`, gost_34_13_2015.py 63-65. -/
def Modes.g_DEFAULT_IV_CTR_MAGMA : Val := .bytes [18, 52, 86, 120]

/-- `_DEFAULT_IV_KUZNECHIK`, gost_34_13_2015.py 67-72. -/
def Modes.g_DEFAULT_IV_KUZNECHIK : Val := .bytes [18, 52, 86, 120, 144, 171, 206, 240, 161, 178,
    195, 212, 229, 240, 1, 18, 35, 52, 69, 86,
    103, 120, 137, 144, 18, 19, 20, 21, 22, 23, 24, 25]

/-- `_DEFAULT_IV_MAGMA`, gost_34_13_2015.py 74-77. -/
def Modes.g_DEFAULT_IV_MAGMA : Val := .bytes [18, 52, 86, 120, 144, 171, 205, 239, 35, 69, 103,
    137, 10, 188, 222, 241]

/-- `_DEFAULT_IV_CBC_MAGMA`, gost_34_13_2015.py 79-83. -/
def Modes.g_DEFAULT_IV_CBC_MAGMA : Val := .bytes [18, 52, 86, 120, 144, 171, 205, 239, 35, 69,
    103, 137, 10, 188, 222, 241, 52, 86, 120,
    144, 171, 205, 239, 18]

/-- `_B_64`, gost_34_13_2015.py 85-87. -/
def Modes.g_B_64 : Val := .bytes [0, 0, 0, 0, 0, 0, 0, 27]

/-- `_B_128`, gost_34_13_2015.py 89-92. -/
def Modes.g_B_128 : Val := .bytes [0, 0, 0, 0, 0, 0, 0, 0, 0, 0, 0, 0, 0, 0, 0, 135]

/-- `Modes.new`, gost_34_13_2015.py 109-186. -/
def Modes.f_new : FunDef where
  params := ["algorithm", "key", "mode", "kwargs"]
  defaults := []
  static := true
  body :=
    [.assign (.name "result") .none,
     .if_ (.cmp .eq (.name "mode") (.glob "Modes.MODE_ECB"))
        [.assign (.name "pad_mode") (.meth (.name "kwargs") "get" [.str "pad_mode", .glob
            "Modes.PAD_MODE_1"]),
         .assign (.name "result") (.new "GOST34132015ecb" [.name "algorithm", .name "key", .name
             "pad_mode"])]
        [.if_ (.cmp .eq (.name "mode") (.glob "Modes.MODE_CBC"))
            [.assign (.name "init_vect") (.meth (.name "kwargs") "get" [.str "init_vect", .glob
                "Modes._DEFAULT_IV_KUZNECHIK"]),
             .if_ (.cmp .eq (.name "algorithm") (.str "magma"))
                [.assign (.name "init_vect") (.meth (.name "kwargs") "get" [.str "init_vect",
                    .glob "Modes._DEFAULT_IV_CBC_MAGMA"])]
                [],
             .assign (.name "pad_mode") (.meth (.name "kwargs") "get" [.str "pad_mode", .glob
                 "Modes.PAD_MODE_1"]),
             .assign (.name "result") (.new "GOST34132015cbc" [.name "algorithm", .name "key",
                 .name "init_vect", .name "pad_mode"])]
            [.if_ (.cmp .eq (.name "mode") (.glob "Modes.MODE_CFB"))
                [.assign (.name "init_vect") (.meth (.name "kwargs") "get" [.str "init_vect",
                    .glob "Modes._DEFAULT_IV_KUZNECHIK"]),
                 .if_ (.cmp .eq (.name "algorithm") (.str "magma"))
                    [.assign (.name "init_vect") (.meth (.name "kwargs") "get" [.str "init_vect",
                        .glob "Modes._DEFAULT_IV_MAGMA"])]
                    [],
                 .assign (.name "result") (.new "GOST34132015cfb" [.name "algorithm", .name
                     "key", .name "init_vect"])]
                [.if_ (.cmp .eq (.name "mode") (.glob "Modes.MODE_OFB"))
                    [.assign (.name "init_vect") (.meth (.name "kwargs") "get" [.str "init_vect",
                        .glob "Modes._DEFAULT_IV_KUZNECHIK"]),
                     .if_ (.cmp .eq (.name "algorithm") (.str "magma"))
                        [.assign (.name "init_vect") (.meth (.name "kwargs") "get" [.str
                            "init_vect", .glob "Modes._DEFAULT_IV_MAGMA"])]
                        [],
                     .assign (.name "result") (.new "GOST34132015ofb" [.name "algorithm", .name
                         "key", .name "init_vect"])]
                    [.if_ (.cmp .eq (.name "mode") (.glob "Modes.MODE_CTR"))
                        [.assign (.name "init_vect") (.meth (.name "kwargs") "get" [.str
                            "init_vect", .glob "Modes._DEFAULT_IV_CTR_KUZNECHIK"]),
                         .if_ (.cmp .eq (.name "algorithm") (.str "magma"))
                            [.assign (.name "init_vect") (.meth (.name "kwargs") "get" [.str
                                "init_vect", .glob "Modes._DEFAULT_IV_CTR_MAGMA"])]
                            [],
                         .assign (.name "result") (.new "GOST34132015ctr" [.name "algorithm",
                             .name "key", .name "init_vect"])]
                        [.if_ (.cmp .eq (.name "mode") (.glob "Modes.MODE_MAC"))
                            [.assign (.name "data") (.meth (.name "kwargs") "get" [.str "data",
                                .builtin "bytearray" [.bytes []]]),
                             .assign (.name "result") (.new "GOST34132015mac" [.name "algorithm",
                                 .name "key", .name "data"])]
                            [.assign (.name "key") (.call "Utils.zero_fill" [.name "key"]),
                             .raise "GOSTCipherError"
                                 "GOSTCipherError: unsupported cipher mode"]]]]]],
     .ret (.name "result")]

/-- `GOST34132015.__init__`, gost_34_13_2015.py 212-238. -/
def GOST34132015.m___init__ : FunDef where
  params := ["self", "algorithm", "key"]
  defaults := []
  static := false
  body :=
    [.if_ (.cmp .notIn (.name "algorithm") (.tuple [.str "magma", .str "kuznechik"]))
        [.assign (.name "key") (.call "Utils.zero_fill" [.name "key"]),
         .raise "GOSTCipherError" "GOSTCipherError: unsupported cipher algorithm"]
        [],
     .if_ (.not (.call "Utils.check_value" [.name "key", .glob "Modes._KEY_SIZE"]))
        [.assign (.name "key") (.call "Utils.zero_fill" [.name "key"]),
         .raise "GOSTCipherError" "GOSTCipherError: invalid key value"]
        [],
     .if_ (.cmp .eq (.name "algorithm") (.str "kuznechik"))
        [.assign (.attr (.name "self") "_cipher_obj") (.new "GOST34122015Kuznechik" [.name
            "key"])]
        [.if_ (.cmp .eq (.name "algorithm") (.str "magma"))
            [.assign (.attr (.name "self") "_cipher_obj") (.new "GOST34122015Magma" [.name
                "key"])]
            []],
     .assign (.attr (.name "self") "oid") (.attr (.attr (.name "self") "_cipher_obj") "oid")]

/-- `GOST34132015.__del__`, gost_34_13_2015.py 240-247. -/
def GOST34132015.m___del__ : FunDef where
  params := ["self"]
  defaults := []
  static := false
  body :=
    [.expr (.meth (.name "self") "clear" [])]

/-- `GOST34132015._get_num_block`, gost_34_13_2015.py 249-250. -/
def GOST34132015.m__get_num_block : FunDef where
  params := ["self", "data"]
  defaults := []
  static := false
  body :=
    [.ret (.bin .floordiv (.builtin "len" [.name "data"]) (.attr (.name "self") "block_size"))]

/-- `GOST34132015._get_pad_size`, gost_34_13_2015.py 252-259. -/
def GOST34132015.m__get_pad_size : FunDef where
  params := ["self", "data"]
  defaults := []
  static := false
  body :=
    [.if_ (.cmp .lt (.builtin "len" [.name "data"]) (.attr (.name "self") "block_size"))
        [.assign (.name "result") (.bin .sub (.attr (.name "self") "block_size") (.builtin "len"
            [.name "data"]))]
        [.if_ (.cmp .eq (.bin .mod (.builtin "len" [.name "data"]) (.attr (.name "self")
            "block_size")) (.int 0))
            [.assign (.name "result") (.int 0)]
            [.assign (.name "result") (.bin .sub (.attr (.name "self") "block_size") (.bin .mod
                (.builtin "len" [.name "data"]) (.attr (.name "self") "block_size")))]],
     .ret (.name "result")]

/-- `GOST34132015._get_block`, gost_34_13_2015.py 261-264. -/
def GOST34132015.m__get_block : FunDef where
  params := ["self", "data", "count_block"]
  defaults := []
  static := false
  body :=
    [.assign (.name "begin_block") (.bin .mul (.attr (.name "self") "block_size") (.name
        "count_block")),
     .assign (.name "end_block") (.bin .add (.attr (.name "self") "block_size") (.bin .mul (.attr
         (.name "self") "block_size") (.name "count_block"))),
     .ret (.slice (.name "data") (some (.name "begin_block")) (some (.name "end_block")))]

/-- `GOST34132015.clear`, gost_34_13_2015.py 266-269. -/
def GOST34132015.m_clear : FunDef where
  params := ["self"]
  defaults := []
  static := false
  body :=
    [.if_ (.builtin "hasattr" [.name "self", .str "_cipher_obj"])
        [.expr (.meth (.attr (.name "self") "_cipher_obj") "clear" [])]
        []]

/-- `GOST34132015.block_size`, gost_34_13_2015.py 271-279. -/
def GOST34132015.m_block_size : FunDef where
  params := ["self"]
  defaults := []
  static := false
  body :=
    [.ret (.attr (.attr (.name "self") "_cipher_obj") "block_size")]

/-- `GOST34132015Cipher.encrypt`, gost_34_13_2015.py 301-319. -/
def GOST34132015Cipher.m_encrypt : FunDef where
  params := ["self", "data"]
  defaults := []
  static := false
  body :=
    [.if_ (.not (.builtin "isbytes" [.name "data"]))
        [.expr (.meth (.name "self") "clear" []),
         .raise "GOSTCipherError" "GOSTCipherError: invalid plaintext data"]
        [],
     .ret (.name "data")]

/-- `GOST34132015Cipher.decrypt`, gost_34_13_2015.py 321-339. -/
def GOST34132015Cipher.m_decrypt : FunDef where
  params := ["self", "data"]
  defaults := []
  static := false
  body :=
    [.if_ (.not (.builtin "isbytes" [.name "data"]))
        [.expr (.meth (.name "self") "clear" []),
         .raise "GOSTCipherError" "GOSTCipherError: invalid ciphertext data"]
        [],
     .ret (.name "data")]

/-- `GOST34132015CipherPadding.__init__`, gost_34_13_2015.py 361-374. -/
def GOST34132015CipherPadding.m___init__ : FunDef where
  params := ["self", "algorithm", "key", "pad_mode"]
  defaults := []
  static := false
  body :=
    [.expr (.call "GOST34132015.__init__" [.name "self", .name "algorithm", .name "key"]),
     .if_ (.cmp .notIn (.name "pad_mode") (.tuple [.glob "Modes.PAD_MODE_1", .glob
         "Modes.PAD_MODE_2"]))
        [.expr (.meth (.name "self") "clear" []),
         .raise "GOSTCipherError" "GOSTCipherError: invalid padding mode"]
        [],
     .assign (.attr (.name "self") "_pad_mode") (.name "pad_mode")]

/-- `GOST34132015CipherPadding._set_pad_mode_1`, gost_34_13_2015.py 376-377. -/
def GOST34132015CipherPadding.m__set_pad_mode_1 : FunDef where
  params := ["self", "data"]
  defaults := []
  static := false
  body :=
    [.ret (.bin .add (.name "data") (.bin .mul (.bytes [0]) (.meth (.name "self") "_get_pad_size"
        [.name "data"])))]

/-- `GOST34132015CipherPadding._set_pad_mode_2`, gost_34_13_2015.py 379-380. -/
def GOST34132015CipherPadding.m__set_pad_mode_2 : FunDef where
  params := ["self", "data"]
  defaults := []
  static := false
  body :=
    [.ret (.bin .add (.bin .add (.name "data") (.bytes [128])) (.bin .mul (.bytes [0]) (.bin .sub
        (.bin .add (.attr (.name "self") "block_size") (.meth (.name "self") "_get_pad_size"
        [.name "data"])) (.int 1))))]

/-- `GOST34132015CipherPadding._set_padding`, gost_34_13_2015.py 382-388. -/
def GOST34132015CipherPadding.m__set_padding : FunDef where
  params := ["self", "data", "pad_mode"]
  defaults := []
  static := false
  body :=
    [.assign (.name "result") (.name "data"),
     .if_ (.cmp .eq (.name "pad_mode") (.glob "Modes.PAD_MODE_1"))
        [.assign (.name "result") (.meth (.name "self") "_set_pad_mode_1" [.name "data"])]
        [.if_ (.cmp .eq (.name "pad_mode") (.glob "Modes.PAD_MODE_2"))
            [.assign (.name "result") (.meth (.name "self") "_set_pad_mode_2" [.name "data"])]
            []],
     .ret (.name "result")]

/-- `GOST34132015CipherPadding.encrypt`, gost_34_13_2015.py 390-406. -/
def GOST34132015CipherPadding.m_encrypt : FunDef where
  params := ["self", "data"]
  defaults := []
  static := false
  body :=
    [.assign (.name "data") (.meth (.name "self") "_set_padding" [.call
        "GOST34132015Cipher.encrypt" [.name "self", .name "data"], .attr (.name "self")
        "_pad_mode"]),
     .ret (.name "data")]

/-- `GOST34132015CipherPadding.decrypt`, gost_34_13_2015.py 408-424. -/
def GOST34132015CipherPadding.m_decrypt : FunDef where
  params := ["self", "data"]
  defaults := []
  static := false
  body :=
    [.assign (.name "data") (.call "GOST34132015Cipher.decrypt" [.name "self", .name "data"]),
     .ret (.name "data")]

/-- `GOST34132015CipherFeedBack.__init__`, gost_34_13_2015.py 448-463. -/
def GOST34132015CipherFeedBack.m___init__ : FunDef where
  params := ["self", "algorithm", "key", "init_vect"]
  defaults := []
  static := false
  body :=
    [.expr (.call "GOST34132015.__init__" [.name "self", .name "algorithm", .name "key"]),
     .assign (.name "check_init_vect") (.builtin "isbytes" [.name "init_vect"]),
     .if_ (.or (.not (.name "check_init_vect")) (.cmp .ne (.bin .mod (.builtin "len" [.name
         "init_vect"]) (.attr (.name "self") "block_size")) (.int 0)))
        [.expr (.meth (.name "self") "clear" []),
         .raise "GOSTCipherError" "GOSTCipherError: invalid initialization vector value"]
        [],
     .assign (.attr (.name "self") "_init_vect") (.name "init_vect"),
     .assign (.attr (.name "self") "_init_vect") (.builtin "bytearray" [.attr (.name "self")
         "_init_vect"])]

/-- `GOST34132015CipherFeedBack._get_gamma`, gost_34_13_2015.py 465-466. -/
def GOST34132015CipherFeedBack.m__get_gamma : FunDef where
  params := ["self"]
  defaults := []
  static := false
  body :=
    [.ret (.meth (.attr (.name "self") "_cipher_obj") "encrypt" [.slice (.attr (.name "self")
        "_init_vect") (some (.int 0)) (some (.attr (.name "self") "block_size"))])]

/-- `GOST34132015CipherFeedBack._set_init_vect`, gost_34_13_2015.py 468-473. -/
def GOST34132015CipherFeedBack.m__set_init_vect : FunDef where
  params := ["self", "data"]
  defaults := []
  static := false
  body :=
    [.assign (.name "iter_iv_hi") (.slice (.attr (.name "self") "_init_vect") (some (.attr (.name
        "self") "block_size")) (some (.builtin "len" [.attr (.name "self") "_init_vect"]))),
     .assign (.slice (.attr (.name "self") "_init_vect") (some (.int 0)) (some (.bin .sub
         (.builtin "len" [.attr (.name "self") "_init_vect"]) (.attr (.name "self")
         "block_size")))) (.name "iter_iv_hi"),
     .assign (.name "begin_iv_low") (.bin .sub (.builtin "len" [.attr (.name "self")
         "_init_vect"]) (.attr (.name "self") "block_size")),
     .assign (.name "end_iv_low") (.builtin "len" [.attr (.name "self") "_init_vect"]),
     .assign (.slice (.attr (.name "self") "_init_vect") (some (.name "begin_iv_low")) (some
         (.name "end_iv_low"))) (.name "data")]

/-- `GOST34132015CipherFeedBack._get_final_block`, gost_34_13_2015.py 475-476. -/
def GOST34132015CipherFeedBack.m__get_final_block : FunDef where
  params := ["self", "data"]
  defaults := []
  static := false
  body :=
    [.ret (.slice (.name "data") (some (.bin .mul (.attr (.name "self") "block_size") (.meth
        (.name "self") "_get_num_block" [.name "data"]))) none)]

/-- `GOST34132015CipherFeedBack._final_cipher`, gost_34_13_2015.py 478-481. -/
def GOST34132015CipherFeedBack.m__final_cipher : FunDef where
  params := ["self", "data"]
  defaults := []
  static := false
  body :=
    [.assign (.name "gamma") (.meth (.name "self") "_get_gamma" []),
     .assign (.name "cipher_block") (.meth (.name "self") "_get_final_block" [.name "data"]),
     .ret (.call "Utils.add_xor" [.name "gamma", .name "cipher_block"])]

/-- `GOST34132015CipherFeedBack.encrypt`, gost_34_13_2015.py 483-499. -/
def GOST34132015CipherFeedBack.m_encrypt : FunDef where
  params := ["self", "data"]
  defaults := []
  static := false
  body :=
    [.assign (.name "data") (.call "GOST34132015Cipher.encrypt" [.name "self", .name "data"]),
     .ret (.name "data")]

/-- `GOST34132015CipherFeedBack.decrypt`, gost_34_13_2015.py 501-517. -/
def GOST34132015CipherFeedBack.m_decrypt : FunDef where
  params := ["self", "data"]
  defaults := []
  static := false
  body :=
    [.assign (.name "data") (.call "GOST34132015Cipher.decrypt" [.name "self", .name "data"]),
     .ret (.name "data")]

/-- `GOST34132015CipherFeedBack.iv`, gost_34_13_2015.py 520-523. -/
def GOST34132015CipherFeedBack.m_iv : FunDef where
  params := ["self"]
  defaults := []
  static := false
  body :=
    [.ret (.slice (.attr (.name "self") "_init_vect") (some (.bin .sub (.builtin "len" [.attr
        (.name "self") "_init_vect"]) (.attr (.name "self") "block_size"))) none)]

/-- `GOST34132015ecb.encrypt`, gost_34_13_2015.py 545-563. -/
def GOST34132015ecb.m_encrypt : FunDef where
  params := ["self", "data"]
  defaults := []
  static := false
  body :=
    [.assign (.name "result") (.builtin "bytearray" []),
     .assign (.name "data") (.call "GOST34132015CipherPadding.encrypt" [.name "self", .name
         "data"]),
     .for_ "i" (.builtin "range" [.meth (.name "self") "_get_num_block" [.name "data"]])
        [.assign (.name "result") (.bin .add (.name "result") (.meth (.attr (.name "self")
            "_cipher_obj") "encrypt" [.meth (.name "self") "_get_block" [.name "data", .name
            "i"]]))],
     .ret (.name "result")]

/-- `GOST34132015ecb.decrypt`, gost_34_13_2015.py 565-583. -/
def GOST34132015ecb.m_decrypt : FunDef where
  params := ["self", "data"]
  defaults := []
  static := false
  body :=
    [.assign (.name "result") (.builtin "bytearray" []),
     .assign (.name "data") (.call "GOST34132015CipherPadding.decrypt" [.name "self", .name
         "data"]),
     .for_ "i" (.builtin "range" [.meth (.name "self") "_get_num_block" [.name "data"]])
        [.assign (.name "result") (.bin .add (.name "result") (.meth (.attr (.name "self")
            "_cipher_obj") "decrypt" [.meth (.name "self") "_get_block" [.name "data", .name
            "i"]]))],
     .ret (.name "result")]

/-- `GOST34132015cbc.__init__`, gost_34_13_2015.py 606-618. -/
def GOST34132015cbc.m___init__ : FunDef where
  params := ["self", "algorithm", "key", "init_vect", "pad_mode"]
  defaults := []
  static := false
  body :=
    [.expr (.call "GOST34132015CipherPadding.__init__" [.name "self", .name "algorithm", .name
        "key", .name "pad_mode"]),
     .expr (.call "GOST34132015CipherFeedBack.__init__" [.name "self", .name "algorithm", .name
         "key", .name "init_vect"])]

/-- `GOST34132015cbc.encrypt`, gost_34_13_2015.py 620-641. -/
def GOST34132015cbc.m_encrypt : FunDef where
  params := ["self", "data"]
  defaults := []
  static := false
  body :=
    [.assign (.name "result") (.builtin "bytearray" []),
     .assign (.name "data") (.call "GOST34132015CipherPadding.encrypt" [.name "self", .name
         "data"]),
     .for_ "i" (.builtin "range" [.meth (.name "self") "_get_num_block" [.name "data"]])
        [.assign (.name "internal") (.call "Utils.add_xor" [.slice (.attr (.name "self")
            "_init_vect") (some (.int 0)) (some (.attr (.name "self") "block_size")), .meth
            (.name "self") "_get_block" [.name "data", .name "i"]]),
         .assign (.name "cipher_block") (.meth (.attr (.name "self") "_cipher_obj") "encrypt"
             [.name "internal"]),
         .assign (.name "result") (.bin .add (.name "result") (.name "cipher_block")),
         .expr (.meth (.name "self") "_set_init_vect" [.slice (.name "cipher_block") (some (.int
             0)) (some (.attr (.name "self") "block_size"))])],
     .ret (.name "result")]

/-- `GOST34132015cbc.decrypt`, gost_34_13_2015.py 643-664. -/
def GOST34132015cbc.m_decrypt : FunDef where
  params := ["self", "data"]
  defaults := []
  static := false
  body :=
    [.assign (.name "result") (.builtin "bytearray" []),
     .assign (.name "data") (.call "GOST34132015CipherPadding.decrypt" [.name "self", .name
         "data"]),
     .for_ "i" (.builtin "range" [.meth (.name "self") "_get_num_block" [.name "data"]])
        [.assign (.name "internal") (.meth (.attr (.name "self") "_cipher_obj") "decrypt" [.meth
            (.name "self") "_get_block" [.name "data", .name "i"]]),
         .assign (.name "cipher_block") (.call "Utils.add_xor" [.slice (.attr (.name "self")
             "_init_vect") (some (.int 0)) (some (.attr (.name "self") "block_size")), .name
             "internal"]),
         .assign (.name "result") (.bin .add (.name "result") (.name "cipher_block")),
         .expr (.meth (.name "self") "_set_init_vect" [.meth (.name "self") "_get_block" [.name
             "data", .name "i"]])],
     .ret (.name "result")]

/-- `GOST34132015cfb.encrypt`, gost_34_13_2015.py 686-710. -/
def GOST34132015cfb.m_encrypt : FunDef where
  params := ["self", "data"]
  defaults := []
  static := false
  body :=
    [.assign (.name "result") (.builtin "bytearray" []),
     .assign (.name "gamma") (.builtin "bytearray" []),
     .assign (.name "data") (.call "GOST34132015CipherFeedBack.encrypt" [.name "self", .name
         "data"]),
     .for_ "i" (.builtin "range" [.meth (.name "self") "_get_num_block" [.name "data"]])
        [.assign (.name "gamma") (.meth (.name "self") "_get_gamma" []),
         .assign (.name "cipher_block") (.call "Utils.add_xor" [.name "gamma", .meth (.name
             "self") "_get_block" [.name "data", .name "i"]]),
         .assign (.name "result") (.bin .add (.name "result") (.name "cipher_block")),
         .expr (.meth (.name "self") "_set_init_vect" [.slice (.name "cipher_block") (some (.int
             0)) (some (.attr (.name "self") "block_size"))])],
     .if_ (.cmp .ne (.bin .mod (.builtin "len" [.name "data"]) (.attr (.name "self")
         "block_size")) (.int 0))
        [.assign (.name "result") (.bin .add (.name "result") (.meth (.name "self")
            "_final_cipher" [.name "data"]))]
        [],
     .ret (.name "result")]

/-- `GOST34132015cfb.decrypt`, gost_34_13_2015.py 712-736. -/
def GOST34132015cfb.m_decrypt : FunDef where
  params := ["self", "data"]
  defaults := []
  static := false
  body :=
    [.assign (.name "result") (.builtin "bytearray" []),
     .assign (.name "gamma") (.builtin "bytearray" []),
     .assign (.name "data") (.call "GOST34132015CipherFeedBack.decrypt" [.name "self", .name
         "data"]),
     .for_ "i" (.builtin "range" [.meth (.name "self") "_get_num_block" [.name "data"]])
        [.assign (.name "gamma") (.meth (.name "self") "_get_gamma" []),
         .assign (.name "cipher_block") (.meth (.name "self") "_get_block" [.name "data", .name
             "i"]),
         .assign (.name "result") (.bin .add (.name "result") (.call "Utils.add_xor" [.name
             "gamma", .name "cipher_block"])),
         .expr (.meth (.name "self") "_set_init_vect" [.name "cipher_block"])],
     .if_ (.cmp .ne (.bin .mod (.builtin "len" [.name "data"]) (.attr (.name "self")
         "block_size")) (.int 0))
        [.assign (.name "result") (.bin .add (.name "result") (.meth (.name "self")
            "_final_cipher" [.name "data"]))]
        [],
     .ret (.name "result")]

/-- `GOST34132015ofb.encrypt`, gost_34_13_2015.py 758-782. -/
def GOST34132015ofb.m_encrypt : FunDef where
  params := ["self", "data"]
  defaults := []
  static := false
  body :=
    [.assign (.name "result") (.builtin "bytearray" []),
     .assign (.name "gamma") (.builtin "bytearray" []),
     .assign (.name "data") (.call "GOST34132015CipherFeedBack.encrypt" [.name "self", .name
         "data"]),
     .for_ "i" (.builtin "range" [.meth (.name "self") "_get_num_block" [.name "data"]])
        [.assign (.name "gamma") (.meth (.name "self") "_get_gamma" []),
         .assign (.name "cipher_block") (.meth (.name "self") "_get_block" [.name "data", .name
             "i"]),
         .assign (.name "result") (.bin .add (.name "result") (.call "Utils.add_xor" [.name
             "gamma", .name "cipher_block"])),
         .expr (.meth (.name "self") "_set_init_vect" [.slice (.name "gamma") (some (.int 0))
             (some (.attr (.name "self") "block_size"))])],
     .if_ (.cmp .ne (.bin .mod (.builtin "len" [.name "data"]) (.attr (.name "self")
         "block_size")) (.int 0))
        [.assign (.name "result") (.bin .add (.name "result") (.meth (.name "self")
            "_final_cipher" [.name "data"]))]
        [],
     .ret (.name "result")]

/-- `GOST34132015ofb.decrypt`, gost_34_13_2015.py 784-799. -/
def GOST34132015ofb.m_decrypt : FunDef where
  params := ["self", "data"]
  defaults := []
  static := false
  body :=
    [.expr (.call "GOST34132015CipherFeedBack.decrypt" [.name "self", .name "data"]),
     .ret (.meth (.name "self") "encrypt" [.name "data"])]

/-- `GOST34132015ctr.__init__`, gost_34_13_2015.py 821-839. -/
def GOST34132015ctr.m___init__ : FunDef where
  params := ["self", "algorithm", "key", "init_vect"]
  defaults := []
  static := false
  body :=
    [.expr (.call "GOST34132015.__init__" [.name "self", .name "algorithm", .name "key"]),
     .assign (.name "check_init_vect") (.builtin "isbytes" [.name "init_vect"]),
     .if_ (.or (.not (.name "check_init_vect")) (.cmp .ne (.builtin "len" [.name "init_vect"])
         (.bin .floordiv (.attr (.name "self") "block_size") (.int 2))))
        [.expr (.meth (.name "self") "clear" []),
         .raise "GOSTCipherError" "GOSTCipherError: invalid initialization vector value"]
        [],
     .assign (.attr (.name "self") "_init_vect") (.name "init_vect"),
     .assign (.attr (.name "self") "_init_vect") (.builtin "bytearray" [.attr (.name "self")
         "_init_vect"]),
     .assign (.attr (.name "self") "_counter") (.bin .add (.name "init_vect") (.bin .mul (.bytes
         [0]) (.bin .floordiv (.attr (.name "self") "block_size") (.int 2)))),
     .assign (.attr (.name "self") "_counter") (.builtin "bytearray" [.attr (.name "self")
         "_counter"])]

/-- `GOST34132015ctr._inc_ctr`, gost_34_13_2015.py 841-848. -/
def GOST34132015ctr.m__inc_ctr : FunDef where
  params := ["self", "ctr"]
  defaults := []
  static := false
  body :=
    [.assign (.name "internal") (.int 0),
     .assign (.name "bit") (.builtin "bytearray" [.attr (.name "self") "block_size"]),
     .assign (.index (.name "bit") (.bin .sub (.attr (.name "self") "block_size") (.int 1)))
         (.int 1),
     .for_ "i" (.builtin "range" [.attr (.name "self") "block_size"])
        [.assign (.name "internal") (.bin .add (.bin .add (.index (.name "ctr") (.name "i"))
            (.index (.name "bit") (.name "i"))) (.bin .shl (.name "internal") (.int 8))),
         .assign (.index (.name "ctr") (.name "i")) (.bin .band (.name "internal") (.int 255))],
     .ret (.name "ctr")]

/-- `GOST34132015ctr.counter`, gost_34_13_2015.py 850-853. -/
def GOST34132015ctr.m_counter : FunDef where
  params := ["self"]
  defaults := []
  static := false
  body :=
    [.ret (.attr (.name "self") "_counter")]

/-- `GOST34132015ctr.encrypt`, gost_34_13_2015.py 855-882. -/
def GOST34132015ctr.m_encrypt : FunDef where
  params := ["self", "data"]
  defaults := []
  static := false
  body :=
    [.assign (.name "result") (.builtin "bytearray" []),
     .assign (.name "gamma") (.builtin "bytearray" []),
     .assign (.name "data") (.call "GOST34132015Cipher.encrypt" [.name "self", .name "data"]),
     .for_ "i" (.builtin "range" [.meth (.name "self") "_get_num_block" [.name "data"]])
        [.assign (.name "gamma") (.meth (.attr (.name "self") "_cipher_obj") "encrypt" [.attr
            (.name "self") "_counter"]),
         .assign (.attr (.name "self") "_counter") (.meth (.name "self") "_inc_ctr" [.attr (.name
             "self") "_counter"]),
         .assign (.name "result") (.bin .add (.name "result") (.call "Utils.add_xor" [.meth
             (.name "self") "_get_block" [.name "data", .name "i"], .name "gamma"]))],
     .if_ (.cmp .ne (.bin .mod (.builtin "len" [.name "data"]) (.attr (.name "self")
         "block_size")) (.int 0))
        [.assign (.name "gamma") (.meth (.attr (.name "self") "_cipher_obj") "encrypt" [.attr
            (.name "self") "_counter"]),
         .assign (.attr (.name "self") "_counter") (.meth (.name "self") "_inc_ctr" [.attr (.name
             "self") "_counter"]),
         .assign (.name "result") (.bin .add (.name "result") (.call "Utils.add_xor" [.slice
             (.name "data") (some (.bin .mul (.attr (.name "self") "block_size") (.meth (.name
             "self") "_get_num_block" [.name "data"]))) none, .name "gamma"]))]
        [],
     .ret (.name "result")]

/-- `GOST34132015ctr.decrypt`, gost_34_13_2015.py 884-899. -/
def GOST34132015ctr.m_decrypt : FunDef where
  params := ["self", "data"]
  defaults := []
  static := false
  body :=
    [.assign (.name "data") (.call "GOST34132015Cipher.decrypt" [.name "self", .name "data"]),
     .ret (.meth (.name "self") "encrypt" [.name "data"])]

/-- `GOST34132015mac.__init__`, gost_34_13_2015.py 923-940. -/
def GOST34132015mac.m___init__ : FunDef where
  params := ["self", "algorithm", "key", "data"]
  defaults := []
  static := false
  body :=
    [.expr (.call "GOST34132015.__init__" [.name "self", .name "algorithm", .name "key"]),
     .assign (.name "value_r") (.meth (.attr (.name "self") "_cipher_obj") "encrypt" [.builtin
         "bytearray" [.bin .mul (.attr (.attr (.name "self") "_cipher_obj") "block_size") (.bytes
         [0])]]),
     .assign (.attrs [(.name "self", "_key_1"), (.name "self", "_key_2")]) (.meth (.name "self")
         "_get_mac_key" [.name "value_r"]),
     .assign (.attr (.name "self") "_fin_buff") (.builtin "bytearray" []),
     .assign (.attr (.name "self") "_iter_buf") (.builtin "bytearray" []),
     .assign (.attr (.name "self") "_prev_mac") (.builtin "bytearray" [.attr (.attr (.name
         "self") "_cipher_obj") "block_size"]),
     .assign (.attr (.name "self") "_cur_mac") (.builtin "bytearray" [.attr (.attr (.name "self")
         "_cipher_obj") "block_size"]),
     .if_ (.cmp .ne (.name "data") (.builtin "bytearray" [.bytes []]))
        [.expr (.meth (.name "self") "update" [.name "data"])]
        []]

/-- `GOST34132015mac._set_pad_mode_3`, gost_34_13_2015.py 942-947. -/
def GOST34132015mac.m__set_pad_mode_3 : FunDef where
  params := ["self", "data"]
  defaults := []
  static := false
  body :=
    [.if_ (.cmp .eq (.meth (.name "self") "_get_pad_size" [.name "data"]) (.int 0))
        [.assign (.name "result") (.name "data")]
        [.assign (.name "result") (.bin .add (.bin .add (.name "data") (.bytes [128])) (.bin .mul
            (.bytes [0]) (.bin .sub (.meth (.name "self") "_get_pad_size" [.name "data"]) (.int
            1))))],
     .ret (.name "result")]

/-- `GOST34132015mac._get_mac_key`, gost_34_13_2015.py 949-967. -/
def GOST34132015mac.m__get_mac_key : FunDef where
  params := ["self", "value_r"]
  defaults := []
  static := false
  body :=
    [.assign (.name "value_b") (.bytes []),
     .if_ (.cmp .eq (.attr (.name "self") "block_size") (.int 16))
        [.assign (.name "value_b") (.glob "Modes._B_128")]
        [.if_ (.cmp .eq (.attr (.name "self") "block_size") (.int 8))
            [.assign (.name "value_b") (.glob "Modes._B_64")]
            []],
     .if_ (.cmp .eq (.call "Utils.msb" [.name "value_r"]) (.int 0))
        [.assign (.name "int_value") (.bin .shl (.call "Utils.bytearray_to_int" [.name
            "value_r"]) (.int 1)),
         .assign (.name "key_1") (.call "Utils.int_to_bytearray" [.name "int_value", .attr (.name
             "self") "block_size"])]
        [.assign (.name "int_value") (.bin .shl (.call "Utils.bytearray_to_int" [.name
            "value_r"]) (.int 1)),
         .assign (.name "key_1") (.call "Utils.add_xor" [.call "Utils.int_to_bytearray" [.name
             "int_value", .attr (.name "self") "block_size"], .name "value_b"])],
     .if_ (.cmp .eq (.call "Utils.msb" [.name "key_1"]) (.int 0))
        [.assign (.name "int_value") (.bin .shl (.call "Utils.bytearray_to_int" [.name "key_1"])
            (.int 1)),
         .assign (.name "key_2") (.call "Utils.int_to_bytearray" [.name "int_value", .attr (.name
             "self") "block_size"])]
        [.assign (.name "int_value") (.bin .shl (.call "Utils.bytearray_to_int" [.name "key_1"])
            (.int 1)),
         .assign (.name "key_2") (.call "Utils.add_xor" [.call "Utils.int_to_bytearray" [.name
             "int_value", .attr (.name "self") "block_size"], .name "value_b"])],
     .ret (.list [.name "key_1", .name "key_2"])]

/-- `GOST34132015mac.update`, gost_34_13_2015.py 969-1012. -/
def GOST34132015mac.m_update : FunDef where
  params := ["self", "data"]
  defaults := []
  static := false
  body :=
    [.if_ (.not (.builtin "isbytes" [.name "data"]))
        [.expr (.meth (.name "self") "clear" []),
         .raise "GOSTCipherError" "GOSTCipherError: invalid text data"]
        [],
     .assign (.name "data") (.bin .add (.attr (.name "self") "_iter_buf") (.name "data")),
     .assign (.name "block") (.builtin "bytearray" []),
     .assign (.name "prev_block") (.attr (.name "self") "_cur_mac"),
     .for_ "i" (.builtin "range" [.int 0, .bin .sub (.meth (.name "self") "_get_num_block" [.name
         "data"]) (.int 1)])
        [.assign (.name "block") (.meth (.attr (.name "self") "_cipher_obj") "encrypt" [.call
            "Utils.add_xor" [.name "prev_block", .meth (.name "self") "_get_block" [.name "data",
            .name "i"]]]),
         .assign (.name "prev_block") (.name "block")],
     .if_ (.cmp .eq (.meth (.name "self") "_get_pad_size" [.name "data"]) (.int 0))
        [.assign (.name "block") (.meth (.attr (.name "self") "_cipher_obj") "encrypt" [.call
            "Utils.add_xor" [.name "prev_block", .slice (.name "data") (some (.bin .sub (.builtin
            "len" [.name "data"]) (.attr (.name "self") "block_size"))) (some (.builtin "len"
            [.name "data"]))]]),
         .assign (.attr (.name "self") "_cur_mac") (.name "block"),
         .assign (.attr (.name "self") "_prev_mac") (.name "prev_block"),
         .assign (.attr (.name "self") "_iter_buf") (.builtin "bytearray" [.bytes []])]
        [.assign (.name "begin_data") (.bin .add (.bin .sub (.builtin "len" [.name "data"]) (.bin
            .mul (.int 2) (.attr (.name "self") "block_size"))) (.meth (.name "self")
            "_get_pad_size" [.name "data"])),
         .assign (.name "end_data") (.bin .add (.bin .sub (.builtin "len" [.name "data"]) (.attr
             (.name "self") "block_size")) (.meth (.name "self") "_get_pad_size" [.name "data"])),
         .assign (.name "block") (.meth (.attr (.name "self") "_cipher_obj") "encrypt" [.call
             "Utils.add_xor" [.name "prev_block", .slice (.name "data") (some (.name
             "begin_data")) (some (.name "end_data"))]]),
         .assign (.attr (.name "self") "_cur_mac") (.name "block"),
         .assign (.attr (.name "self") "_prev_mac") (.name "block"),
         .assign (.attr (.name "self") "_iter_buf") (.slice (.name "data") (some (.bin .add (.bin
             .sub (.builtin "len" [.name "data"]) (.attr (.name "self") "block_size")) (.meth
             (.name "self") "_get_pad_size" [.name "data"]))) none)],
     .assign (.attr (.name "self") "_fin_buff") (.slice (.name "data") (some (.bin .mul (.attr
         (.name "self") "block_size") (.bin .sub (.meth (.name "self") "_get_num_block" [.name
         "data"]) (.int 1)))) none)]

/-- `GOST34132015mac.mac_final`, gost_34_13_2015.py 1014-1025. -/
def GOST34132015mac.m_mac_final : FunDef where
  params := ["self"]
  defaults := []
  static := false
  body :=
    [.if_ (.cmp .eq (.meth (.name "self") "_get_pad_size" [.attr (.name "self") "_fin_buff"])
        (.int 0))
        [.assign (.name "final_key") (.attr (.name "self") "_key_1")]
        [.assign (.name "final_key") (.attr (.name "self") "_key_2"),
         .assign (.attr (.name "self") "_fin_buff") (.meth (.name "self") "_set_pad_mode_3"
             [.slice (.attr (.name "self") "_fin_buff") (some (.attr (.name "self")
             "block_size")) none])],
     .assign (.name "result") (.builtin "bytearray" []),
     .assign (.name "result") (.meth (.attr (.name "self") "_cipher_obj") "encrypt" [.call
         "Utils.add_xor" [.call "Utils.add_xor" [.attr (.name "self") "_fin_buff", .attr (.name
         "self") "_prev_mac"], .name "final_key"]]),
     .ret (.name "result")]

/-- `GOST34132015mac.digest`, gost_34_13_2015.py 1027-1050. -/
def GOST34132015mac.m_digest : FunDef where
  params := ["self", "mac_size"]
  defaults := []
  static := false
  body :=
    [.assign (.name "temp") (.builtin "deepcopy" [.name "self"]),
     .if_ (.cmp .gt (.name "mac_size") (.attr (.name "temp") "block_size"))
        [.expr (.meth (.name "temp") "clear" []),
         .raise "GOSTCipherError" "GOSTCipherError: invalid message authentication code size"]
        [],
     .ret (.slice (.meth (.name "temp") "mac_final" []) (some (.int 0)) (some (.name
         "mac_size")))]

/-- `GOST34132015mac.hexdigest`, gost_34_13_2015.py 1052-1072. -/
def GOST34132015mac.m_hexdigest : FunDef where
  params := ["self", "mac_size"]
  defaults := []
  static := false
  body :=
    [.ret (.meth (.meth (.name "self") "digest" [.name "mac_size"]) "hex" [])]

end Gost.Src
