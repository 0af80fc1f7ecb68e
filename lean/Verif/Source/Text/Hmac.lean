import Verif.Source.Syntax

/-! Written by `tools/gen_source.py` from /repo/gostcrypto/gosthmac/r_50_1_113_2016.py. -/

namespace Gost.Src

/-- `_KEY_SIZE`, r_50_1_113_2016.py 24-24. -/
def Hmac.g_KEY_SIZE : Val := .int 64

/-- `_I_PAD`, r_50_1_113_2016.py 26-35. -/
def Hmac.g_I_PAD : Val := .bytes [54, 54, 54, 54, 54, 54, 54, 54, 54, 54, 54, 54, 54, 54, 54, 54,
    54, 54, 54, 54, 54, 54,
    54, 54, 54, 54, 54, 54, 54, 54, 54, 54, 54, 54, 54, 54, 54, 54, 54, 54, 54, 54, 54, 54, 54,
    54, 54, 54, 54, 54, 54, 54, 54, 54, 54, 54, 54, 54, 54, 54, 54, 54, 54, 54]

/-- `_O_PAD`, r_50_1_113_2016.py 37-46. -/
def Hmac.g_O_PAD : Val := .bytes [92, 92, 92, 92, 92, 92, 92, 92, 92, 92, 92, 92, 92, 92, 92, 92,
    92, 92, 92, 92, 92, 92,
    92, 92, 92, 92, 92, 92, 92, 92, 92, 92, 92, 92, 92, 92, 92, 92, 92, 92, 92, 92, 92, 92, 92,
    92, 92, 92, 92, 92, 92, 92, 92, 92, 92, 92, 92, 92, 92, 92, 92, 92, 92, 92]

/-- `Hmac.new`, r_50_1_113_2016.py 49-76. -/
def Hmac.f_new : FunDef where
  params := ["name", "key", "kwargs"]
  defaults := []
  static := true
  body :=
    [.assign (.name "data") (.meth (.name "kwargs") "get" [.str "data", .builtin "bytearray"
        [.bytes []]]),
     .ret (.new "R5011132016" [.name "name", .name "key", .name "data"])]

/-- `R5011132016.__init__`, r_50_1_113_2016.py 106-135. -/
def R5011132016.m___init__ : FunDef where
  params := ["self", "name", "key", "data"]
  defaults := []
  static := false
  body :=
    [.if_ (.cmp .notIn (.name "name") (.tuple [.str "HMAC_GOSTR3411_2012_256", .str
        "HMAC_GOSTR3411_2012_512"]))
        [.raise "GOSTHMACError" "GOSTHMACError: unsupported mode"]
        [],
     .if_ (.or (.not (.builtin "isbytes" [.name "key"])) (.cmp .gt (.builtin "len" [.name "key"])
         (.glob "Hmac._KEY_SIZE")))
        [.raise "GOSTHMACError" "GOSTHMACError: invalid key value"]
        [],
     .if_ (.cmp .lt (.builtin "len" [.name "key"]) (.glob "Hmac._KEY_SIZE"))
        [.assign (.name "add") (.builtin "bytearray" [.bin .sub (.glob "Hmac._KEY_SIZE")
            (.builtin "len" [.name "key"])]),
         .assign (.attr (.name "self") "_key") (.bin .add (.name "key") (.name "add")),
         .assign (.attr (.name "self") "_key") (.builtin "bytearray" [.attr (.name "self")
             "_key"])]
        [.if_ (.cmp .eq (.builtin "len" [.name "key"]) (.glob "Hmac._KEY_SIZE"))
            [.assign (.attr (.name "self") "_key") (.name "key")]
            []],
     .assign (.name "key") (.builtin "bytearray" [.builtin "len" [.name "key"]]),
     .if_ (.cmp .eq (.name "name") (.str "HMAC_GOSTR3411_2012_256"))
        [.assign (.attr (.name "self") "oid") (.new "ObjectIdentifier" [.str
            "1.2.643.7.1.1.4.1"]),
         .assign (.attr (.name "self") "_hasher_obj") (.new "GOST34112012" [.str "streebog256",
             .builtin "bytearray" [.bytes []]])]
        [.if_ (.cmp .eq (.name "name") (.str "HMAC_GOSTR3411_2012_512"))
            [.assign (.attr (.name "self") "oid") (.new "ObjectIdentifier" [.str
                "1.2.643.7.1.1.4.2"]),
             .assign (.attr (.name "self") "_hasher_obj") (.new "GOST34112012" [.str
                 "streebog512", .builtin "bytearray" [.bytes []]])]
            []],
     .assign (.attr (.name "self") "_counter") (.int 0),
     .if_ (.cmp .ne (.name "data") (.builtin "bytearray" [.bytes []]))
        [.expr (.meth (.name "self") "update" [.name "data"])]
        []]

/-- `R5011132016.__del__`, r_50_1_113_2016.py 137-145. -/
def R5011132016.m___del__ : FunDef where
  params := ["self"]
  defaults := []
  static := false
  body :=
    [.if_ (.builtin "hasattr" [.name "self", .str "_hasher_obj"])
        [.expr (.meth (.name "self") "clear" [])]
        []]

/-- `R5011132016.update`, r_50_1_113_2016.py 147-167. -/
def R5011132016.m_update : FunDef where
  params := ["self", "data"]
  defaults := []
  static := false
  body :=
    [.if_ (.not (.builtin "isbytes" [.name "data"]))
        [.raise "GOSTHMACError" "GOSTHMACError: invalid data value"]
        [],
     .assign (.attr (.name "self") "_counter") (.bin .add (.attr (.name "self") "_counter") (.int
         1)),
     .if_ (.cmp .eq (.attr (.name "self") "_counter") (.int 1))
        [.expr (.meth (.attr (.name "self") "_hasher_obj") "update" [.bin .add (.call
            "Utils.add_xor" [.attr (.name "self") "_key", .glob "Hmac._I_PAD"]) (.name "data")])]
        [.if_ (.cmp .ne (.attr (.name "self") "_counter") (.int 1))
            [.expr (.meth (.attr (.name "self") "_hasher_obj") "update" [.name "data"])]
            []]]

/-- `R5011132016.digest`, r_50_1_113_2016.py 169-182. -/
def R5011132016.m_digest : FunDef where
  params := ["self"]
  defaults := []
  static := false
  body :=
    [.assign (.name "fin_hasher_obj") (.new "GOST34112012" [.attr (.attr (.name "self")
        "_hasher_obj") "name", .builtin "bytearray" [.bytes []]]),
     .expr (.meth (.name "fin_hasher_obj") "update" [.bin .add (.call "Utils.add_xor" [.attr
         (.name "self") "_key", .glob "Hmac._O_PAD"]) (.meth (.attr (.name "self") "_hasher_obj")
         "digest" [])]),
     .assign (.name "result") (.meth (.name "fin_hasher_obj") "digest" []),
     .expr (.meth (.name "fin_hasher_obj") "reset" []),
     .ret (.name "result")]

/-- `R5011132016.hexdigest`, r_50_1_113_2016.py 184-193. -/
def R5011132016.m_hexdigest : FunDef where
  params := ["self"]
  defaults := []
  static := false
  body :=
    [.ret (.meth (.meth (.name "self") "digest" []) "hex" [])]

/-- `R5011132016.copy`, r_50_1_113_2016.py 195-202. -/
def R5011132016.m_copy : FunDef where
  params := ["self"]
  defaults := []
  static := false
  body :=
    [.ret (.builtin "deepcopy" [.name "self"])]

/-- `R5011132016.reset`, r_50_1_113_2016.py 204-207. -/
def R5011132016.m_reset : FunDef where
  params := ["self"]
  defaults := []
  static := false
  body :=
    [.expr (.meth (.attr (.name "self") "_hasher_obj") "reset" []),
     .assign (.attr (.name "self") "_counter") (.int 0)]

/-- `R5011132016.clear`, r_50_1_113_2016.py 209-212. -/
def R5011132016.m_clear : FunDef where
  params := ["self"]
  defaults := []
  static := false
  body :=
    [.expr (.meth (.attr (.name "self") "_hasher_obj") "reset" []),
     .assign (.attr (.name "self") "_key") (.call "Utils.zero_fill" [.attr (.name "self")
         "_key"])]

/-- `R5011132016.digest_size`, r_50_1_113_2016.py 214-222. -/
def R5011132016.m_digest_size : FunDef where
  params := ["self"]
  defaults := []
  static := false
  body :=
    [.ret (.attr (.attr (.name "self") "_hasher_obj") "digest_size")]

/-- `R5011132016.block_size`, r_50_1_113_2016.py 224-232. -/
def R5011132016.m_block_size : FunDef where
  params := ["self"]
  defaults := []
  static := false
  body :=
    [.ret (.attr (.attr (.name "self") "_hasher_obj") "block_size")]

/-- `R5011132016.name`, r_50_1_113_2016.py 234-245. -/
def R5011132016.m_name : FunDef where
  params := ["self"]
  defaults := []
  static := false
  body :=
    [.if_ (.cmp .eq (.attr (.attr (.name "self") "_hasher_obj") "name") (.str "streebog512"))
        [.assign (.name "result") (.str "HMAC_GOSTR3411_2012_512")]
        [.assign (.name "result") (.str "HMAC_GOSTR3411_2012_256")],
     .ret (.name "result")]

end Gost.Src
