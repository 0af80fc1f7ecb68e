import Verif.Source.Syntax

/-! Written by `tools/gen_source.py` from /repo/gostcrypto/gostpbkdf/r_50_1_111_2016.py. -/

namespace Gost.Src

/-- `_BLOCK_SIZE`, r_50_1_111_2016.py 24-24. -/
def Pbkdf.g_BLOCK_SIZE : Val := .int 64

/-- `Pbkdf.new`, r_50_1_111_2016.py 27-49. -/
def Pbkdf.f_new : FunDef where
  params := ["password", "kwargs"]
  defaults := []
  static := true
  body :=
    [.assign (.name "salt") (.meth (.name "kwargs") "get" [.str "salt", .builtin "bytearray"
        [.bytes []]]),
     .assign (.name "counter") (.meth (.name "kwargs") "get" [.str "counter", .int 1000]),
     .ret (.new "R5011112016" [.name "password", .name "salt", .name "counter"])]

/-- `R5011112016.__init__`, r_50_1_111_2016.py 65-91. -/
def R5011112016.m___init__ : FunDef where
  params := ["self", "password", "salt", "iterations"]
  defaults := []
  static := false
  body :=
    [.if_ (.not (.builtin "isbytes" [.name "password"]))
        [.raise "GOSTPBKDFError" "GOSTPBKDFError: invalid password value"]
        [],
     .assign (.attr (.name "self") "_password") (.builtin "bytearray" [.name "password"]),
     .assign (.attr (.name "self") "_salt") (.name "salt"),
     .if_ (.cmp .eq (.attr (.name "self") "_salt") (.builtin "bytearray" [.bytes []]))
        [.assign (.attr (.name "self") "_salt") (.builtin "bytearray" [.builtin "os.urandom"
            [.int 32]])]
        [],
     .if_ (.not (.builtin "isbytes" [.attr (.name "self") "_salt"]))
        [.assign (.name "password") (.call "Utils.zero_fill" [.name "password"]),
         .assign (.attr (.name "self") "_password") (.call "Utils.zero_fill" [.attr (.name
             "self") "_password"]),
         .raise "GOSTPBKDFError" "GOSTPBKDFError: invalid salt value"]
        [],
     .assign (.attr (.name "self") "_salt") (.builtin "bytearray" [.attr (.name "self") "_salt"]),
     .assign (.attr (.name "self") "_iterations") (.name "iterations"),
     .assign (.attr (.name "self") "_num_block") (.int 0),
     .assign (.attr (.name "self") "_counter") (.int 0),
     .assign (.attr (.name "self") "_hmac_obj") (.new "R5011132016" [.str
         "HMAC_GOSTR3411_2012_512", .attr (.name "self") "_password", .builtin "bytearray"
         [.bytes []]]),
     .assign (.name "password") (.call "Utils.zero_fill" [.name "password"])]

/-- `R5011112016.__del__`, r_50_1_111_2016.py 93-100. -/
def R5011112016.m___del__ : FunDef where
  params := ["self"]
  defaults := []
  static := false
  body :=
    [.expr (.meth (.name "self") "clear" [])]

/-- `R5011112016._u_first`, r_50_1_111_2016.py 102-105. -/
def R5011112016.m__u_first : FunDef where
  params := ["self"]
  defaults := []
  static := false
  body :=
    [.expr (.meth (.attr (.name "self") "_hmac_obj") "reset" []),
     .expr (.meth (.attr (.name "self") "_hmac_obj") "update" [.bin .add (.attr (.name "self")
         "_salt") (.call "Utils.int_to_bytearray" [.attr (.name "self") "_counter", .int 4])]),
     .ret (.meth (.attr (.name "self") "_hmac_obj") "digest" [])]

/-- `R5011112016._u_iter`, r_50_1_111_2016.py 107-110. -/
def R5011112016.m__u_iter : FunDef where
  params := ["self", "u_prev"]
  defaults := []
  static := false
  body :=
    [.expr (.meth (.attr (.name "self") "_hmac_obj") "reset" []),
     .expr (.meth (.attr (.name "self") "_hmac_obj") "update" [.name "u_prev"]),
     .ret (.meth (.attr (.name "self") "_hmac_obj") "digest" [])]

/-- `R5011112016._f`, r_50_1_111_2016.py 112-118. -/
def R5011112016.m__f : FunDef where
  params := ["self"]
  defaults := []
  static := false
  body :=
    [.assign (.name "_t") (.meth (.name "self") "_u_first" []),
     .assign (.name "internal") (.meth (.name "self") "_u_first" []),
     .for_ "_" (.builtin "range" [.int 1, .attr (.name "self") "_iterations"])
        [.assign (.name "internal") (.meth (.name "self") "_u_iter" [.name "internal"]),
         .assign (.name "_t") (.call "Utils.add_xor" [.name "_t", .name "internal"])],
     .ret (.name "_t")]

/-- `R5011112016._calculate_pbkdf`, r_50_1_111_2016.py 120-128. -/
def R5011112016.m__calculate_pbkdf : FunDef where
  params := ["self", "dk_len"]
  defaults := []
  static := false
  body :=
    [.assign (.name "result") (.builtin "bytearray" [.bytes []]),
     .assign (.attr (.name "self") "_num_block") (.bin .floordiv (.name "dk_len") (.glob
         "Pbkdf._BLOCK_SIZE")),
     .if_ (.cmp .ne (.bin .mod (.name "dk_len") (.glob "Pbkdf._BLOCK_SIZE")) (.int 0))
        [.assign (.attr (.name "self") "_num_block") (.bin .add (.attr (.name "self")
            "_num_block") (.int 1))]
        [],
     .for_ "i" (.builtin "range" [.int 1, .bin .add (.attr (.name "self") "_num_block") (.int 1)])
        [.assign (.attr (.name "self") "_counter") (.name "i"),
         .assign (.name "result") (.bin .add (.name "result") (.meth (.name "self") "_f" []))],
     .ret (.name "result")]

/-- `R5011112016.derive`, r_50_1_111_2016.py 130-146. -/
def R5011112016.m_derive : FunDef where
  params := ["self", "dk_len"]
  defaults := []
  static := false
  body :=
    [.if_ (.cmp .gt (.name "dk_len") (.bin .mul (.bin .sub (.bin .pow (.int 2) (.int 32)) (.int
        1)) (.int 64)))
        [.raise "GOSTPBKDFError" "GOSTPBKDFError: invalid size of the derived key"]
        [],
     .ret (.slice (.meth (.name "self") "_calculate_pbkdf" [.name "dk_len"]) none (some (.name
         "dk_len")))]

/-- `R5011112016.hexderive`, r_50_1_111_2016.py 148-164. -/
def R5011112016.m_hexderive : FunDef where
  params := ["self", "dk_len"]
  defaults := []
  static := false
  body :=
    [.if_ (.cmp .gt (.name "dk_len") (.bin .mul (.bin .sub (.bin .pow (.int 2) (.int 32)) (.int
        1)) (.int 64)))
        [.raise "GOSTPBKDFError" "GOSTPBKDFError: invalid size of the derived key"]
        [],
     .ret (.meth (.slice (.meth (.name "self") "_calculate_pbkdf" [.name "dk_len"]) none (some
         (.name "dk_len"))) "hex" [])]

/-- `R5011112016.clear`, r_50_1_111_2016.py 166-168. -/
def R5011112016.m_clear : FunDef where
  params := ["self"]
  defaults := []
  static := false
  body :=
    [.assign (.attr (.name "self") "_password") (.call "Utils.zero_fill" [.attr (.name "self")
        "_password"])]

/-- `R5011112016.salt`, r_50_1_111_2016.py 170-173. -/
def R5011112016.m_salt : FunDef where
  params := ["self"]
  defaults := []
  static := false
  body :=
    [.ret (.attr (.name "self") "_salt")]

end Gost.Src
