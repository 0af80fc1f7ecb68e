import Verif.Source.Syntax

/-! Written by `tools/gen_source.py` from /repo/gostcrypto/gostrandom/r_1323565_1_006_2017.py. -/

namespace Gost.Src

/-- `SIZE_S_384`, r_1323565_1_006_2017.py 30-30. -/
def Random.g_SIZE_S_384 : Val := .int 48

/-- `SIZE_S_320`, r_1323565_1_006_2017.py 31-31. -/
def Random.g_SIZE_S_320 : Val := .int 40

/-- `SIZE_S_256`, r_1323565_1_006_2017.py 32-32. -/
def Random.g_SIZE_S_256 : Val := .int 32

/-- `_SIZE_M`, r_1323565_1_006_2017.py 34-34. -/
def Random.g_SIZE_M : Val := .int 64

/-- `_SIZE_H`, r_1323565_1_006_2017.py 35-35. -/
def Random.g_SIZE_H : Val := .int 64

/-- `Random.new`, r_1323565_1_006_2017.py 38-58. -/
def Random.f_new : FunDef where
  params := ["rand_size", "kwargs"]
  defaults := []
  static := true
  body :=
    [.assign (.name "rand_k") (.meth (.name "kwargs") "get" [.str "rand_k", .builtin "bytearray"
        [.bytes []]]),
     .assign (.name "size_s") (.meth (.name "kwargs") "get" [.str "size_s", .glob
         "Random.SIZE_S_384"]),
     .ret (.new "R132356510062017" [.name "rand_size", .name "rand_k", .name "size_s"])]

/-- `R132356510062017.__init__`, r_1323565_1_006_2017.py 71-94. -/
def R132356510062017.m___init__ : FunDef where
  params := ["self", "rand_size", "rand_k", "size_s"]
  defaults := []
  static := false
  body :=
    [.assign (.attr (.name "self") "_size_s") (.name "size_s"),
     .assign (.attr (.name "self") "_rand_u") (.builtin "bytearray" [.bytes []]),
     .if_ (.cmp .eq (.name "rand_k") (.builtin "bytearray" [.bytes []]))
        [.assign (.attr (.name "self") "_rand_u") (.builtin "bytearray" [.bin .add (.builtin
            "os.urandom" [.attr (.name "self") "_size_s"]) (.bin .mul (.bytes [0]) (.bin .sub
            (.bin .sub (.glob "Random._SIZE_M") (.attr (.name "self") "_size_s")) (.int 1)))])]
        [.if_ (.not (.call "Utils.check_value" [.name "rand_k", .attr (.name "self") "_size_s"]))
            [.raise "GOSTRandomError" "GOSTRandomError: invalid seed value"]
            [],
         .assign (.attr (.name "self") "_rand_u") (.bin .add (.name "rand_k") (.builtin
             "bytearray" [.bin .mul (.bytes [0]) (.bin .sub (.bin .sub (.glob "Random._SIZE_M")
             (.attr (.name "self") "_size_s")) (.int 1))])),
         .assign (.attr (.name "self") "_rand_u") (.builtin "bytearray" [.attr (.name "self")
             "_rand_u"])],
     .assign (.attr (.name "self") "_q") (.bin .floordiv (.name "rand_size") (.glob
         "Random._SIZE_H")),
     .assign (.attr (.name "self") "_r") (.bin .mod (.name "rand_size") (.glob "Random._SIZE_H")),
     .assign (.attr (.name "self") "_limit") (.bin .pow (.int 2) (.bin .mul (.bin .sub (.glob
         "Random._SIZE_M") (.attr (.name "self") "_size_s")) (.int 8))),
     .assign (.attr (.name "self") "_hash_obj") (.new "GOST34112012" [.str "streebog512",
         .builtin "bytearray" [.bytes []]])]

/-- `R132356510062017.__del__`, r_1323565_1_006_2017.py 96-103. -/
def R132356510062017.m___del__ : FunDef where
  params := ["self"]
  defaults := []
  static := false
  body :=
    [.expr (.meth (.name "self") "clear" [])]

/-- `R132356510062017._rand_iter`, r_1323565_1_006_2017.py 105-113. -/
def R132356510062017.m__rand_iter : FunDef where
  params := ["self"]
  defaults := []
  static := false
  body :=
    [.if_ (.cmp .ge (.call "Utils.bytearray_to_int" [.slice (.attr (.name "self") "_rand_u")
        (some (.attr (.name "self") "_size_s")) none]) (.attr (.name "self") "_limit"))
        [.assign (.attr (.name "self") "_rand_u") (.call "Utils.zero_fill" [.attr (.name "self")
            "_rand_u"]),
         .raise "GOSTRandomError" "GOSTRandomError: exceeded the limit value of the counter"]
        [],
     .expr (.meth (.name "self") "_inc_rand_u" []),
     .expr (.meth (.attr (.name "self") "_hash_obj") "update" [.attr (.name "self") "_rand_u"]),
     .assign (.name "result") (.meth (.attr (.name "self") "_hash_obj") "digest" []),
     .expr (.meth (.attr (.name "self") "_hash_obj") "reset" []),
     .ret (.name "result")]

/-- `R132356510062017._inc_rand_u`, r_1323565_1_006_2017.py 115-117. -/
def R132356510062017.m__inc_rand_u : FunDef where
  params := ["self"]
  defaults := []
  static := false
  body :=
    [.assign (.name "int_rand_u") (.bin .add (.call "Utils.bytearray_to_int" [.attr (.name
        "self") "_rand_u"]) (.bin .mod (.int 1) (.bin .pow (.int 2) (.bin .sub (.glob
        "Random._SIZE_M") (.int 1))))),
     .assign (.attr (.name "self") "_rand_u") (.call "Utils.int_to_bytearray" [.name
         "int_rand_u", .bin .sub (.glob "Random._SIZE_M") (.int 1)])]

/-- `R132356510062017.random`, r_1323565_1_006_2017.py 119-141. -/
def R132356510062017.m_random : FunDef where
  params := ["self"]
  defaults := []
  static := false
  body :=
    [.if_ (.cmp .eq (.call "Utils.bytearray_to_int" [.slice (.attr (.name "self") "_rand_u") none
        (some (.attr (.name "self") "_size_s"))]) (.int 0))
        [.raise "GOSTRandomError" "GOSTRandomError: the seed value is zero"]
        [],
     .assign (.name "i") (.attr (.name "self") "_q"),
     .assign (.name "result") (.builtin "bytearray" [.int 0]),
     .while_ (.cmp .gt (.name "i") (.int 0))
        [.assign (.name "result") (.bin .add (.name "result") (.meth (.name "self") "_rand_iter"
            [])),
         .assign (.name "i") (.bin .sub (.name "i") (.int 1))],
     .if_ (.cmp .ne (.attr (.name "self") "_r") (.int 0))
        [.assign (.name "result") (.bin .add (.name "result") (.slice (.meth (.name "self")
            "_rand_iter" []) (some (.bin .sub (.glob "Random._SIZE_H") (.attr (.name "self")
            "_r"))) (some (.glob "Random._SIZE_H"))))]
        [],
     .ret (.name "result")]

/-- `R132356510062017.reset`, r_1323565_1_006_2017.py 143-165. -/
def R132356510062017.m_reset : FunDef where
  params := ["self", "rand_k"]
  defaults := [.builtin "bytearray" [.bytes []]]
  static := false
  body :=
    [.if_ (.cmp .eq (.name "rand_k") (.builtin "bytearray" [.bytes []]))
        [.assign (.attr (.name "self") "_rand_u") (.builtin "bytearray" [.bin .add (.builtin
            "os.urandom" [.attr (.name "self") "_size_s"]) (.builtin "bytearray" [.bin .mul
            (.bytes [0]) (.bin .sub (.bin .sub (.glob "Random._SIZE_M") (.attr (.name "self")
            "_size_s")) (.int 1))])])]
        [.if_ (.not (.call "Utils.check_value" [.name "rand_k", .attr (.name "self") "_size_s"]))
            [.raise "GOSTRandomError" "GOSTRandomError: invalid seed value"]
            [],
         .assign (.attr (.name "self") "_rand_u") (.bin .add (.name "rand_k") (.bin .mul (.bytes
             [0]) (.bin .sub (.bin .sub (.glob "Random._SIZE_M") (.attr (.name "self")
             "_size_s")) (.int 1)))),
         .assign (.attr (.name "self") "_rand_u") (.builtin "bytearray" [.attr (.name "self")
             "_rand_u"])],
     .expr (.meth (.attr (.name "self") "_hash_obj") "reset" [])]

/-- `R132356510062017.clear`, r_1323565_1_006_2017.py 167-170. -/
def R132356510062017.m_clear : FunDef where
  params := ["self"]
  defaults := []
  static := false
  body :=
    [.if_ (.builtin "hasattr" [.name "self", .str "_rand_u"])
        [.assign (.attr (.name "self") "_rand_u") (.call "Utils.zero_fill" [.attr (.name "self")
            "_rand_u"])]
        []]

end Gost.Src
