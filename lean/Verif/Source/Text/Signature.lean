import Verif.Source.Syntax

/-! Written by `tools/gen_source.py` from /repo/gostcrypto/gostsignature/gost_34_10_2012.py. -/

namespace Gost.Src

/-- `MODE_256`, gost_34_10_2012.py 36-36. -/
def Signature.g_MODE_256 : Val := .int 1

/-- `MODE_512`, gost_34_10_2012.py 37-37. -/
def Signature.g_MODE_512 : Val := .int 2

/-- `Signature.new`, gost_34_10_2012.py 465-484. -/
def Signature.f_new : FunDef where
  params := ["mode", "curve"]
  defaults := []
  static := true
  body :=
    [.if_ (.cmp .notIn (.name "mode") (.tuple [.glob "Signature.MODE_256", .glob
        "Signature.MODE_512"]))
        [.raise "GOSTSignatureError" "GOSTSignatureError: unsupported signature mode"]
        [],
     .ret (.new "GOST34102012" [.name "mode", .name "curve"])]

/-- `GOST34102012.__init__`, gost_34_10_2012.py 508-534. -/
def GOST34102012.m___init__ : FunDef where
  params := ["self", "mode", "curve"]
  defaults := []
  static := false
  body :=
    [.expr (.meth (.name "self") "_set_size" [.name "mode"]),
     .if_ (.cmp .eq (.name "mode") (.glob "Signature.MODE_256"))
        [.assign (.attr (.name "self") "oid") (.new "ObjectIdentifier" [.str
            "1.2.643.7.1.1.1.1"])]
        [.assign (.attr (.name "self") "oid") (.new "ObjectIdentifier" [.str
            "1.2.643.7.1.1.1.2"])],
     .assign (.attr (.name "self") "_p") (.meth (.name "curve") "get" [.str "p", .int 1]),
     .assign (.attr (.name "self") "_a") (.meth (.name "curve") "get" [.str "a", .int 0]),
     .assign (.attr (.name "self") "_b") (.meth (.name "curve") "get" [.str "b", .int 0]),
     .assign (.attr (.name "self") "_e") (.meth (.name "curve") "get" [.str "e", .int 0]),
     .assign (.attr (.name "self") "_d") (.meth (.name "curve") "get" [.str "d", .int 0]),
     .assign (.attr (.name "self") "_m") (.meth (.name "curve") "get" [.str "m", .int 1]),
     .assign (.attr (.name "self") "_q") (.meth (.name "curve") "get" [.str "q", .int 1]),
     .assign (.attr (.name "self") "_x") (.meth (.name "curve") "get" [.str "x", .int 0]),
     .assign (.attr (.name "self") "_y") (.meth (.name "curve") "get" [.str "y", .int 0]),
     .assign (.attr (.name "self") "_u") (.meth (.name "curve") "get" [.str "u", .int 0]),
     .assign (.attr (.name "self") "_v") (.meth (.name "curve") "get" [.str "v", .int 0]),
     .expr (.meth (.name "self") "_edvards_to_canonical" []),
     .if_ (.not (.meth (.name "self") "_check_curve" []))
        [.raise "GOSTSignatureError"
            "GOSTSignatureError: invalid parameters of the elliptic curve"]
        []]

/-- `GOST34102012._set_size`, gost_34_10_2012.py 537-541. -/
def GOST34102012.m__set_size : FunDef where
  params := ["self", "mode"]
  defaults := []
  static := false
  body :=
    [.if_ (.cmp .eq (.name "mode") (.glob "Signature.MODE_256"))
        [.assign (.attr (.name "self") "_size") (.int 32)]
        [.assign (.attr (.name "self") "_size") (.int 64)]]

/-- `GOST34102012._check_p_m`, gost_34_10_2012.py 543-547. -/
def GOST34102012.m__check_p_m : FunDef where
  params := ["self"]
  defaults := []
  static := false
  body :=
    [.assign (.name "result") (.bool true),
     .if_ (.cmp .eq (.attr (.name "self") "_m") (.attr (.name "self") "_p"))
        [.assign (.name "result") (.bool false)]
        [],
     .ret (.name "result")]

/-- `GOST34102012._check_x_y`, gost_34_10_2012.py 549-555. -/
def GOST34102012.m__check_x_y : FunDef where
  params := ["self"]
  defaults := []
  static := false
  body :=
    [.assign (.name "result") (.bool true),
     .assign (.name "right_side_equation") (.bin .mod (.bin .mul (.attr (.name "self") "_y")
         (.attr (.name "self") "_y")) (.attr (.name "self") "_p")),
     .assign (.name "left_side_equation") (.bin .mod (.bin .add (.bin .add (.bin .pow (.attr
         (.name "self") "_x") (.int 3)) (.bin .mul (.attr (.name "self") "_x") (.attr (.name
         "self") "_a"))) (.attr (.name "self") "_b")) (.attr (.name "self") "_p")),
     .if_ (.cmp .ne (.name "right_side_equation") (.name "left_side_equation"))
        [.assign (.name "result") (.bool false)]
        [],
     .ret (.name "result")]

/-- `GOST34102012._check_p`, gost_34_10_2012.py 557-565. -/
def GOST34102012.m__check_p : FunDef where
  params := ["self"]
  defaults := []
  static := false
  body :=
    [.assign (.name "result") (.bool true),
     .assign (.name "check_b") (.int 32),
     .if_ (.cmp .eq (.attr (.name "self") "_size") (.int 64))
        [.assign (.name "check_b") (.int 132)]
        [],
     .for_ "i" (.builtin "range" [.int 1, .name "check_b"])
        [.if_ (.cmp .eq (.bin .mod (.bin .pow (.attr (.name "self") "_p") (.name "i")) (.attr
            (.name "self") "_q")) (.bin .mod (.int 1) (.attr (.name "self") "_q")))
            [.assign (.name "result") (.or (.name "result") (.name "result"))]
            []],
     .ret (.name "result")]

/-- `GOST34102012._check_q`, gost_34_10_2012.py 567-571. -/
def GOST34102012.m__check_q : FunDef where
  params := ["self"]
  defaults := []
  static := false
  body :=
    [.assign (.name "result") (.bool true),
     .if_ (.or (.cmp .lt (.attr (.name "self") "_q") (.bin .pow (.int 2) (.bin .sub (.bin .mul
         (.attr (.name "self") "_size") (.int 8)) (.bin .floordiv (.attr (.name "self") "_size")
         (.int 16))))) (.cmp .gt (.attr (.name "self") "_q") (.bin .pow (.int 2) (.bin .mul
         (.attr (.name "self") "_size") (.int 8)))))
        [.assign (.name "result") (.bool false)]
        [],
     .ret (.name "result")]

/-- `GOST34102012._check_curve`, gost_34_10_2012.py 573-581. -/
def GOST34102012.m__check_curve : FunDef where
  params := ["self"]
  defaults := []
  static := false
  body :=
    [.assign (.name "result") (.bool true),
     .if_ (.or (.not (.meth (.name "self") "_check_p_m" [])) (.or (.not (.meth (.name "self")
         "_check_x_y" [])) (.or (.not (.meth (.name "self") "_check_p" [])) (.not (.meth (.name
         "self") "_check_q" [])))))
        [.assign (.name "result") (.bool false)]
        [],
     .ret (.name "result")]

/-- `GOST34102012._invert`, gost_34_10_2012.py 583-595. -/
def GOST34102012.m__invert : FunDef where
  params := ["value", "n_mod"]
  defaults := []
  static := true
  body :=
    [.assign (.name "result") (.index (.call "GOST34102012._invert.gcdex" [.name "value", .name
        "n_mod"]) (.int 1)),
     .if_ (.cmp .lt (.name "result") (.int 0))
        [.assign (.name "result") (.bin .add (.name "result") (.name "n_mod"))]
        [],
     .ret (.name "result")]

/-- `GOST34102012._invert.gcdex`, gost_34_10_2012.py 585-591. -/
def GOST34102012.m__invert_gcdex : FunDef where
  params := ["value", "n_mod"]
  defaults := []
  static := true
  body :=
    [.if_ (.cmp .eq (.name "n_mod") (.int 0))
        [.assign (.name "gcd_result") (.tuple [.name "value", .int 1, .int 0])]
        [.assign (.names ["gcd", "x_value", "y_value"]) (.call "GOST34102012._invert.gcdex"
            [.name "n_mod", .bin .mod (.name "value") (.name "n_mod")]),
         .assign (.name "gcd_result") (.tuple [.name "gcd", .name "y_value", .bin .sub (.name
             "x_value") (.bin .mul (.name "y_value") (.bin .floordiv (.name "value") (.name
             "n_mod")))])],
     .ret (.name "gcd_result")]

/-- `GOST34102012._add`, gost_34_10_2012.py 597-608. -/
def GOST34102012.m__add : FunDef where
  params := ["self", "x_1", "x_2", "y_1", "y_2"]
  defaults := []
  static := false
  body :=
    [.assign (.name "compare_x") (.call "Utils.compare" [.call "Utils.int_to_bytearray" [.name
        "x_1", .attr (.name "self") "_size"], .call "Utils.int_to_bytearray" [.name "x_2", .attr
        (.name "self") "_size"]]),
     .assign (.name "compare_y") (.call "Utils.compare" [.call "Utils.int_to_bytearray" [.name
         "y_1", .attr (.name "self") "_size"], .call "Utils.int_to_bytearray" [.name "y_2", .attr
         (.name "self") "_size"]]),
     .if_ (.and (.name "compare_x") (.name "compare_y"))
        [.assign (.name "grad") (.bin .mod (.bin .mul (.bin .add (.bin .mul (.bin .mul (.int 3)
            (.name "x_1")) (.name "x_1")) (.attr (.name "self") "_a")) (.meth (.name "self")
            "_invert" [.bin .mul (.int 2) (.name "y_1"), .attr (.name "self") "_p"])) (.attr
            (.name "self") "_p"))]
        [.assign (.name "d_x") (.bin .mod (.bin .sub (.name "x_2") (.name "x_1")) (.attr (.name
            "self") "_p")),
         .assign (.name "d_y") (.bin .mod (.bin .sub (.name "y_2") (.name "y_1")) (.attr (.name
             "self") "_p")),
         .assign (.name "grad") (.bin .mod (.bin .mul (.name "d_y") (.meth (.name "self")
             "_invert" [.name "d_x", .attr (.name "self") "_p"])) (.attr (.name "self") "_p"))],
     .assign (.name "x_3") (.bin .mod (.bin .sub (.bin .sub (.bin .mul (.name "grad") (.name
         "grad")) (.name "x_1")) (.name "x_2")) (.attr (.name "self") "_p")),
     .assign (.name "y_3") (.bin .mod (.bin .sub (.bin .mul (.name "grad") (.bin .sub (.name
         "x_1") (.name "x_3"))) (.name "y_1")) (.attr (.name "self") "_p")),
     .ret (.tuple [.name "x_3", .name "y_3"])]

/-- `GOST34102012._mul_point`, gost_34_10_2012.py 616-631. -/
def GOST34102012.m__mul_point : FunDef where
  params := ["self", "mul_value", "x_op", "y_op"]
  defaults := [.int (-1), .int (-1)]
  static := false
  body :=
    [.assign (.name "mul_value") (.bin .sub (.name "mul_value") (.int 1)),
     .if_ (.and (.cmp .gt (.name "x_op") (.int 0)) (.cmp .gt (.name "y_op") (.int 0)))
        [.assign (.name "x_prev") (.name "x_op"),
         .assign (.name "y_prev") (.name "y_op")]
        [.assign (.name "x_prev") (.attr (.name "self") "_x"),
         .assign (.name "y_prev") (.attr (.name "self") "_y")],
     .assign (.name "x_next") (.name "x_prev"),
     .assign (.name "y_next") (.name "y_prev"),
     .assign (.name "_bits.value") (.name "mul_value"),
     .while_ (.name "_bits.value")
        [.assign (.name "bit") (.bin .band (.name "_bits.value") (.int 1)),
         .if_ (.cmp .eq (.name "bit") (.int 1))
            [.assign (.names ["x_next", "y_next"]) (.meth (.name "self") "_add" [.name "x_next",
                .name "x_prev", .name "y_next", .name "y_prev"])]
            [],
         .assign (.names ["x_prev", "y_prev"]) (.meth (.name "self") "_add" [.name "x_prev",
             .name "x_prev", .name "y_prev", .name "y_prev"]),
         .assign (.name "_bits.value") (.bin .shr (.name "_bits.value") (.int 1))],
     .ret (.tuple [.name "x_next", .name "y_next"])]

/-- `GOST34102012._edvards_to_canonical`, gost_34_10_2012.py 633-642. -/
def GOST34102012.m__edvards_to_canonical : FunDef where
  params := ["self"]
  defaults := []
  static := false
  body :=
    [.if_ (.and (.cmp .eq (.attr (.name "self") "_a") (.int 0)) (.and (.cmp .eq (.attr (.name
        "self") "_b") (.int 0)) (.and (.cmp .eq (.attr (.name "self") "_x") (.int 0)) (.cmp .eq
        (.attr (.name "self") "_y") (.int 0)))))
        [.assign (.name "ed_s") (.bin .mod (.bin .mul (.bin .sub (.attr (.name "self") "_e")
            (.attr (.name "self") "_d")) (.meth (.name "self") "_invert" [.int 4, .attr (.name
            "self") "_p"])) (.attr (.name "self") "_p")),
         .assign (.name "ed_t") (.bin .mod (.bin .mul (.bin .add (.attr (.name "self") "_e")
             (.attr (.name "self") "_d")) (.meth (.name "self") "_invert" [.int 6, .attr (.name
             "self") "_p"])) (.attr (.name "self") "_p")),
         .assign (.attr (.name "self") "_a") (.bin .mod (.bin .sub (.bin .pow (.name "ed_s")
             (.int 2)) (.bin .mul (.int 3) (.bin .pow (.name "ed_t") (.int 2)))) (.attr (.name
             "self") "_p")),
         .assign (.attr (.name "self") "_b") (.bin .mod (.bin .sub (.bin .mul (.int 2) (.bin .pow
             (.name "ed_t") (.int 3))) (.bin .mul (.name "ed_t") (.bin .pow (.name "ed_s") (.int
             2)))) (.attr (.name "self") "_p")),
         .assign (.attr (.name "self") "_x") (.bin .mod (.bin .add (.bin .mul (.bin .mul (.name
             "ed_s") (.bin .add (.int 1) (.attr (.name "self") "_v"))) (.meth (.name "self")
             "_invert" [.bin .sub (.int 1) (.attr (.name "self") "_v"), .attr (.name "self")
             "_p"])) (.name "ed_t")) (.attr (.name "self") "_p")),
         .assign (.attr (.name "self") "_y") (.bin .mod (.bin .mul (.bin .mul (.name "ed_s")
             (.bin .add (.int 1) (.attr (.name "self") "_v"))) (.meth (.name "self") "_invert"
             [.bin .mul (.bin .sub (.int 1) (.attr (.name "self") "_v")) (.attr (.name "self")
             "_u"), .attr (.name "self") "_p"])) (.attr (.name "self") "_p"))]
        []]

/-- `GOST34102012._get_rand_k`, gost_34_10_2012.py 644-648. -/
def GOST34102012.m__get_rand_k : FunDef where
  params := ["self"]
  defaults := []
  static := false
  body :=
    [.assign (.name "rand_k") (.builtin "bytearray" [.builtin "os.urandom" [.attr (.name "self")
        "_size"]]),
     .while_ (.cmp .ge (.call "Utils.bytearray_to_int" [.name "rand_k"]) (.attr (.name "self")
         "_q"))
        [.assign (.name "rand_k") (.builtin "bytearray" [.builtin "os.urandom" [.attr (.name
            "self") "_size"]])],
     .ret (.name "rand_k")]

/-- `GOST34102012._set_e`, gost_34_10_2012.py 650-654. -/
def GOST34102012.m__set_e : FunDef where
  params := ["self", "digest"]
  defaults := []
  static := false
  body :=
    [.assign (.name "result") (.bin .mod (.call "Utils.bytearray_to_int" [.name "digest"]) (.attr
        (.name "self") "_q")),
     .if_ (.call "Utils.compare_to_zero" [.call "Utils.int_to_bytearray" [.name "result", .attr
         (.name "self") "_size"]])
        [.assign (.name "result") (.int 1)]
        [],
     .ret (.name "result")]

/-- `GOST34102012.sign`, gost_34_10_2012.py 656-704. -/
def GOST34102012.m_sign : FunDef where
  params := ["self", "private_key", "digest", "rand_k"]
  defaults := [.builtin "bytearray" [.bytes []]]
  static := false
  body :=
    [.if_ (.not (.call "Utils.check_value" [.name "private_key", .attr (.name "self") "_size"]))
        [.raise "GOSTSignatureError" "GOSTSignatureError: invalid private key value"]
        [],
     .if_ (.not (.call "Utils.check_value" [.name "digest", .attr (.name "self") "_size"]))
        [.raise "GOSTSignatureError" "GOSTSignatureError: invalid digest value"]
        [],
     .assign (.name "sign_e") (.meth (.name "self") "_set_e" [.name "digest"]),
     .assign (.name "sign_r") (.int 0),
     .assign (.name "sign_s") (.int 0),
     .assign (.name "sign_k") (.int 0),
     .if_ (.cmp .eq (.name "rand_k") (.builtin "bytearray" [.bytes []]))
        [.assign (.name "rand_k") (.meth (.name "self") "_get_rand_k" [])]
        [],
     .if_ (.not (.builtin "isbytes" [.name "rand_k"]))
        [.assign (.name "private_key") (.call "Utils.zero_fill" [.name "private_key"]),
         .raise "GOSTSignatureError" "GOSTSignatureError: invalid random value"]
        [],
     .if_ (.cmp .ge (.call "Utils.bytearray_to_int" [.name "rand_k"]) (.attr (.name "self") "_q"))
        [.assign (.name "private_key") (.call "Utils.zero_fill" [.name "private_key"]),
         .raise "GOSTSignatureError" "GOSTSignatureError: invalid random value"]
        [],
     .while_ (.call "Utils.compare_to_zero" [.call "Utils.int_to_bytearray" [.name "sign_s",
         .attr (.name "self") "_size"]])
        [.while_ (.call "Utils.compare_to_zero" [.call "Utils.int_to_bytearray" [.name "sign_r",
            .attr (.name "self") "_size"]])
            [.assign (.name "sign_k") (.call "Utils.bytearray_to_int" [.name "rand_k"]),
             .assign (.name "sign_c") (.meth (.name "self") "_mul_point" [.name "sign_k"]),
             .assign (.name "sign_r") (.bin .mod (.index (.name "sign_c") (.int 0)) (.attr (.name
                 "self") "_q"))],
         .assign (.name "sign_s") (.bin .mod (.bin .add (.bin .mul (.name "sign_r") (.call
             "Utils.bytearray_to_int" [.name "private_key"])) (.bin .mul (.name "sign_k") (.name
             "sign_e"))) (.attr (.name "self") "_q"))],
     .assign (.name "result") (.bin .add (.call "Utils.int_to_bytearray" [.name "sign_r", .attr
         (.name "self") "_size"]) (.call "Utils.int_to_bytearray" [.name "sign_s", .attr (.name
         "self") "_size"])),
     .assign (.name "private_key") (.call "Utils.zero_fill" [.name "private_key"]),
     .ret (.name "result")]

/-- `GOST34102012._get_r_s`, gost_34_10_2012.py 706-709. -/
def GOST34102012.m__get_r_s : FunDef where
  params := ["self", "signature"]
  defaults := []
  static := false
  body :=
    [.assign (.name "sign_r") (.call "Utils.bytearray_to_int" [.slice (.name "signature") none
        (some (.attr (.name "self") "_size"))]),
     .assign (.name "sign_s") (.call "Utils.bytearray_to_int" [.slice (.name "signature") (some
         (.attr (.name "self") "_size")) none]),
     .ret (.tuple [.name "sign_r", .name "sign_s"])]

/-- `GOST34102012._verify_step_1`, gost_34_10_2012.py 711-715. -/
def GOST34102012.m__verify_step_1 : FunDef where
  params := ["self", "sign_r", "sign_s"]
  defaults := []
  static := false
  body :=
    [.assign (.name "result") (.bool true),
     .if_ (.or (.cmp .le (.name "sign_r") (.int 0)) (.or (.cmp .ge (.name "sign_r") (.attr (.name
         "self") "_q")) (.or (.cmp .le (.name "sign_s") (.int 0)) (.cmp .ge (.name "sign_s")
         (.attr (.name "self") "_q")))))
        [.assign (.name "result") (.bool false)]
        [],
     .ret (.name "result")]

/-- `GOST34102012.verify`, gost_34_10_2012.py 717-760. -/
def GOST34102012.m_verify : FunDef where
  params := ["self", "public_key", "digest", "signature"]
  defaults := []
  static := false
  body :=
    [.if_ (.not (.call "Utils.check_value" [.name "public_key", .bin .mul (.attr (.name "self")
        "_size") (.int 2)]))
        [.raise "GOSTSignatureError" "GOSTSignatureError: invalid public key value"]
        [],
     .if_ (.not (.call "Utils.check_value" [.name "signature", .bin .mul (.attr (.name "self")
         "_size") (.int 2)]))
        [.raise "GOSTSignatureError" "GOSTSignatureError: invalid signature value"]
        [],
     .if_ (.not (.call "Utils.check_value" [.name "digest", .attr (.name "self") "_size"]))
        [.raise "GOSTSignatureError" "GOSTSignatureError: invalid digest value"]
        [],
     .assign (.name "public_key") (.tuple [.call "Utils.bytearray_to_int" [.slice (.name
         "public_key") none (some (.attr (.name "self") "_size"))], .call
         "Utils.bytearray_to_int" [.slice (.name "public_key") (some (.attr (.name "self")
         "_size")) none]]),
     .assign (.names ["sign_r", "sign_s"]) (.meth (.name "self") "_get_r_s" [.name "signature"]),
     .if_ (.not (.meth (.name "self") "_verify_step_1" [.name "sign_r", .name "sign_s"]))
        [.ret (.bool false)]
        [],
     .assign (.name "sign_e") (.meth (.name "self") "_set_e" [.name "digest"]),
     .assign (.name "sign_v") (.meth (.name "self") "_invert" [.name "sign_e", .attr (.name
         "self") "_q"]),
     .assign (.name "sign_z_1") (.bin .mod (.bin .mul (.name "sign_s") (.name "sign_v")) (.attr
         (.name "self") "_q")),
     .assign (.name "sign_z_2") (.bin .sub (.attr (.name "self") "_q") (.bin .mod (.bin .mul
         (.name "sign_r") (.name "sign_v")) (.attr (.name "self") "_q"))),
     .assign (.name "sign_p") (.meth (.name "self") "_mul_point" [.name "sign_z_1"]),
     .assign (.name "sign_q") (.meth (.name "self") "_mul_point" [.name "sign_z_2", .index (.name
         "public_key") (.int 0), .index (.name "public_key") (.int 1)]),
     .assign (.name "sign_c") (.meth (.name "self") "_add" [.index (.name "sign_p") (.int 0),
         .index (.name "sign_q") (.int 0), .index (.name "sign_p") (.int 1), .index (.name
         "sign_q") (.int 1)]),
     .assign (.name "sign_r_check") (.bin .mod (.index (.name "sign_c") (.int 0)) (.attr (.name
         "self") "_q")),
     .ret (.call "Utils.compare" [.call "Utils.int_to_bytearray" [.name "sign_r_check", .attr
         (.name "self") "_size"], .call "Utils.int_to_bytearray" [.name "sign_r", .attr (.name
         "self") "_size"]])]

/-- `GOST34102012.public_key_generate`, gost_34_10_2012.py 762-783. -/
def GOST34102012.m_public_key_generate : FunDef where
  params := ["self", "private_key"]
  defaults := []
  static := false
  body :=
    [.if_ (.not (.call "Utils.check_value" [.name "private_key", .attr (.name "self") "_size"]))
        [.raise "GOSTSignatureError" "GOSTSignatureError: invalid private key"]
        [],
     .assign (.name "private_key") (.call "Utils.bytearray_to_int" [.name "private_key"]),
     .assign (.name "public_key") (.meth (.name "self") "_mul_point" [.name "private_key"]),
     .assign (.name "public_key_x") (.call "Utils.int_to_bytearray" [.index (.name "public_key")
         (.int 0), .attr (.name "self") "_size"]),
     .assign (.name "public_key_y") (.call "Utils.int_to_bytearray" [.index (.name "public_key")
         (.int 1), .attr (.name "self") "_size"]),
     .assign (.name "private_key") (.int 0),
     .ret (.bin .add (.name "public_key_x") (.name "public_key_y"))]

end Gost.Src
