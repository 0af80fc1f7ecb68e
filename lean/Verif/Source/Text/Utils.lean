import Verif.Source.Syntax

/-! Written by `tools/gen_source.py` from /repo/gostcrypto/utils/utils.py. -/

namespace Gost.Src

/-- `Utils.check_value`, utils.py 17-34. -/
def Utils.f_check_value : FunDef where
  params := ["value", "size_value"]
  defaults := []
  static := true
  body :=
    [.assign (.name "result") (.bool true),
     .if_ (.or (.not (.builtin "isbytes" [.name "value"])) (.cmp .ne (.builtin "len" [.name
         "value"]) (.name "size_value")))
        [.assign (.name "result") (.bool false)]
        [],
     .ret (.name "result")]

/-- `Utils.msb`, utils.py 37-45. -/
def Utils.f_msb : FunDef where
  params := ["value"]
  defaults := []
  static := true
  body :=
    [.ret (.bin .band (.index (.name "value") (.int 0)) (.int 128))]

/-- `Utils.add_xor`, utils.py 48-65. -/
def Utils.f_add_xor : FunDef where
  params := ["op_a", "op_b"]
  defaults := []
  static := true
  body :=
    [.assign (.name "op_a") (.builtin "bytearray" [.name "op_a"]),
     .assign (.name "op_b") (.builtin "bytearray" [.name "op_b"]),
     .assign (.name "result_len") (.builtin "min" [.builtin "len" [.name "op_a"], .builtin "len"
         [.name "op_b"]]),
     .assign (.name "result") (.builtin "bytearray" [.name "result_len"]),
     .for_ "i" (.builtin "range" [.name "result_len"])
        [.assign (.index (.name "result") (.name "i")) (.bin .bxor (.index (.name "op_a") (.name
            "i")) (.index (.name "op_b") (.name "i")))],
     .ret (.name "result")]

/-- `Utils.zero_fill`, utils.py 68-82. -/
def Utils.f_zero_fill : FunDef where
  params := ["value"]
  defaults := []
  static := true
  body :=
    [.assign (.name "result") (.bytes []),
     .if_ (.builtin "isbytes" [.name "value"])
        [.assign (.name "result") (.bin .mul (.bytes [47, 120, 48, 48]) (.builtin "len" [.name
            "value"])),
         .assign (.name "result") (.builtin "bytearray" [.name "result"])]
        [],
     .ret (.name "result")]

/-- `Utils.bytearray_to_int`, utils.py 85-95. -/
def Utils.f_bytearray_to_int : FunDef where
  params := ["value"]
  defaults := []
  static := true
  body :=
    [.ret (.builtin "int.from_bytes" [.name "value", .str "big"])]

/-- `Utils.int_to_bytearray`, utils.py 98-111. -/
def Utils.f_int_to_bytearray : FunDef where
  params := ["value", "num_byte"]
  defaults := []
  static := true
  body :=
    [.ret (.builtin "bytearray" [.comp (.bin .shr (.bin .band (.name "value") (.bin .shl (.int
        255) (.bin .mul (.name "pos") (.int 8)))) (.bin .mul (.name "pos") (.int 8))) "pos"
        (.builtin "range" [.bin .sub (.name "num_byte") (.int 1), .int (-1), .int (-1)])])]

/-- `Utils.compare`, utils.py 114-136. -/
def Utils.f_compare : FunDef where
  params := ["op_a", "op_b"]
  defaults := []
  static := true
  body :=
    [.assign (.name "op_a") (.builtin "bytearray" [.name "op_a"]),
     .assign (.name "op_b") (.builtin "bytearray" [.name "op_b"]),
     .assign (.name "res_check") (.int 0),
     .if_ (.cmp .ne (.builtin "len" [.name "op_a"]) (.builtin "len" [.name "op_b"]))
        [.ret (.bool false)]
        [],
     .for_ "i" (.builtin "enumerate" [.name "op_a"])
        [.assign (.name "check") (.bin .bxor (.index (.name "op_a") (.index (.name "i") (.int
            0))) (.index (.name "op_b") (.index (.name "i") (.int 0)))),
         .assign (.name "res_check") (.bin .add (.name "res_check") (.name "check"))],
     .ret (.not (.name "res_check"))]

/-- `Utils.compare_to_zero`, utils.py 139-156. -/
def Utils.f_compare_to_zero : FunDef where
  params := ["value"]
  defaults := []
  static := true
  body :=
    [.assign (.name "value") (.builtin "bytearray" [.name "value"]),
     .assign (.name "res_check") (.int 0),
     .for_ "i" (.builtin "enumerate" [.name "value"])
        [.assign (.name "check") (.bin .bxor (.index (.name "value") (.index (.name "i") (.int
            0))) (.int 0)),
         .assign (.name "res_check") (.bin .add (.name "res_check") (.name "check"))],
     .ret (.not (.name "res_check"))]

end Gost.Src
