import Verif.Source.Syntax

/-! Written by `tools/gen_source.py` from the table `CURVES_R_1323565_1_024_2019` of
gost_34_10_2012.py: the arguments of `dict(...)` for each key. -/

namespace Gost.Src

/-- id-tc26-gost-3410-2012-256-paramSetB, lines 41-79. -/
def Signature.curve_0 : List (String × Expr) :=
  [("p", .call "Utils.bytearray_to_int" [.builtin "bytearray" [.list [.int 0, .int 255, .int 255,
      .int 255, .int 255, .int 255, .int 255, .int 255, .int 255, .int 255, .int 255, .int 255,
      .int 255, .int 255, .int 255, .int 255, .int 255, .int 255, .int 255, .int 255, .int 255,
      .int 255, .int 255, .int 255, .int 255, .int 255, .int 255, .int 255, .int 255, .int 255,
      .int 255, .int 253, .int 151]]]),
   ("a", .call "Utils.bytearray_to_int" [.builtin "bytearray" [.list [.int 0, .int 255, .int 255,
       .int 255, .int 255, .int 255, .int 255, .int 255, .int 255, .int 255, .int 255, .int 255,
       .int 255, .int 255, .int 255, .int 255, .int 255, .int 255, .int 255, .int 255, .int 255,
       .int 255, .int 255, .int 255, .int 255, .int 255, .int 255, .int 255, .int 255, .int 255,
       .int 255, .int 253, .int 148]]]),
   ("b", .int 166),
   ("m", .call "Utils.bytearray_to_int" [.builtin "bytearray" [.list [.int 0, .int 255, .int 255,
       .int 255, .int 255, .int 255, .int 255, .int 255, .int 255, .int 255, .int 255, .int 255,
       .int 255, .int 255, .int 255, .int 255, .int 255, .int 108, .int 97, .int 16, .int 112,
       .int 153, .int 90, .int 209, .int 0, .int 69, .int 132, .int 27, .int 9, .int 183, .int
       97, .int 184, .int 147]]]),
   ("q", .call "Utils.bytearray_to_int" [.builtin "bytearray" [.list [.int 0, .int 255, .int 255,
       .int 255, .int 255, .int 255, .int 255, .int 255, .int 255, .int 255, .int 255, .int 255,
       .int 255, .int 255, .int 255, .int 255, .int 255, .int 108, .int 97, .int 16, .int 112,
       .int 153, .int 90, .int 209, .int 0, .int 69, .int 132, .int 27, .int 9, .int 183, .int
       97, .int 184, .int 147]]]),
   ("x", .int 1),
   ("y", .call "Utils.bytearray_to_int" [.builtin "bytearray" [.list [.int 0, .int 141, .int 145,
       .int 228, .int 113, .int 224, .int 152, .int 156, .int 218, .int 39, .int 223, .int 80,
       .int 90, .int 69, .int 63, .int 43, .int 118, .int 53, .int 41, .int 79, .int 45, .int
       223, .int 35, .int 227, .int 177, .int 34, .int 172, .int 201, .int 156, .int 158, .int
       159, .int 30, .int 20]]])]

/-- id-tc26-gost-3410-2012-256-paramSetC, lines 80-122. -/
def Signature.curve_1 : List (String × Expr) :=
  [("p", .call "Utils.bytearray_to_int" [.builtin "bytearray" [.list [.int 0, .int 128, .int 0,
      .int 0, .int 0, .int 0, .int 0, .int 0, .int 0, .int 0, .int 0, .int 0, .int 0, .int 0,
      .int 0, .int 0, .int 0, .int 0, .int 0, .int 0, .int 0, .int 0, .int 0, .int 0, .int 0,
      .int 0, .int 0, .int 0, .int 0, .int 0, .int 0, .int 12, .int 153]]]),
   ("a", .call "Utils.bytearray_to_int" [.builtin "bytearray" [.list [.int 0, .int 128, .int 0,
       .int 0, .int 0, .int 0, .int 0, .int 0, .int 0, .int 0, .int 0, .int 0, .int 0, .int 0,
       .int 0, .int 0, .int 0, .int 0, .int 0, .int 0, .int 0, .int 0, .int 0, .int 0, .int 0,
       .int 0, .int 0, .int 0, .int 0, .int 0, .int 0, .int 12, .int 150]]]),
   ("b", .call "Utils.bytearray_to_int" [.builtin "bytearray" [.list [.int 62, .int 26, .int 244,
       .int 25, .int 162, .int 105, .int 165, .int 248, .int 102, .int 167, .int 211, .int 194,
       .int 92, .int 61, .int 248, .int 10, .int 233, .int 121, .int 37, .int 147, .int 115, .int
       255, .int 43, .int 24, .int 47, .int 73, .int 212, .int 206, .int 126, .int 27, .int 188,
       .int 139]]]),
   ("m", .call "Utils.bytearray_to_int" [.builtin "bytearray" [.list [.int 0, .int 128, .int 0,
       .int 0, .int 0, .int 0, .int 0, .int 0, .int 0, .int 0, .int 0, .int 0, .int 0, .int 0,
       .int 0, .int 0, .int 1, .int 95, .int 112, .int 12, .int 255, .int 241, .int 166, .int 36,
       .int 229, .int 228, .int 151, .int 22, .int 27, .int 204, .int 138, .int 25, .int 143]]]),
   ("q", .call "Utils.bytearray_to_int" [.builtin "bytearray" [.list [.int 0, .int 128, .int 0,
       .int 0, .int 0, .int 0, .int 0, .int 0, .int 0, .int 0, .int 0, .int 0, .int 0, .int 0,
       .int 0, .int 0, .int 1, .int 95, .int 112, .int 12, .int 255, .int 241, .int 166, .int 36,
       .int 229, .int 228, .int 151, .int 22, .int 27, .int 204, .int 138, .int 25, .int 143]]]),
   ("x", .int 1),
   ("y", .call "Utils.bytearray_to_int" [.builtin "bytearray" [.list [.int 63, .int 168, .int 18,
       .int 67, .int 89, .int 249, .int 102, .int 128, .int 184, .int 61, .int 28, .int 62, .int
       178, .int 192, .int 112, .int 229, .int 197, .int 69, .int 201, .int 133, .int 141, .int
       3, .int 236, .int 251, .int 116, .int 75, .int 248, .int 215, .int 23, .int 113, .int 126,
       .int 252]]])]

/-- id-tc26-gost-3410-2012-256-paramSetD, lines 123-162. -/
def Signature.curve_2 : List (String × Expr) :=
  [("p", .call "Utils.bytearray_to_int" [.builtin "bytearray" [.list [.int 0, .int 155, .int 159,
      .int 96, .int 95, .int 90, .int 133, .int 129, .int 7, .int 171, .int 30, .int 200, .int
      94, .int 107, .int 65, .int 200, .int 170, .int 207, .int 132, .int 110, .int 134, .int
      120, .int 144, .int 81, .int 211, .int 121, .int 152, .int 247, .int 185, .int 2, .int 45,
      .int 117, .int 155]]]),
   ("a", .call "Utils.bytearray_to_int" [.builtin "bytearray" [.list [.int 0, .int 155, .int 159,
       .int 96, .int 95, .int 90, .int 133, .int 129, .int 7, .int 171, .int 30, .int 200, .int
       94, .int 107, .int 65, .int 200, .int 170, .int 207, .int 132, .int 110, .int 134, .int
       120, .int 144, .int 81, .int 211, .int 121, .int 152, .int 247, .int 185, .int 2, .int 45,
       .int 117, .int 152]]]),
   ("b", .call "Utils.bytearray_to_int" [.builtin "bytearray" [.list [.int 128, .int 90]]]),
   ("m", .call "Utils.bytearray_to_int" [.builtin "bytearray" [.list [.int 0, .int 155, .int 159,
       .int 96, .int 95, .int 90, .int 133, .int 129, .int 7, .int 171, .int 30, .int 200, .int
       94, .int 107, .int 65, .int 200, .int 170, .int 88, .int 44, .int 163, .int 81, .int 30,
       .int 221, .int 251, .int 116, .int 240, .int 47, .int 58, .int 101, .int 152, .int 152,
       .int 11, .int 185]]]),
   ("q", .call "Utils.bytearray_to_int" [.builtin "bytearray" [.list [.int 0, .int 155, .int 159,
       .int 96, .int 95, .int 90, .int 133, .int 129, .int 7, .int 171, .int 30, .int 200, .int
       94, .int 107, .int 65, .int 200, .int 170, .int 88, .int 44, .int 163, .int 81, .int 30,
       .int 221, .int 251, .int 116, .int 240, .int 47, .int 58, .int 101, .int 152, .int 152,
       .int 11, .int 185]]]),
   ("x", .int 0),
   ("y", .call "Utils.bytearray_to_int" [.builtin "bytearray" [.list [.int 65, .int 236, .int
       229, .int 87, .int 67, .int 113, .int 26, .int 140, .int 60, .int 191, .int 55, .int 131,
       .int 205, .int 8, .int 192, .int 238, .int 77, .int 77, .int 196, .int 64, .int 212, .int
       100, .int 26, .int 143, .int 54, .int 110, .int 85, .int 13, .int 253, .int 179, .int 187,
       .int 103]]])]

/-- id-tc26-gost-3410-12-512-paramSetA, lines 163-230. -/
def Signature.curve_3 : List (String × Expr) :=
  [("p", .call "Utils.bytearray_to_int" [.builtin "bytearray" [.list [.int 0, .int 255, .int 255,
      .int 255, .int 255, .int 255, .int 255, .int 255, .int 255, .int 255, .int 255, .int 255,
      .int 255, .int 255, .int 255, .int 255, .int 255, .int 255, .int 255, .int 255, .int 255,
      .int 255, .int 255, .int 255, .int 255, .int 255, .int 255, .int 255, .int 255, .int 255,
      .int 255, .int 255, .int 255, .int 255, .int 255, .int 255, .int 255, .int 255, .int 255,
      .int 255, .int 255, .int 255, .int 255, .int 255, .int 255, .int 255, .int 255, .int 255,
      .int 255, .int 255, .int 255, .int 255, .int 255, .int 255, .int 255, .int 255, .int 255,
      .int 255, .int 255, .int 255, .int 255, .int 255, .int 255, .int 253, .int 199]]]),
   ("a", .call "Utils.bytearray_to_int" [.builtin "bytearray" [.list [.int 0, .int 255, .int 255,
       .int 255, .int 255, .int 255, .int 255, .int 255, .int 255, .int 255, .int 255, .int 255,
       .int 255, .int 255, .int 255, .int 255, .int 255, .int 255, .int 255, .int 255, .int 255,
       .int 255, .int 255, .int 255, .int 255, .int 255, .int 255, .int 255, .int 255, .int 255,
       .int 255, .int 255, .int 255, .int 255, .int 255, .int 255, .int 255, .int 255, .int 255,
       .int 255, .int 255, .int 255, .int 255, .int 255, .int 255, .int 255, .int 255, .int 255,
       .int 255, .int 255, .int 255, .int 255, .int 255, .int 255, .int 255, .int 255, .int 255,
       .int 255, .int 255, .int 255, .int 255, .int 255, .int 255, .int 253, .int 196]]]),
   ("b", .call "Utils.bytearray_to_int" [.builtin "bytearray" [.list [.int 0, .int 232, .int 194,
       .int 80, .int 93, .int 237, .int 252, .int 134, .int 221, .int 193, .int 189, .int 11,
       .int 43, .int 102, .int 103, .int 241, .int 218, .int 52, .int 184, .int 37, .int 116,
       .int 118, .int 28, .int 176, .int 232, .int 121, .int 189, .int 8, .int 28, .int 253, .int
       11, .int 98, .int 101, .int 238, .int 60, .int 176, .int 144, .int 243, .int 13, .int 39,
       .int 97, .int 76, .int 180, .int 87, .int 64, .int 16, .int 218, .int 144, .int 221, .int
       134, .int 46, .int 249, .int 212, .int 235, .int 238, .int 71, .int 97, .int 80, .int 49,
       .int 144, .int 120, .int 90, .int 113, .int 199, .int 96]]]),
   ("m", .call "Utils.bytearray_to_int" [.builtin "bytearray" [.list [.int 0, .int 255, .int 255,
       .int 255, .int 255, .int 255, .int 255, .int 255, .int 255, .int 255, .int 255, .int 255,
       .int 255, .int 255, .int 255, .int 255, .int 255, .int 255, .int 255, .int 255, .int 255,
       .int 255, .int 255, .int 255, .int 255, .int 255, .int 255, .int 255, .int 255, .int 255,
       .int 255, .int 255, .int 255, .int 39, .int 230, .int 149, .int 50, .int 244, .int 141,
       .int 137, .int 17, .int 111, .int 242, .int 43, .int 141, .int 78, .int 5, .int 96, .int
       96, .int 155, .int 75, .int 56, .int 171, .int 250, .int 210, .int 184, .int 93, .int 202,
       .int 205, .int 177, .int 65, .int 31, .int 16, .int 178, .int 117]]]),
   ("q", .call "Utils.bytearray_to_int" [.builtin "bytearray" [.list [.int 0, .int 255, .int 255,
       .int 255, .int 255, .int 255, .int 255, .int 255, .int 255, .int 255, .int 255, .int 255,
       .int 255, .int 255, .int 255, .int 255, .int 255, .int 255, .int 255, .int 255, .int 255,
       .int 255, .int 255, .int 255, .int 255, .int 255, .int 255, .int 255, .int 255, .int 255,
       .int 255, .int 255, .int 255, .int 39, .int 230, .int 149, .int 50, .int 244, .int 141,
       .int 137, .int 17, .int 111, .int 242, .int 43, .int 141, .int 78, .int 5, .int 96, .int
       96, .int 155, .int 75, .int 56, .int 171, .int 250, .int 210, .int 184, .int 93, .int 202,
       .int 205, .int 177, .int 65, .int 31, .int 16, .int 178, .int 117]]]),
   ("x", .int 3),
   ("y", .call "Utils.bytearray_to_int" [.builtin "bytearray" [.list [.int 117, .int 3, .int 207,
       .int 232, .int 122, .int 131, .int 106, .int 227, .int 166, .int 27, .int 136, .int 22,
       .int 226, .int 84, .int 80, .int 230, .int 206, .int 94, .int 28, .int 147, .int 172, .int
       241, .int 171, .int 193, .int 119, .int 128, .int 100, .int 253, .int 203, .int 239, .int
       169, .int 33, .int 223, .int 22, .int 38, .int 190, .int 79, .int 208, .int 54, .int 233,
       .int 61, .int 117, .int 230, .int 165, .int 14, .int 58, .int 65, .int 233, .int 128, .int
       40, .int 254, .int 95, .int 194, .int 53, .int 245, .int 184, .int 137, .int 165, .int
       137, .int 203, .int 82, .int 21, .int 242, .int 164]]])]

/-- id-tc26-gost-3410-12-512-paramSetB, lines 231-297. -/
def Signature.curve_4 : List (String × Expr) :=
  [("p", .call "Utils.bytearray_to_int" [.builtin "bytearray" [.list [.int 0, .int 128, .int 0,
      .int 0, .int 0, .int 0, .int 0, .int 0, .int 0, .int 0, .int 0, .int 0, .int 0, .int 0,
      .int 0, .int 0, .int 0, .int 0, .int 0, .int 0, .int 0, .int 0, .int 0, .int 0, .int 0,
      .int 0, .int 0, .int 0, .int 0, .int 0, .int 0, .int 0, .int 0, .int 0, .int 0, .int 0,
      .int 0, .int 0, .int 0, .int 0, .int 0, .int 0, .int 0, .int 0, .int 0, .int 0, .int 0,
      .int 0, .int 0, .int 0, .int 0, .int 0, .int 0, .int 0, .int 0, .int 0, .int 0, .int 0,
      .int 0, .int 0, .int 0, .int 0, .int 0, .int 0, .int 111]]]),
   ("a", .call "Utils.bytearray_to_int" [.builtin "bytearray" [.list [.int 0, .int 128, .int 0,
       .int 0, .int 0, .int 0, .int 0, .int 0, .int 0, .int 0, .int 0, .int 0, .int 0, .int 0,
       .int 0, .int 0, .int 0, .int 0, .int 0, .int 0, .int 0, .int 0, .int 0, .int 0, .int 0,
       .int 0, .int 0, .int 0, .int 0, .int 0, .int 0, .int 0, .int 0, .int 0, .int 0, .int 0,
       .int 0, .int 0, .int 0, .int 0, .int 0, .int 0, .int 0, .int 0, .int 0, .int 0, .int 0,
       .int 0, .int 0, .int 0, .int 0, .int 0, .int 0, .int 0, .int 0, .int 0, .int 0, .int 0,
       .int 0, .int 0, .int 0, .int 0, .int 0, .int 0, .int 108]]]),
   ("b", .call "Utils.bytearray_to_int" [.builtin "bytearray" [.list [.int 104, .int 125, .int
       27, .int 69, .int 157, .int 200, .int 65, .int 69, .int 126, .int 62, .int 6, .int 207,
       .int 111, .int 94, .int 37, .int 23, .int 185, .int 124, .int 125, .int 97, .int 74, .int
       241, .int 56, .int 188, .int 191, .int 133, .int 220, .int 128, .int 108, .int 75, .int
       40, .int 159, .int 62, .int 150, .int 93, .int 45, .int 177, .int 65, .int 109, .int 33,
       .int 127, .int 139, .int 39, .int 111, .int 173, .int 26, .int 182, .int 156, .int 80,
       .int 247, .int 139, .int 238, .int 31, .int 163, .int 16, .int 110, .int 251, .int 140,
       .int 203, .int 199, .int 197, .int 20, .int 1, .int 22]]]),
   ("m", .call "Utils.bytearray_to_int" [.builtin "bytearray" [.list [.int 0, .int 128, .int 0,
       .int 0, .int 0, .int 0, .int 0, .int 0, .int 0, .int 0, .int 0, .int 0, .int 0, .int 0,
       .int 0, .int 0, .int 0, .int 0, .int 0, .int 0, .int 0, .int 0, .int 0, .int 0, .int 0,
       .int 0, .int 0, .int 0, .int 0, .int 0, .int 0, .int 0, .int 1, .int 73, .int 161, .int
       236, .int 20, .int 37, .int 101, .int 165, .int 69, .int 172, .int 253, .int 183, .int
       123, .int 217, .int 212, .int 12, .int 250, .int 139, .int 153, .int 103, .int 18, .int
       16, .int 27, .int 234, .int 14, .int 198, .int 52, .int 108, .int 84, .int 55, .int 79,
       .int 37, .int 189]]]),
   ("q", .call "Utils.bytearray_to_int" [.builtin "bytearray" [.list [.int 0, .int 128, .int 0,
       .int 0, .int 0, .int 0, .int 0, .int 0, .int 0, .int 0, .int 0, .int 0, .int 0, .int 0,
       .int 0, .int 0, .int 0, .int 0, .int 0, .int 0, .int 0, .int 0, .int 0, .int 0, .int 0,
       .int 0, .int 0, .int 0, .int 0, .int 0, .int 0, .int 0, .int 1, .int 73, .int 161, .int
       236, .int 20, .int 37, .int 101, .int 165, .int 69, .int 172, .int 253, .int 183, .int
       123, .int 217, .int 212, .int 12, .int 250, .int 139, .int 153, .int 103, .int 18, .int
       16, .int 27, .int 234, .int 14, .int 198, .int 52, .int 108, .int 84, .int 55, .int 79,
       .int 37, .int 189]]]),
   ("x", .int 2),
   ("y", .call "Utils.bytearray_to_int" [.builtin "bytearray" [.list [.int 26, .int 143, .int
       126, .int 218, .int 56, .int 155, .int 9, .int 76, .int 44, .int 7, .int 30, .int 54, .int
       71, .int 168, .int 148, .int 15, .int 60, .int 18, .int 59, .int 105, .int 117, .int 120,
       .int 194, .int 19, .int 190, .int 109, .int 217, .int 230, .int 200, .int 236, .int 115,
       .int 53, .int 220, .int 178, .int 40, .int 253, .int 30, .int 223, .int 74, .int 57, .int
       21, .int 44, .int 188, .int 170, .int 248, .int 192, .int 57, .int 136, .int 40, .int 4,
       .int 16, .int 85, .int 249, .int 76, .int 238, .int 236, .int 126, .int 33, .int 52, .int
       7, .int 128, .int 254, .int 65, .int 189]]])]

/-- id-tc26-gost-3410-2012-256-paramSetA, lines 298-359. -/
def Signature.curve_5 : List (String × Expr) :=
  [("p", .call "Utils.bytearray_to_int" [.builtin "bytearray" [.list [.int 0, .int 255, .int 255,
      .int 255, .int 255, .int 255, .int 255, .int 255, .int 255, .int 255, .int 255, .int 255,
      .int 255, .int 255, .int 255, .int 255, .int 255, .int 255, .int 255, .int 255, .int 255,
      .int 255, .int 255, .int 255, .int 255, .int 255, .int 255, .int 255, .int 255, .int 255,
      .int 255, .int 253, .int 151]]]),
   ("a", .call "Utils.bytearray_to_int" [.builtin "bytearray" [.list [.int 0, .int 194, .int 23,
       .int 63, .int 21, .int 19, .int 152, .int 22, .int 115, .int 175, .int 72, .int 146, .int
       194, .int 48, .int 53, .int 162, .int 124, .int 226, .int 94, .int 32, .int 19, .int 191,
       .int 149, .int 170, .int 51, .int 178, .int 44, .int 101, .int 111, .int 39, .int 126,
       .int 115, .int 53]]]),
   ("b", .call "Utils.bytearray_to_int" [.builtin "bytearray" [.list [.int 41, .int 95, .int 155,
       .int 174, .int 116, .int 40, .int 237, .int 156, .int 204, .int 32, .int 231, .int 195,
       .int 89, .int 169, .int 212, .int 26, .int 34, .int 252, .int 205, .int 145, .int 8, .int
       225, .int 123, .int 247, .int 186, .int 147, .int 55, .int 166, .int 248, .int 174, .int
       149, .int 19]]]),
   ("e", .int 1),
   ("d", .call "Utils.bytearray_to_int" [.builtin "bytearray" [.list [.int 6, .int 5, .int 246,
       .int 183, .int 193, .int 131, .int 250, .int 129, .int 87, .int 139, .int 195, .int 156,
       .int 250, .int 213, .int 24, .int 19, .int 43, .int 157, .int 246, .int 40, .int 151, .int
       0, .int 154, .int 247, .int 229, .int 34, .int 195, .int 45, .int 109, .int 199, .int 191,
       .int 251]]]),
   ("m", .call "Utils.bytearray_to_int" [.builtin "bytearray" [.list [.int 1, .int 0, .int 0,
       .int 0, .int 0, .int 0, .int 0, .int 0, .int 0, .int 0, .int 0, .int 0, .int 0, .int 0,
       .int 0, .int 0, .int 0, .int 63, .int 99, .int 55, .int 127, .int 33, .int 237, .int 152,
       .int 215, .int 4, .int 86, .int 189, .int 85, .int 176, .int 216, .int 49, .int 156]]]),
   ("q", .call "Utils.bytearray_to_int" [.builtin "bytearray" [.list [.int 64, .int 0, .int 0,
       .int 0, .int 0, .int 0, .int 0, .int 0, .int 0, .int 0, .int 0, .int 0, .int 0, .int 0,
       .int 0, .int 0, .int 15, .int 216, .int 205, .int 223, .int 200, .int 123, .int 102, .int
       53, .int 193, .int 21, .int 175, .int 85, .int 108, .int 54, .int 12, .int 103]]]),
   ("x", .call "Utils.bytearray_to_int" [.builtin "bytearray" [.list [.int 0, .int 145, .int 227,
       .int 132, .int 67, .int 165, .int 232, .int 44, .int 13, .int 136, .int 9, .int 35, .int
       66, .int 87, .int 18, .int 178, .int 187, .int 101, .int 139, .int 145, .int 150, .int
       147, .int 46, .int 2, .int 199, .int 139, .int 37, .int 130, .int 254, .int 116, .int 45,
       .int 170, .int 40]]]),
   ("y", .call "Utils.bytearray_to_int" [.builtin "bytearray" [.list [.int 50, .int 135, .int
       148, .int 35, .int 171, .int 26, .int 3, .int 117, .int 137, .int 87, .int 134, .int 196,
       .int 187, .int 70, .int 233, .int 86, .int 95, .int 222, .int 11, .int 83, .int 68, .int
       118, .int 103, .int 64, .int 175, .int 38, .int 138, .int 219, .int 50, .int 50, .int 46,
       .int 92]]]),
   ("u", .int 13),
   ("v", .call "Utils.bytearray_to_int" [.builtin "bytearray" [.list [.int 96, .int 202, .int 30,
       .int 50, .int 170, .int 71, .int 91, .int 52, .int 132, .int 136, .int 195, .int 143, .int
       171, .int 7, .int 100, .int 156, .int 231, .int 239, .int 141, .int 190, .int 135, .int
       242, .int 46, .int 129, .int 249, .int 43, .int 37, .int 146, .int 219, .int 163, .int 0,
       .int 231]]])]

/-- id-tc26-gost-3410-2012-512-paramSetC, lines 360-460. -/
def Signature.curve_6 : List (String × Expr) :=
  [("p", .call "Utils.bytearray_to_int" [.builtin "bytearray" [.list [.int 0, .int 255, .int 255,
      .int 255, .int 255, .int 255, .int 255, .int 255, .int 255, .int 255, .int 255, .int 255,
      .int 255, .int 255, .int 255, .int 255, .int 255, .int 255, .int 255, .int 255, .int 255,
      .int 255, .int 255, .int 255, .int 255, .int 255, .int 255, .int 255, .int 255, .int 255,
      .int 255, .int 255, .int 255, .int 255, .int 255, .int 255, .int 255, .int 255, .int 255,
      .int 255, .int 255, .int 255, .int 255, .int 255, .int 255, .int 255, .int 255, .int 255,
      .int 255, .int 255, .int 255, .int 255, .int 255, .int 255, .int 255, .int 255, .int 255,
      .int 255, .int 255, .int 255, .int 255, .int 255, .int 255, .int 253, .int 199]]]),
   ("a", .call "Utils.bytearray_to_int" [.builtin "bytearray" [.list [.int 0, .int 220, .int 146,
       .int 3, .int 229, .int 20, .int 167, .int 33, .int 135, .int 84, .int 133, .int 165, .int
       41, .int 210, .int 199, .int 34, .int 251, .int 24, .int 123, .int 200, .int 152, .int 14,
       .int 184, .int 102, .int 100, .int 77, .int 228, .int 28, .int 104, .int 225, .int 67,
       .int 6, .int 69, .int 70, .int 232, .int 97, .int 192, .int 226, .int 201, .int 237, .int
       217, .int 42, .int 222, .int 113, .int 244, .int 111, .int 207, .int 80, .int 255, .int
       42, .int 217, .int 127, .int 149, .int 31, .int 218, .int 159, .int 42, .int 46, .int 182,
       .int 84, .int 111, .int 57, .int 104, .int 155, .int 211]]]),
   ("b", .call "Utils.bytearray_to_int" [.builtin "bytearray" [.list [.int 0, .int 180, .int 196,
       .int 238, .int 40, .int 206, .int 188, .int 108, .int 44, .int 138, .int 193, .int 41,
       .int 82, .int 207, .int 55, .int 241, .int 106, .int 199, .int 239, .int 182, .int 169,
       .int 246, .int 159, .int 75, .int 87, .int 255, .int 218, .int 46, .int 79, .int 13, .int
       229, .int 173, .int 224, .int 56, .int 203, .int 194, .int 255, .int 247, .int 25, .int
       210, .int 193, .int 141, .int 224, .int 40, .int 75, .int 139, .int 254, .int 243, .int
       181, .int 43, .int 140, .int 199, .int 165, .int 245, .int 191, .int 10, .int 60, .int
       141, .int 35, .int 25, .int 165, .int 49, .int 37, .int 87, .int 225]]]),
   ("e", .int 1),
   ("d", .call "Utils.bytearray_to_int" [.builtin "bytearray" [.list [.int 0, .int 158, .int 79,
       .int 93, .int 140, .int 1, .int 125, .int 141, .int 159, .int 19, .int 165, .int 207, .int
       60, .int 223, .int 91, .int 254, .int 77, .int 171, .int 64, .int 45, .int 84, .int 25,
       .int 142, .int 49, .int 235, .int 222, .int 40, .int 160, .int 98, .int 16, .int 80, .int
       67, .int 156, .int 166, .int 179, .int 158, .int 10, .int 81, .int 92, .int 6, .int 179,
       .int 4, .int 226, .int 206, .int 67, .int 231, .int 158, .int 54, .int 158, .int 145, .int
       160, .int 207, .int 194, .int 188, .int 42, .int 34, .int 180, .int 202, .int 48, .int 45,
       .int 187, .int 51, .int 238, .int 117, .int 80]]]),
   ("m", .call "Utils.bytearray_to_int" [.builtin "bytearray" [.list [.int 0, .int 255, .int 255,
       .int 255, .int 255, .int 255, .int 255, .int 255, .int 255, .int 255, .int 255, .int 255,
       .int 255, .int 255, .int 255, .int 255, .int 255, .int 255, .int 255, .int 255, .int 255,
       .int 255, .int 255, .int 255, .int 255, .int 255, .int 255, .int 255, .int 255, .int 255,
       .int 255, .int 255, .int 255, .int 38, .int 51, .int 110, .int 145, .int 148, .int 26,
       .int 172, .int 1, .int 48, .int 206, .int 167, .int 253, .int 69, .int 29, .int 64, .int
       179, .int 35, .int 182, .int 167, .int 158, .int 157, .int 166, .int 132, .int 154, .int
       81, .int 136, .int 243, .int 189, .int 31, .int 192, .int 143, .int 180]]]),
   ("q", .call "Utils.bytearray_to_int" [.builtin "bytearray" [.list [.int 63, .int 255, .int
       255, .int 255, .int 255, .int 255, .int 255, .int 255, .int 255, .int 255, .int 255, .int
       255, .int 255, .int 255, .int 255, .int 255, .int 255, .int 255, .int 255, .int 255, .int
       255, .int 255, .int 255, .int 255, .int 255, .int 255, .int 255, .int 255, .int 255, .int
       255, .int 255, .int 255, .int 201, .int 140, .int 219, .int 164, .int 101, .int 6, .int
       171, .int 0, .int 76, .int 51, .int 169, .int 255, .int 81, .int 71, .int 80, .int 44,
       .int 200, .int 237, .int 169, .int 231, .int 167, .int 105, .int 161, .int 38, .int 148,
       .int 98, .int 60, .int 239, .int 71, .int 240, .int 35, .int 237]]]),
   ("x", .call "Utils.bytearray_to_int" [.builtin "bytearray" [.list [.int 0, .int 226, .int 227,
       .int 30, .int 223, .int 194, .int 61, .int 231, .int 189, .int 235, .int 226, .int 65,
       .int 206, .int 89, .int 62, .int 245, .int 222, .int 34, .int 149, .int 183, .int 169,
       .int 203, .int 174, .int 240, .int 33, .int 211, .int 133, .int 247, .int 7, .int 76, .int
       234, .int 4, .int 58, .int 162, .int 114, .int 114, .int 167, .int 174, .int 96, .int 43,
       .int 242, .int 167, .int 185, .int 3, .int 61, .int 185, .int 237, .int 54, .int 16, .int
       198, .int 251, .int 133, .int 72, .int 126, .int 174, .int 151, .int 170, .int 197, .int
       188, .int 121, .int 40, .int 193, .int 149, .int 1, .int 72]]]),
   ("y", .call "Utils.bytearray_to_int" [.builtin "bytearray" [.list [.int 0, .int 245, .int 206,
       .int 64, .int 217, .int 91, .int 94, .int 184, .int 153, .int 171, .int 188, .int 207,
       .int 245, .int 145, .int 28, .int 184, .int 87, .int 121, .int 57, .int 128, .int 77, .int
       101, .int 39, .int 55, .int 139, .int 140, .int 16, .int 140, .int 61, .int 32, .int 144,
       .int 255, .int 155, .int 225, .int 142, .int 45, .int 51, .int 227, .int 2, .int 30, .int
       210, .int 239, .int 50, .int 216, .int 88, .int 34, .int 66, .int 59, .int 99, .int 4,
       .int 247, .int 38, .int 170, .int 133, .int 75, .int 174, .int 7, .int 208, .int 57, .int
       110, .int 154, .int 154, .int 221, .int 196, .int 15]]]),
   ("u", .int 18),
   ("v", .call "Utils.bytearray_to_int" [.builtin "bytearray" [.list [.int 70, .int 154, .int
       247, .int 157, .int 31, .int 177, .int 245, .int 225, .int 107, .int 153, .int 89, .int
       43, .int 119, .int 160, .int 30, .int 42, .int 15, .int 223, .int 176, .int 208, .int 23,
       .int 148, .int 54, .int 141, .int 154, .int 86, .int 17, .int 127, .int 123, .int 56, .int
       102, .int 149, .int 34, .int 221, .int 75, .int 101, .int 12, .int 247, .int 137, .int
       238, .int 191, .int 6, .int 140, .int 93, .int 19, .int 151, .int 50, .int 240, .int 144,
       .int 86, .int 34, .int 192, .int 75, .int 43, .int 170, .int 231, .int 96, .int 3, .int 3,
       .int 238, .int 115, .int 0, .int 26, .int 61]]])]

/-- The table. -/
def Signature.curves : List (String × List (String × Expr)) :=
  [("id-tc26-gost-3410-2012-256-paramSetB", Signature.curve_0),
   ("id-tc26-gost-3410-2012-256-paramSetC", Signature.curve_1),
   ("id-tc26-gost-3410-2012-256-paramSetD", Signature.curve_2),
   ("id-tc26-gost-3410-12-512-paramSetA", Signature.curve_3),
   ("id-tc26-gost-3410-12-512-paramSetB", Signature.curve_4),
   ("id-tc26-gost-3410-2012-256-paramSetA", Signature.curve_5),
   ("id-tc26-gost-3410-2012-512-paramSetC", Signature.curve_6)]

end Gost.Src
