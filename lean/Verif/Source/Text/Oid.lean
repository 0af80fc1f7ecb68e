import Verif.Source.Syntax

/-! Written by `tools/gen_source.py` from /repo/gostcrypto/gostoid/oid.py. -/

namespace Gost.Src

/-- `OBJECT_IDENTIFIER_TC26`, oid.py 22-74. -/
def Oid.g_OBJECT_IDENTIFIER_TC26 : Val := .dict [
  ("1.2.643.7.1", .str "id-tc26"),
  ("1.2.643.7.1.0", .str "modules"),
  ("1.2.643.7.1.0.1", .str "gostR3410-2012-ParamSetSyntax"),
  ("1.2.643.7.1.0.2", .str "gostR3410-2012-PKISyntax"),
  ("1.2.643.7.1.0.3", .str "gostR3410-2012-SignatureSyntax"),
  ("1.2.643.7.1.0.4", .str "gostR3410-2012-EncryptionSyntax"),
  ("1.2.643.7.1.0.5", .str "pkcs-12ruSyntax"),
  ("1.2.643.7.1.1", .str "id-tc26-algorithms"),
  ("1.2.643.7.1.1.1", .str "id-tc26-sign"),
  ("1.2.643.7.1.1.1.1", .str "id-tc26-gost3410-12-256"),
  ("1.2.643.7.1.1.1.2", .str "id-tc26-gost3410-12-512"),
  ("1.2.643.7.1.1.2", .str "id-tc26-digest"),
  ("1.2.643.7.1.1.2.2", .str "id-tc26-gost3411-12-256"),
  ("1.2.643.7.1.1.2.3", .str "id-tc26-gost3411-12-512"),
  ("1.2.643.7.1.1.3", .str "id-tc26-signwithdigest"),
  ("1.2.643.7.1.1.3.2", .str "id-tc26-signwithdigest-gost3410-12-256"),
  ("1.2.643.7.1.1.3.3", .str "id-tc26-signwithdigest-gost3410-12-512"),
  ("1.2.643.7.1.1.4", .str "id-tc26-mac"),
  ("1.2.643.7.1.1.4.1", .str "id-tc26-hmac-gost-3411-12-256"),
  ("1.2.643.7.1.1.4.2", .str "id-tc26-hmac-gost-3411-12-512"),
  ("1.2.643.7.1.1.5", .str "id-tc26-cipher"),
  ("1.2.643.7.1.1.5.1", .str "id-tc26-cipher-gostr3412-2015-magma"),
  ("1.2.643.7.1.1.5.1.1", .str "id-tc26-cipher-gostr3412-2015-magma-ctracpkm"),
  ("1.2.643.7.1.1.5.1.2", .str "id-tc26-cipher-gostr3412-2015-magma-ctracpkm-omac"),
  ("1.2.643.7.1.1.5.2", .str "id-tc26-cipher-gostr3412-2015-kuznyechik"),
  ("1.2.643.7.1.1.5.2.1", .str "id-tc26-cipher-gostr3412-2015-kuznyechik-ctracpkm"),
  ("1.2.643.7.1.1.5.2.2", .str "id-tc26-cipher-gostr3412-2015-kuznyechik-ctracpkm-omac"),
  ("1.2.643.7.1.1.6", .str "id-tc26-agreement"),
  ("1.2.643.7.1.1.6.1", .str "id-tc26-agreement-gost-3410-12-256"),
  ("1.2.643.7.1.1.6.2", .str "id-tc26-agreement-gost-3410-12-512"),
  ("1.2.643.7.1.1.7", .str "id-tc26-wrap"),
  ("1.2.643.7.1.1.7.1", .str "id-tc26-wrap-gostr3412-2015-magma"),
  ("1.2.643.7.1.1.7.1.1", .str "id-tc26-wrap-gostr3412-2015-magma-kexp15"),
  ("1.2.643.7.1.1.7.2", .str "id-tc26-wrap-gostr3412-2015-kuznyechik"),
  ("1.2.643.7.1.1.7.2.1", .str "id-tc26-wrap-gostr3412-2015-kuznyechik-kexp15"),
  ("1.2.643.7.1.2", .str "id-tc26-constants"),
  ("1.2.643.7.1.2.1", .str "id-tc26-sign-constants"),
  ("1.2.643.7.1.2.1.1", .str "id-tc26-gost-3410-12-256-constants"),
  ("1.2.643.7.1.2.1.1.1", .str "id-tc26-gost-3410-12-256-paramSetA"),
  ("1.2.643.7.1.2.1.1.2", .str "id-tc26-gost-3410-12-256-paramSetB"),
  ("1.2.643.7.1.2.1.1.3", .str "id-tc26-gost-3410-12-256-paramSetC"),
  ("1.2.643.7.1.2.1.1.4", .str "id-tc26-gost-3410-12-256-paramSetD"),
  ("1.2.643.7.1.2.1.2", .str "id-tc26-gost-3410-12-512-constants"),
  ("1.2.643.7.1.2.1.2.0", .str "id-tc26-gost-3410-12-512-paramSetTest"),
  ("1.2.643.7.1.2.1.2.1", .str "id-tc26-gost-3410-12-512-paramSetA"),
  ("1.2.643.7.1.2.1.2.2", .str "id-tc26-gost-3410-12-512-paramSetB"),
  ("1.2.643.7.1.2.1.2.3", .str "id-tc26-gost-3410-12-512-paramSetС"),
  ("1.2.643.7.1.2.2", .str "id-tc26-digset-constants"),
  ("1.2.643.7.1.2.5", .str "id-tc26-cipher-constants"),
  ("1.2.643.7.1.2.5.1", .str "id-tc26-gost-28147-constants"),
  ("1.2.643.7.1.2.5.1.1", .str "id-tc26-gost-28147-param-Z")]

/-- `_TAG_OID`, oid.py 76-76. -/
def Oid.g_TAG_OID : Val := .int 6

/-- `Oid._len_int`, oid.py 79-85. -/
def Oid.f__len_int : FunDef where
  params := ["value", "num_bit"]
  defaults := []
  static := true
  body :=
    [.assign (.name "result") (.bin .floordiv (.meth (.name "value") "bit_length" []) (.name
        "num_bit")),
     .if_ (.cmp .eq (.name "result") (.int 0))
        [.ret (.int 1)]
        [],
     .if_ (.cmp .ne (.bin .mod (.meth (.name "value") "bit_length" []) (.name "num_bit")) (.int
         0))
        [.assign (.name "result") (.bin .add (.name "result") (.int 1))]
        [],
     .ret (.name "result")]

/-- `Oid._len_oid_octet`, oid.py 88-96. -/
def Oid.f__len_oid_octet : FunDef where
  params := ["value"]
  defaults := []
  static := true
  body :=
    [.if_ (.cmp .lt (.name "value") (.int 128))
        [.ret (.builtin "bytearray" [.meth (.name "value") "to_bytes" [.int 1, .str "big"]])]
        [],
     .assign (.name "result") (.builtin "bytearray" [.bin .add (.call "Oid._len_int" [.name
         "value", .int 8]) (.int 1)]),
     .assign (.index (.name "result") (.int 0)) (.bin .bor (.int 128) (.call "Oid._len_int"
         [.name "value", .int 8])),
     .for_ "i" (.builtin "range" [.call "Oid._len_int" [.name "value", .int 8], .int 0, .int
         (-1)])
        [.assign (.index (.name "result") (.name "i")) (.bin .band (.name "value") (.int 255)),
         .assign (.name "value") (.bin .shr (.name "value") (.int 8))],
     .ret (.name "result")]

/-- `Oid._int_to_octet`, oid.py 99-107. -/
def Oid.f__int_to_octet : FunDef where
  params := ["value"]
  defaults := []
  static := true
  body :=
    [.if_ (.cmp .lt (.name "value") (.int 128))
        [.ret (.builtin "bytearray" [.meth (.name "value") "to_bytes" [.int 1, .str "big"]])]
        [],
     .assign (.name "result") (.builtin "bytearray" [.call "Oid._len_int" [.name "value", .int
         7]]),
     .for_ "i" (.builtin "range" [.bin .sub (.call "Oid._len_int" [.name "value", .int 7]) (.int
         1), .int (-1), .int (-1)])
        [.assign (.index (.name "result") (.name "i")) (.bin .band (.name "value") (.int 127)),
         .assign (.name "value") (.bin .shr (.name "value") (.int 7))],
     .assign (.index (.name "result") (.int 0)) (.bin .bor (.index (.name "result") (.int 0))
         (.int 128)),
     .ret (.name "result")]

/-- `Oid._encode_octet`, oid.py 110-129. -/
def Oid.f__encode_octet : FunDef where
  params := ["value"]
  defaults := []
  static := true
  body :=
    [.assign (.name "result") (.builtin "bytearray" []),
     .if_ (.cmp .eq (.index (.name "value") (.int 0)) (.int 0))
        [.if_ (.cmp .lt (.index (.name "value") (.int 1)) (.int 40))
            [.assign (.name "first_value") (.index (.name "value") (.int 1))]
            [.raise "GOSTOIDError" "invalid second SID value"]]
        [.if_ (.cmp .eq (.index (.name "value") (.int 0)) (.int 1))
            [.if_ (.cmp .lt (.index (.name "value") (.int 1)) (.int 40))
                [.assign (.name "first_value") (.bin .add (.index (.name "value") (.int 1)) (.int
                    40))]
                [.raise "GOSTOIDError" "invalid second SID value"]]
            [.if_ (.cmp .eq (.index (.name "value") (.int 0)) (.int 2))
                [.assign (.name "first_value") (.bin .add (.index (.name "value") (.int 1)) (.int
                    80))]
                [.raise "GOSTOIDError" "invalid first SID value"]]],
     .assign (.name "result") (.call "Oid._int_to_octet" [.name "first_value"]),
     .for_ "iter_value" (.slice (.name "value") (some (.int 2)) none)
        [.assign (.name "result") (.bin .add (.name "result") (.call "Oid._int_to_octet" [.name
            "iter_value"]))],
     .ret (.name "result")]

/-- `ObjectIdentifier.__init__`, oid.py 142-149. -/
def ObjectIdentifier.m___init__ : FunDef where
  params := ["self", "oid_value"]
  defaults := []
  static := false
  body :=
    [.assign (.attr (.name "self") "_oid_str") (.name "oid_value")]

/-- `ObjectIdentifier.__str__`, oid.py 151-153. -/
def ObjectIdentifier.m___str__ : FunDef where
  params := ["self"]
  defaults := []
  static := false
  body :=
    [.ret (.attr (.name "self") "_oid_str")]

/-- `ObjectIdentifier.name`, oid.py 155-165. -/
def ObjectIdentifier.m_name : FunDef where
  params := ["self"]
  defaults := []
  static := false
  body :=
    [.ret (.meth (.glob "Oid.OBJECT_IDENTIFIER_TC26") "get" [.attr (.name "self") "_oid_str",
        .str ""])]

/-- `ObjectIdentifier.digit`, oid.py 167-179. -/
def ObjectIdentifier.m_digit : FunDef where
  params := ["self"]
  defaults := []
  static := false
  body :=
    [.tryValueError
        [.assign (.name "result") (.builtin "tuple" [.comp (.builtin "int" [.name "item"]) "item"
            (.meth (.attr (.name "self") "_oid_str") "split" [.str "."])])]
        [.raise "GOSTOIDError" "invalid OID value"],
     .ret (.name "result")]

/-- `ObjectIdentifier.octet`, oid.py 181-191. -/
def ObjectIdentifier.m_octet : FunDef where
  params := ["self"]
  defaults := []
  static := false
  body :=
    [.assign (.name "preamble") (.builtin "bytearray" []),
     .assign (.name "oid_octet") (.builtin "bytearray" []),
     .assign (.name "oid_octet") (.call "Oid._encode_octet" [.attr (.name "self") "digit"]),
     .assign (.name "preamble") (.bin .add (.builtin "bytearray" [.meth (.glob "Oid._TAG_OID")
         "to_bytes" [.int 1, .str "big"]]) (.call "Oid._len_oid_octet" [.builtin "len" [.name
         "oid_octet"]])),
     .ret (.bin .add (.name "preamble") (.name "oid_octet"))]

end Gost.Src
