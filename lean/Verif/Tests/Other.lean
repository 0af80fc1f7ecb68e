import Verif.Tests.Hex
import Verif.Model.Pbkdf
import Verif.Model.Random
import Verif.Model.Curves
import Verif.Model.Oid

/-! The vectors of the other unit tests of the repository evaluated on the model. -/

namespace Gost.Tests

def msgShort : Bytes := hex "303132333435363738393031323334353637383930313233343536373839303132333435363738393031323334353637383930313233343536373839303132"
def msgLong : Bytes := hex "d1e520e2e5f2f0e82c20d1f2f0e8e1eee6e820e2edf3f6e82c20e2e5fef2fa20f120eceef0ff20f1f2f0e5ebe0ece820ede020f5f0e0e1f0fbff20efebfaeafb20c8e3eef0e5e2fb"

def hashOf (name : String) (ups : List Bytes) : Res Bytes := do
  let s ← HashObj.new name
  pure (ups.foldl HashObj.updateBytes s).digest

#guard hashOf "streebog512" [msgLong] == .ok (hex "1e88e62226bfca6f9994f1f2d51569e0daf8475a3b0fe61a5300eee46d961376035fe83549ada2b8620fcd7c496ce5b33f0cb9dddc2b6460143b03dabac9fb28")
#guard hashOf "streebog512" [hex "d1e520e2e5f2f0e82c20d1f2f0e8e1eee6e820e2edf3f6e82c20e2e5fef2fa20f120eceef0ff20", hex "f1f2f0e5ebe0ece820ede020f5f0e0e1f0fbff20efebfaeafb20c8e3eef0e5e2fb"] == .ok (hex "1e88e62226bfca6f9994f1f2d51569e0daf8475a3b0fe61a5300eee46d961376035fe83549ada2b8620fcd7c496ce5b33f0cb9dddc2b6460143b03dabac9fb28")
#guard hashOf "streebog256" [hex "d0cf11e0a1b11ae1000000000000000000000000000000003e000300feff0900060000000000000000000000010000000100000000000000001000002400000001000000feffffff0000000000000000ffffffffffffffffffffffffffffffffffffffffffffffffffffffffffffffffffffffffffffffffffffffffffffffffffffffffffffffffffffffffffffffff"] == .ok (hex "c766085540caaa8953bfcf7a1ba220619cee50d65dc242f82f23ba4b180b18e0")
#guard hashOf "streebog512" [msgShort] == .ok (hex "1b54d01a4af5b9d5cc3d86d68d285462b19abc2475222f35c085122be4ba1ffa00ad30f8767b3a82384c6574f024c311e2a481332b08ef7f41797891c1646f48")
#guard hashOf "streebog256" [msgShort] == .ok (hex "9d151eefd8590b89daa6ba6cb74af9275dd051026bb149a452fd84e5e57b5500")

def hmacOf (name : String) (key : Bytes) (ups : List Bytes) : Res Bytes := do
  let s ← Hmac.new name (.bytearray key)
  pure (ups.foldl Hmac.updateBytes s).digest

#guard hmacOf "HMAC_GOSTR3411_2012_256" (hex "000102030405060708090a0b0c0d0e0f101112131415161718191a1b1c1d1e1f") [hex "0126bdb87800af214341456563780100"] == .ok (hex "a1aa5f7de402d7b3d323f2991c8d4534013137010a83754fd0af6d7cd4922ed9")
#guard hmacOf "HMAC_GOSTR3411_2012_512" (hex "000102030405060708090a0b0c0d0e0f101112131415161718191a1b1c1d1e1f") [hex "0126bdb87800af214341456563780100"] == .ok (hex "a59bab22ecae19c65fbde6e5f4e9f5d8549d31f037f9df9b905500e171923a773d5f1530f2ed7e964cb2eedc29e9ad2f3afe93b2814f79f5000ffc0366c251e6")
#guard hmacOf "HMAC_GOSTR3411_2012_256" (hex "000102030405060708090a0b0c0d0e0f101112131415161718191a1b1c1d1e1f") [hex "0126bdb87800af214341456563780100", hex "0126bdb87800af214341456563780100"] == .ok (hex "7c3f66aacd8015751cd8c4735819dfa3a2ec36d89c241c6551878c37c84b092e")

def pbkdfOf (pw salt : Bytes) (c n : Int) : Res Bytes :=
  Pbkdf.new [] (.bytes pw) (some (.bytes salt)) c >>= fun s => (s.derive n).2

#guard pbkdfOf (hex "70617373776f7264") (hex "73616c74") 1 64 == .ok (hex "64770af7f748c3b1c9ac831dbcfd85c26111b30a8a657ddc3056b80ca73e040d2854fd36811f6d825cc4ab66ec0a68a490a9e5cf5156b3a2b7eecddbf9a16b47")
#guard pbkdfOf (hex "70617373776f7264") (hex "73616c74") 2 64 == .ok (hex "5a585bafdfbb6e8830d6d68aa3b43ac00d2e4aebce01c9b31c2caed56f0236d4d34b2b8fbd2c4e89d54d46f50e47d45bbac301571743119e8d3c42ba66d348de")
#guard pbkdfOf (hex "70617373776f7264") (hex "73616c74") 1 32 == .ok (hex "64770af7f748c3b1c9ac831dbcfd85c26111b30a8a657ddc3056b80ca73e040d")

def randOf (seed : Bytes) (n : Int) : Res Bytes :=
  Rand.new [] n (some (.bytearray seed)) 32 >>= fun s => s.random.2

#guard randOf (hex "ffffffffffffffffffffffffffffffffffffffffffffffffffffffffffffffff") 32 == .ok (hex "a8e2f900dd4d7e245f09753d01e875fc38f14ff5254c94eadb451e4ab603b147")
#guard randOf (hex "ffffffffffffffffffffffffffffffffffffffffffffffffffffffffffffffff") 68 == .ok (hex "66c5b4f04ffac359d650d0ff6ca88873697979eb9cc6c63d3eab2662f7d46875a8e2f900dd4d7e245f09753d01e875fc38f14ff5254c94eadb451e4ab603b1474afe1761")
#guard randOf (hex "0000000000000000000000000000000000000000000000000000000000000000") 32 == .error (.randomError "GOSTRandomError: the seed value is zero")

def t256_paramSetTest : CurveParams where
  p := some 0x8000000000000000000000000000000000000000000000000000000000000431
  a := some 0x7
  b := some 0x5fbff498aa938ce739b8e022fbafef40563f6e6a3472fc2a514c0ce9dae23b7e
  m := some 0x8000000000000000000000000000000150fe8a1892976154c59cfc193accf5b3
  q := some 0x8000000000000000000000000000000150fe8a1892976154c59cfc193accf5b3
  x := some 0x2
  y := some 0x8e2a8a0e65147d4bd6316030e16d19c85c97f0a9ca267122b96abbcea7e8fc8

def t256_paramSetTest_raises_1 : CurveParams where
  p := some 0x8000000000000000000000000000000150fe8a1892976154c59cfc193accf5b3
  a := some 0x7
  b := some 0x5fbff498aa938ce739b8e022fbafef40563f6e6a3472fc2a514c0ce9dae23b7e
  m := some 0x8000000000000000000000000000000150fe8a1892976154c59cfc193accf5b3
  q := some 0x8000000000000000000000000000000150fe8a1892976154c59cfc193accf5b3
  x := some 0x2
  y := some 0x8e2a8a0e65147d4bd6316030e16d19c85c97f0a9ca267122b96abbcea7e8fc8

def t256_paramSetTest_raises_2 : CurveParams where
  p := some 0x8000000000000000000000000000000000000000000000000000000000000431
  a := some 0x7
  b := some 0x5fbff498aa938ce739b8e022fbafef40563f6e6a3472fc2a514c0ce9dae23b7e
  m := some 0x8000000000000000000000000000000150fe8a1892976154c59cfc193accf5b3
  q := some 0x41
  x := some 0x2
  y := some 0x8e2a8a0e65147d4bd6316030e16d19c85c97f0a9ca267122b96abbcea7e8fc8

def t256_paramSetTest_raises_3 : CurveParams where
  p := some 0x2
  a := some 0x7
  b := some 0x5fbff498aa938ce739b8e022fbafef40563f6e6a3472fc2a514c0ce9dae23b7e
  m := some 0x8000000000000000000000000000000150fe8a1892976154c59cfc193accf5b3
  q := some 0x70
  x := some 0x2
  y := some 0x8e2a8a0e65147d4bd6316030e16d19c85c97f0a9ca267122b96abbcea7e8fc8

def t256_paramSetTest_raises_6 : CurveParams where
  p := some 0x8000000000000000000000000000000000000000000000000000000000000431
  a := some 0x7
  b := some 0xe
  m := some 0x8000000000000000000000000000000150fe8a1892976154c59cfc193accf5b3
  q := some 0x8000000000000000000000000000000150fe8a1892976154c59cfc193accf5b3
  x := some 0x2
  y := some 0x8e2a8a0e65147d4bd6316030e16d19c85c97f0a9ca267122b96abbcea7e8fc8

def t512_paramSetTest : CurveParams where
  p := some 0x4531acd1fe0023c7550d267b6b2fee80922b14b2ffb90f04d4eb7c09b5d2d15df1d852741af4704a0458047e80e4546d35b8336fac224dd81664bbf528be6373
  a := some 0x7
  b := some 0x1cff0806a31116da29d8cfa54e57eb748bc5f377e49400fdd788b649eca1ac4361834013b2ad7322480a89ca58e0cf74bc9e540c2add6897fad0a3084f302adc
  m := some 0x4531acd1fe0023c7550d267b6b2fee80922b14b2ffb90f04d4eb7c09b5d2d15da82f2d7ecb1dbac719905c5eecc423f1d86e25edbe23c595d644aaf187e6e6df
  q := some 0x4531acd1fe0023c7550d267b6b2fee80922b14b2ffb90f04d4eb7c09b5d2d15da82f2d7ecb1dbac719905c5eecc423f1d86e25edbe23c595d644aaf187e6e6df
  x := some 0x24d19cc64572ee30f396bf6ebbfd7a6c5213b3b3d7057cc825f91093a68cd762fd60611262cd838dc6b60aa7eee804e28bc849977fac33b4b530f1b120248a9a
  y := some 0x2bb312a43bd2ce6e0d020613c857acddcfbf061e91e5f2c3f32447c259f39b2c83ab156d77f1496bf7eb3351e1ee4e43dc1a18b91b24640b6dbb92cb1add371e

def t512_paramSetTest_raises_4 : CurveParams where
  p := some 0x4531acd1fe0023c7550d267b6b2fee80922b14b2ffb90f04d4eb7c09b5d2d15df1d852741af4704a0458047e80e4546d35b8336fac224dd81664bbf528be6373
  a := some 0x7
  b := some 0x1cff0806a31116da29d8cfa54e57eb748bc5f377e49400fdd788b649eca1ac4361834013b2ad7322480a89ca58e0cf74bc9e540c2add6897fad0a3084f302adc
  m := some 0x4531acd1fe0023c7550d267b6b2fee80922b14b2ffb90f04d4eb7c09b5d2d15da82f2d7ecb1dbac719905c5eecc423f1d86e25edbe23c595d644aaf187e6e6df
  q := some 0x2
  x := some 0x24d19cc64572ee30f396bf6ebbfd7a6c5213b3b3d7057cc825f91093a68cd762fd60611262cd838dc6b60aa7eee804e28bc849977fac33b4b530f1b120248a9a
  y := some 0x2bb312a43bd2ce6e0d020613c857acddcfbf061e91e5f2c3f32447c259f39b2c83ab156d77f1496bf7eb3351e1ee4e43dc1a18b91b24640b6dbb92cb1add371e

def t512_paramSetTest_raises_5 : CurveParams where
  p := some 0x4531acd1fe0023c7550d267b6b2fee80922b14b2ffb90f04d4eb7c09b5d2d15df1d852741af4704a0458047e80e4546d35b8336fac224dd81664bbf528be6373
  a := some 0x7
  b := some 0x1cff0806a31116da29d8cfa54e57eb748bc5f377e49400fdd788b649eca1ac4361834013b2ad7322480a89ca58e0cf74bc9e540c2add6897fad0a3084f302adc
  m := some 0x4531acd1fe0023c7550d267b6b2fee80922b14b2ffb90f04d4eb7c09b5d2d15da82f2d7ecb1dbac719905c5eecc423f1d86e25edbe23c595d644aaf187e6e6df
  q := some 0x41
  x := some 0x24d19cc64572ee30f396bf6ebbfd7a6c5213b3b3d7057cc825f91093a68cd762fd60611262cd838dc6b60aa7eee804e28bc849977fac33b4b530f1b120248a9a
  y := some 0x2bb312a43bd2ce6e0d020613c857acddcfbf061e91e5f2c3f32447c259f39b2c83ab156d77f1496bf7eb3351e1ee4e43dc1a18b91b24640b6dbb92cb1add371e

def t256_paramSetTestEdvardsA : CurveParams where
  p := some 0xfffffffffffffffffffffffffffffffffffffffffffffffffffffffffffffd97
  e := some 0x1
  d := some 0x605f6b7c183fa81578bc39cfad518132b9df62897009af7e522c32d6dc7bffb
  m := some 0x1000000000000000000000000000000003f63377f21ed98d70456bd55b0d8319c
  q := some 0x400000000000000000000000000000000fd8cddfc87b6635c115af556c360c67
  u := some 0xd
  v := some 0x60ca1e32aa475b348488c38fab07649ce7ef8dbe87f22e81f92b2592dba300e7

def t256_paramSetTestEdvardsB : CurveParams where
  p := some 0xfffffffffffffffffffffffffffffffffffffffffffffffffffffffffffffd97
  a := some 0xc2173f1513981673af4892c23035a27ce25e2013bf95aa33b22c656f277e7335
  b := some 0x295f9bae7428ed9ccc20e7c359a9d41a22fccd9108e17bf7ba9337a6f8ae9513
  e := some 0x1
  d := some 0x605f6b7c183fa81578bc39cfad518132b9df62897009af7e522c32d6dc7bffb
  m := some 0x1000000000000000000000000000000003f63377f21ed98d70456bd55b0d8319c
  q := some 0x400000000000000000000000000000000fd8cddfc87b6635c115af556c360c67
  x := some 0x91e38443a5e82c0d880923425712b2bb658b9196932e02c78b2582fe742daa28
  y := some 0x32879423ab1a0375895786c4bb46e9565fde0b5344766740af268adb32322e5c
  u := some 0xd
  v := some 0x60ca1e32aa475b348488c38fab07649ce7ef8dbe87f22e81f92b2592dba300e7

def signOf (mode : Int) (c : CurveParams) (d e k : Bytes) : Option (Res Bytes) :=
  match Sig.new mode c with
  | .ok s => s.sign 600 (fun _ => []) (.bytearray d) (.bytearray e) (.bytearray k)
  | .error e => some (.error e)

def verifyOf (mode : Int) (c : CurveParams) (q e s : Bytes) : Option (Res Bool) :=
  match Sig.new mode c with
  | .ok o => o.verify 600 (.bytearray q) (.bytearray e) (.bytearray s)
  | .error e => some (.error e)

def pubOf (mode : Int) (c : CurveParams) (d : Bytes) : Option (Res Bytes) :=
  match Sig.new mode c with
  | .ok o => o.publicKeyGenerate 600 (.bytearray d)
  | .error e => some (.error e)

#guard signOf mode256 t256_paramSetTest (hex "7a929ade789bb9be10ed359dd39a72c11b60961f49397eee1d19ce9891ec3b28") (hex "2dfbc1b372d89a1188c09c52e0eec61fce52032ab1022e8e67ece6672b043ee5") (hex "77105c9b20bcd3122823c8cf6fcc7b956de33814e95b7fe64fed924594dceab3") == some (.ok (hex "41aa28d2f1ab148280cd9ed56feda41974053554a42767b83ad043fd39dc049301456c64ba4642a1653c235a98a60249bcd6d3f746b631df928014f6c5bf9c40"))
#guard verifyOf mode256 t256_paramSetTest (hex "7f2b49e270db6d90d8595bec458b50c58585ba1d4e9b788f6689dbd8e56fd80b26f1b489d6701dd185c8413a977b3cbbaf64d1c593d26627dffb101a87ff77da") (hex "2dfbc1b372d89a1188c09c52e0eec61fce52032ab1022e8e67ece6672b043ee5") (hex "41aa28d2f1ab148280cd9ed56feda41974053554a42767b83ad043fd39dc049301456c64ba4642a1653c235a98a60249bcd6d3f746b631df928014f6c5bf9c40") == some (.ok true)
#guard pubOf mode256 t256_paramSetTest (hex "7a929ade789bb9be10ed359dd39a72c11b60961f49397eee1d19ce9891ec3b28") == some (.ok (hex "7f2b49e270db6d90d8595bec458b50c58585ba1d4e9b788f6689dbd8e56fd80b26f1b489d6701dd185c8413a977b3cbbaf64d1c593d26627dffb101a87ff77da"))
#guard signOf mode512 t512_paramSetTest (hex "0ba6048aadae241ba40936d47756d7c93091a0e8514669700ee7508e508b102072e8123b2200a0563322dad2827e2714a2636b7bfd18aadfc62967821fa18dd4") (hex "3754f3cfacc9e0615c4f4a7c4d8dab531b09b6f9c170c533a71d147035b0c5917184ee536593f4414339976c647c5d5a407adedb1d560c4fc6777d2972075b8c") (hex "0359e7f4b1410feacc570456c6801496946312120b39d019d455986e364f365886748ed7a44b3e794434006011842286212273a6d14cf70ea3af71bb1ae679f1") == some (.ok (hex "2f86fa60a081091a23dd795e1e3c689ee512a3c82ee0dcc2643c78eea8fcacd35492558486b20f1c9ec197c90699850260c93bcbcd9c5c3317e19344e173ae361081b394696ffe8e6585e7a9362d26b6325f56778aadbc081c0bfbe933d52ff5823ce288e8c4f362526080df7f70ce406a6eeb1f56919cb92a9853bde73e5b4a"))
#guard verifyOf mode512 t512_paramSetTest (hex "115dc5bc96760c7b48598d8ab9e740d4c4a85a65be33c1815b5c320c854621dd5a515856d13314af69bc5b924c8b4ddff75c45415c1d9dd9dd33612cd530efe137c7c90cd40b0f5621dc3ac1b751cfa0e2634fa0503b3d52639f5d7fb72afd61ea199441d943ffe7f0c70a2759a3cdb84c114e1f9339fdf27f35eca93677beec") (hex "3754f3cfacc9e0615c4f4a7c4d8dab531b09b6f9c170c533a71d147035b0c5917184ee536593f4414339976c647c5d5a407adedb1d560c4fc6777d2972075b8c") (hex "2f86fa60a081091a23dd795e1e3c689ee512a3c82ee0dcc2643c78eea8fcacd35492558486b20f1c9ec197c90699850260c93bcbcd9c5c3317e19344e173ae361081b394696ffe8e6585e7a9362d26b6325f56778aadbc081c0bfbe933d52ff5823ce288e8c4f362526080df7f70ce406a6eeb1f56919cb92a9853bde73e5b4a") == some (.ok true)
#guard pubOf mode512 t512_paramSetTest (hex "0ba6048aadae241ba40936d47756d7c93091a0e8514669700ee7508e508b102072e8123b2200a0563322dad2827e2714a2636b7bfd18aadfc62967821fa18dd4") == some (.ok (hex "115dc5bc96760c7b48598d8ab9e740d4c4a85a65be33c1815b5c320c854621dd5a515856d13314af69bc5b924c8b4ddff75c45415c1d9dd9dd33612cd530efe137c7c90cd40b0f5621dc3ac1b751cfa0e2634fa0503b3d52639f5d7fb72afd61ea199441d943ffe7f0c70a2759a3cdb84c114e1f9339fdf27f35eca93677beec"))
#guard verifyOf mode256 t256_paramSetTest (hex "7f2b49e270db6d90d8595bec458b50c58585ba1d4e9b788f6689dbd8e56fd80b26f1b489d6701dd185c8413a977b3cbbaf64d1c593d26627dffb101a87ff77da") (hex "2dfbc1b372d89a1188c09c52e0eec61fce52032ab1022e8e67ece6672b043ee5") (hex "00000000000000000000000000000000000000000000000000000000000000000000000000000000000000000000000000000000000000000000000000000000") == some (.ok false)
#guard signOf mode256 t256_paramSetTestEdvardsA (hex "7a929ade789bb9be10ed359dd39a72c11b60961f49397eee1d19ce9891ec3b28") (hex "2dfbc1b372d89a1188c09c52e0eec61fce52032ab1022e8e67ece6672b043ee5") (hex "37105c9b20bcd3122823c8cf6fcc7b956de33814e95b7fe64fed924594dceab3") == some (.ok (hex "33dd7cffb7abd971669508fe0d4a1248c3a656108292ed18280cc02d7f0bd3f72e3746c7f6a77491c0edc7b2493f36d007b88c411761c1b303ba851947113166"))
#guard signOf mode256 t256_paramSetTestEdvardsB (hex "7a929ade789bb9be10ed359dd39a72c11b60961f49397eee1d19ce9891ec3b28") (hex "2dfbc1b372d89a1188c09c52e0eec61fce52032ab1022e8e67ece6672b043ee5") (hex "37105c9b20bcd3122823c8cf6fcc7b956de33814e95b7fe64fed924594dceab3") == some (.ok (hex "33dd7cffb7abd971669508fe0d4a1248c3a656108292ed18280cc02d7f0bd3f72e3746c7f6a77491c0edc7b2493f36d007b88c411761c1b303ba851947113166"))
#guard Sig.new mode256 t256_paramSetTest_raises_1 == .error (.signatureError "GOSTSignatureError: invalid parameters of the elliptic curve")
#guard Sig.new mode256 t256_paramSetTest_raises_2 == .error (.signatureError "GOSTSignatureError: invalid parameters of the elliptic curve")
#guard Sig.new mode256 t256_paramSetTest_raises_3 == .error (.signatureError "GOSTSignatureError: invalid parameters of the elliptic curve")
#guard Sig.new mode512 t512_paramSetTest_raises_4 == .error (.signatureError "GOSTSignatureError: invalid parameters of the elliptic curve")
#guard Sig.new mode512 t512_paramSetTest_raises_5 == .error (.signatureError "GOSTSignatureError: invalid parameters of the elliptic curve")
#guard Sig.new mode256 t256_paramSetTest_raises_6 == .error (.signatureError "GOSTSignatureError: invalid parameters of the elliptic curve")
#guard Sig.new mode256 {u := some 0} == .error (.signatureError "GOSTSignatureError: invalid parameters of the elliptic curve")

#guard Oid.digit "1.2.643.7.1.1.2.2".toList == .ok [1, 2, 643, 7, 1, 1, 2, 2]
#guard Oid.octet "1.2.643.7.1.1.2.2".toList ==
  .ok [0x06, 0x08, 0x2a, 0x85, 0x03, 0x07, 0x01, 0x01, 0x02, 0x02]
#guard Oid.digit "1.b.643.7.1.1.2.2".toList == .error (.oidError "invalid OID value")
#guard Oid.octet "4.2.643.7.1.1.2.2".toList == .error (.oidError "invalid first SID value")
#guard Oid.octet "1.50.643.7.1.1.2.2".toList == .error (.oidError "invalid second SID value")

end Gost.Tests
