import Verif.Model.Signature

/-! The built-in curves, `gostsignature/gost_34_10_2012.py` lines 40-461, copied from the text by a
script (big-endian byte lists written as one number). -/

namespace Gost
namespace Curves

/-- `'id-tc26-gost-3410-2012-256-paramSetB'`, gost_34_10_2012.py 41-79. -/
def c256B : CurveParams where
  p := some 0xfffffffffffffffffffffffffffffffffffffffffffffffffffffffffffffd97
  a := some 0xfffffffffffffffffffffffffffffffffffffffffffffffffffffffffffffd94
  b := some 0xa6
  m := some 0xffffffffffffffffffffffffffffffff6c611070995ad10045841b09b761b893
  q := some 0xffffffffffffffffffffffffffffffff6c611070995ad10045841b09b761b893
  x := some 0x1
  y := some 0x8d91e471e0989cda27df505a453f2b7635294f2ddf23e3b122acc99c9e9f1e14

/-- `'id-tc26-gost-3410-2012-256-paramSetC'`, gost_34_10_2012.py 80-122. -/
def c256C : CurveParams where
  p := some 0x8000000000000000000000000000000000000000000000000000000000000c99
  a := some 0x8000000000000000000000000000000000000000000000000000000000000c96
  b := some 0x3e1af419a269a5f866a7d3c25c3df80ae979259373ff2b182f49d4ce7e1bbc8b
  m := some 0x800000000000000000000000000000015f700cfff1a624e5e497161bcc8a198f
  q := some 0x800000000000000000000000000000015f700cfff1a624e5e497161bcc8a198f
  x := some 0x1
  y := some 0x3fa8124359f96680b83d1c3eb2c070e5c545c9858d03ecfb744bf8d717717efc

/-- `'id-tc26-gost-3410-2012-256-paramSetD'`, gost_34_10_2012.py 123-162. -/
def c256D : CurveParams where
  p := some 0x9b9f605f5a858107ab1ec85e6b41c8aacf846e86789051d37998f7b9022d759b
  a := some 0x9b9f605f5a858107ab1ec85e6b41c8aacf846e86789051d37998f7b9022d7598
  b := some 0x805a
  m := some 0x9b9f605f5a858107ab1ec85e6b41c8aa582ca3511eddfb74f02f3a6598980bb9
  q := some 0x9b9f605f5a858107ab1ec85e6b41c8aa582ca3511eddfb74f02f3a6598980bb9
  x := some 0x0
  y := some 0x41ece55743711a8c3cbf3783cd08c0ee4d4dc440d4641a8f366e550dfdb3bb67

/-- `'id-tc26-gost-3410-12-512-paramSetA'`, gost_34_10_2012.py 163-230. -/
def c512A : CurveParams where
  p := some 0xfffffffffffffffffffffffffffffffffffffffffffffffffffffffffffffffffffffffffffffffffffffffffffffffffffffffffffffffffffffffffffffdc7
  a := some 0xfffffffffffffffffffffffffffffffffffffffffffffffffffffffffffffffffffffffffffffffffffffffffffffffffffffffffffffffffffffffffffffdc4
  b := some 0xe8c2505dedfc86ddc1bd0b2b6667f1da34b82574761cb0e879bd081cfd0b6265ee3cb090f30d27614cb4574010da90dd862ef9d4ebee4761503190785a71c760
  m := some 0xffffffffffffffffffffffffffffffffffffffffffffffffffffffffffffffff27e69532f48d89116ff22b8d4e0560609b4b38abfad2b85dcacdb1411f10b275
  q := some 0xffffffffffffffffffffffffffffffffffffffffffffffffffffffffffffffff27e69532f48d89116ff22b8d4e0560609b4b38abfad2b85dcacdb1411f10b275
  x := some 0x3
  y := some 0x7503cfe87a836ae3a61b8816e25450e6ce5e1c93acf1abc1778064fdcbefa921df1626be4fd036e93d75e6a50e3a41e98028fe5fc235f5b889a589cb5215f2a4

/-- `'id-tc26-gost-3410-12-512-paramSetB'`, gost_34_10_2012.py 231-297. -/
def c512B : CurveParams where
  p := some 0x8000000000000000000000000000000000000000000000000000000000000000000000000000000000000000000000000000000000000000000000000000006f
  a := some 0x8000000000000000000000000000000000000000000000000000000000000000000000000000000000000000000000000000000000000000000000000000006c
  b := some 0x687d1b459dc841457e3e06cf6f5e2517b97c7d614af138bcbf85dc806c4b289f3e965d2db1416d217f8b276fad1ab69c50f78bee1fa3106efb8ccbc7c5140116
  m := some 0x800000000000000000000000000000000000000000000000000000000000000149a1ec142565a545acfdb77bd9d40cfa8b996712101bea0ec6346c54374f25bd
  q := some 0x800000000000000000000000000000000000000000000000000000000000000149a1ec142565a545acfdb77bd9d40cfa8b996712101bea0ec6346c54374f25bd
  x := some 0x2
  y := some 0x1a8f7eda389b094c2c071e3647a8940f3c123b697578c213be6dd9e6c8ec7335dcb228fd1edf4a39152cbcaaf8c0398828041055f94ceeec7e21340780fe41bd

/-- `'id-tc26-gost-3410-2012-256-paramSetA'`, gost_34_10_2012.py 298-359. -/
def c256A : CurveParams where
  p := some 0xfffffffffffffffffffffffffffffffffffffffffffffffffffffffffffffd97
  a := some 0xc2173f1513981673af4892c23035a27ce25e2013bf95aa33b22c656f277e7335
  b := some 0x295f9bae7428ed9ccc20e7c359a9d41a22fccd9108e17bf7ba9337a6f8ae9513
  e := some 0x1
  d := some 0x605f6b7c183fa81578bc39cfad518132b9df62897009af7e522c32d6dc7bffb
  m := some 0x1000000000000000000000000000000003f63377f21ed98d70456bd55b0d8319c
  q := some 0x400000000000000000000000000000000fd8cddfc87b6635c115af556c360c67
  x := some 0x91e38443a5e82c0d880923425712b2bb658b9196932e02c78b2582fe742daa28
  y := some 0x32879423ab1a0375895786c4bb46e9565fde0b5344766740af268adb32322e5c
  u := some 0xd
  v := some 0x60ca1e32aa475b348488c38fab07649ce7ef8dbe87f22e81f92b2592dba300e7

/-- `'id-tc26-gost-3410-2012-512-paramSetC'`, gost_34_10_2012.py 360-460. -/
def c512C : CurveParams where
  p := some 0xfffffffffffffffffffffffffffffffffffffffffffffffffffffffffffffffffffffffffffffffffffffffffffffffffffffffffffffffffffffffffffffdc7
  a := some 0xdc9203e514a721875485a529d2c722fb187bc8980eb866644de41c68e143064546e861c0e2c9edd92ade71f46fcf50ff2ad97f951fda9f2a2eb6546f39689bd3
  b := some 0xb4c4ee28cebc6c2c8ac12952cf37f16ac7efb6a9f69f4b57ffda2e4f0de5ade038cbc2fff719d2c18de0284b8bfef3b52b8cc7a5f5bf0a3c8d2319a5312557e1
  e := some 0x1
  d := some 0x9e4f5d8c017d8d9f13a5cf3cdf5bfe4dab402d54198e31ebde28a0621050439ca6b39e0a515c06b304e2ce43e79e369e91a0cfc2bc2a22b4ca302dbb33ee7550
  m := some 0xffffffffffffffffffffffffffffffffffffffffffffffffffffffffffffffff26336e91941aac0130cea7fd451d40b323b6a79e9da6849a5188f3bd1fc08fb4
  q := some 0x3fffffffffffffffffffffffffffffffffffffffffffffffffffffffffffffffc98cdba46506ab004c33a9ff5147502cc8eda9e7a769a12694623cef47f023ed
  x := some 0xe2e31edfc23de7bdebe241ce593ef5de2295b7a9cbaef021d385f7074cea043aa27272a7ae602bf2a7b9033db9ed3610c6fb85487eae97aac5bc7928c1950148
  y := some 0xf5ce40d95b5eb899abbccff5911cb8577939804d6527378b8c108c3d2090ff9be18e2d33e3021ed2ef32d85822423b6304f726aa854bae07d0396e9a9addc40f
  u := some 0x12
  v := some 0x469af79d1fb1f5e16b99592b77a01e2a0fdfb0d01794368d9a56117f7b38669522dd4b650cf789eebf068c5d139732f0905622c04b2baae7600303ee73001a3d

/-- All built-in curves with their names. -/
def builtin : List (String × CurveParams) := [
  ("id-tc26-gost-3410-2012-256-paramSetB", c256B),
  ("id-tc26-gost-3410-2012-256-paramSetC", c256C),
  ("id-tc26-gost-3410-2012-256-paramSetD", c256D),
  ("id-tc26-gost-3410-12-512-paramSetA", c512A),
  ("id-tc26-gost-3410-12-512-paramSetB", c512B),
  ("id-tc26-gost-3410-2012-256-paramSetA", c256A),
  ("id-tc26-gost-3410-2012-512-paramSetC", c512C)]

end Curves
end Gost
