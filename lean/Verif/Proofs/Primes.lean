import Verif.Proofs.Pocklington
import Mathlib.Tactic.NormNum.Prime

/-! The parameters p and q of built-in curves are prime: certificates for `prime_of_check`. -/

namespace Gost.Prime

theorem prime_9279191 : Nat.Prime 9279191 := by
  refine prime_of_check _ 2 [2143, 433] ?_ (by decide +kernel)
  intro r hr
  simp only [List.mem_cons, List.not_mem_nil, or_false] at hr
  rcases hr with rfl | rfl
  · norm_num
  · norm_num

theorem prime_389726023 : Nat.Prime 389726023 := by
  refine prime_of_check _ 2 [9279191] ?_ (by decide +kernel)
  intro r hr
  simp only [List.mem_cons, List.not_mem_nil, or_false] at hr
  subst hr
  · exact prime_9279191

theorem prime_357737 : Nat.Prime 357737 := by
  refine prime_of_check _ 2 [461, 97] ?_ (by decide +kernel)
  intro r hr
  simp only [List.mem_cons, List.not_mem_nil, or_false] at hr
  rcases hr with rfl | rfl
  · norm_num
  · norm_num

theorem prime_586924070947 : Nat.Prime 586924070947 := by
  refine prime_of_check _ 2 [357737, 2819] ?_ (by decide +kernel)
  intro r hr
  simp only [List.mem_cons, List.not_mem_nil, or_false] at hr
  rcases hr with rfl | rfl
  · exact prime_357737
  · norm_num

theorem prime_daaf1c7e81bd_134 : Nat.Prime 14276683752608433211265709130033043243453 := by
  refine prime_of_check _ 2 [586924070947, 389726023] ?_ (by decide +kernel)
  intro r hr
  simp only [List.mem_cons, List.not_mem_nil, or_false] at hr
  rcases hr with rfl | rfl
  · exact prime_586924070947
  · exact prime_389726023

theorem prime_fffffffffd97_256 : Nat.Prime 115792089237316195423570985008687907853269984665640564039457584007913129639319 := by
  refine prime_of_check _ 2 [14276683752608433211265709130033043243453] ?_ (by decide +kernel)
  intro r hr
  simp only [List.mem_cons, List.not_mem_nil, or_false] at hr
  subst hr
  · exact prime_daaf1c7e81bd_134

theorem prime_6016063 : Nat.Prime 6016063 := by
  refine prime_of_check _ 2 [349, 17] ?_ (by decide +kernel)
  intro r hr
  simp only [List.mem_cons, List.not_mem_nil, or_false] at hr
  rcases hr with rfl | rfl
  · norm_num
  · norm_num

theorem prime_8293283 : Nat.Prime 8293283 := by
  refine prime_of_check _ 2 [11117] ?_ (by decide +kernel)
  intro r hr
  simp only [List.mem_cons, List.not_mem_nil, or_false] at hr
  subst hr
  · norm_num

theorem prime_f3f5ea14e433_52 : Nat.Prime 4490362170434611 := by
  refine prime_of_check _ 2 [8293283, 6016063] ?_ (by decide +kernel)
  intro r hr
  simp only [List.mem_cons, List.not_mem_nil, or_false] at hr
  rcases hr with rfl | rfl
  · exact prime_8293283
  · exact prime_6016063

theorem prime_1e7a7113be7d_88 : Nat.Prime 200499081756742501704908413 := by
  refine prime_of_check _ 2 [4490362170434611] ?_ (by decide +kernel)
  intro r hr
  simp only [List.mem_cons, List.not_mem_nil, or_false] at hr
  subst hr
  · exact prime_f3f5ea14e433_52

theorem prime_dbeb5c0c1e43_96 : Nat.Prime 46916785131077745398948568643 := by
  refine prime_of_check _ 2 [200499081756742501704908413] ?_ (by decide +kernel)
  intro r hr
  simp only [List.mem_cons, List.not_mem_nil, or_false] at hr
  subst hr
  · exact prime_1e7a7113be7d_88

theorem prime_3c90b9fb4915_142 : Nat.Prime 3931736492670839143743017191070058480879893 := by
  refine prime_of_check _ 2 [46916785131077745398948568643] ?_ (by decide +kernel)
  intro r hr
  simp only [List.mem_cons, List.not_mem_nil, or_false] at hr
  subst hr
  · exact prime_dbeb5c0c1e43_96

theorem prime_ab03f440752f_243 : Nat.Prime 9063250566477473029396601832239191284702116561707029881813448155537110319 := by
  refine prime_of_check _ 2 [3931736492670839143743017191070058480879893] ?_ (by decide +kernel)
  intro r hr
  simp only [List.mem_cons, List.not_mem_nil, or_false] at hr
  subst hr
  · exact prime_3c90b9fb4915_142

theorem prime_af556c360c67_255 : Nat.Prime 28948022309329048855892746252171976963338560298092253442512153408785530358887 := by
  refine prime_of_check _ 2 [9063250566477473029396601832239191284702116561707029881813448155537110319] ?_ (by decide +kernel)
  intro r hr
  simp only [List.mem_cons, List.not_mem_nil, or_false] at hr
  subst hr
  · exact prime_ab03f440752f_243

theorem prime_591973387 : Nat.Prime 591973387 := by
  refine prime_of_check _ 2 [65731] ?_ (by decide +kernel)
  intro r hr
  simp only [List.mem_cons, List.not_mem_nil, or_false] at hr
  subst hr
  · norm_num

theorem prime_530cc2330c1b_47 : Nat.Prime 91314262838299 := by
  refine prime_of_check _ 2 [591973387] ?_ (by decide +kernel)
  intro r hr
  simp only [List.mem_cons, List.not_mem_nil, or_false] at hr
  subst hr
  · exact prime_591973387

theorem prime_835897 : Nat.Prime 835897 := by
  refine prime_of_check _ 2 [1201] ?_ (by decide +kernel)
  intro r hr
  simp only [List.mem_cons, List.not_mem_nil, or_false] at hr
  subst hr
  · norm_num

theorem prime_65c27531f9b1_50 : Nat.Prime 674835817691569 := by
  refine prime_of_check _ 2 [835897, 1231] ?_ (by decide +kernel)
  intro r hr
  simp only [List.mem_cons, List.not_mem_nil, or_false] at hr
  rcases hr with rfl | rfl
  · exact prime_835897
  · norm_num

theorem prime_9a201d608255_88 : Nat.Prime 203279892443917995271553621 := by
  refine prime_of_check _ 2 [674835817691569] ?_ (by decide +kernel)
  intro r hr
  simp only [List.mem_cons, List.not_mem_nil, or_false] at hr
  subst hr
  · exact prime_65c27531f9b1_50

theorem prime_4be7ba1b1425_186 : Nat.Prime 50791017540450015071456350284045037169936855765408748581 := by
  refine prime_of_check _ 2 [203279892443917995271553621, 91314262838299] ?_ (by decide +kernel)
  intro r hr
  simp only [List.mem_cons, List.not_mem_nil, or_false] at hr
  rcases hr with rfl | rfl
  · exact prime_9a201d608255_88
  · exact prime_530cc2330c1b_47

theorem prime_1b09b761b893_256 : Nat.Prime 115792089237316195423570985008687907853073762908499243225378155805079068850323 := by
  refine prime_of_check _ 2 [50791017540450015071456350284045037169936855765408748581] ?_ (by decide +kernel)
  intro r hr
  simp only [List.mem_cons, List.not_mem_nil, or_false] at hr
  subst hr
  · exact prime_4be7ba1b1425_186

theorem prime_130681 : Nat.Prime 130681 := by
  refine prime_of_check _ 2 [11, 11, 5] ?_ (by decide +kernel)
  intro r hr
  simp only [List.mem_cons, List.not_mem_nil, or_false] at hr
  rcases hr with rfl | rfl | rfl
  · norm_num
  · norm_num
  · norm_num

theorem prime_893520621659 : Nat.Prime 893520621659 := by
  refine prime_of_check _ 2 [130681, 2557] ?_ (by decide +kernel)
  intro r hr
  simp only [List.mem_cons, List.not_mem_nil, or_false] at hr
  rcases hr with rfl | rfl
  · exact prime_130681
  · norm_num

theorem prime_1a013f560b7_41 : Nat.Prime 1787041243319 := by
  refine prime_of_check _ 2 [893520621659] ?_ (by decide +kernel)
  intro r hr
  simp only [List.mem_cons, List.not_mem_nil, or_false] at hr
  subst hr
  · exact prime_893520621659

theorem prime_4027eac16e01_50 : Nat.Prime 914965116579329 := by
  refine prime_of_check _ 2 [1787041243319] ?_ (by decide +kernel)
  intro r hr
  simp only [List.mem_cons, List.not_mem_nil, or_false] at hr
  subst hr
  · exact prime_1a013f560b7_41

theorem prime_804fd582dc03_51 : Nat.Prime 1829930233158659 := by
  refine prime_of_check _ 2 [914965116579329] ?_ (by decide +kernel)
  intro r hr
  simp only [List.mem_cons, List.not_mem_nil, or_false] at hr
  subst hr
  · exact prime_4027eac16e01_50

theorem prime_5db7b3c14da5_66 : Nat.Prime 39607009966486015397 := by
  refine prime_of_check _ 2 [1829930233158659] ?_ (by decide +kernel)
  intro r hr
  simp only [List.mem_cons, List.not_mem_nil, or_false] at hr
  subst hr
  · exact prime_804fd582dc03_51

theorem prime_471259 : Nat.Prime 471259 := by
  refine prime_of_check _ 2 [2909] ?_ (by decide +kernel)
  intro r hr
  simp only [List.mem_cons, List.not_mem_nil, or_false] at hr
  subst hr
  · norm_num

theorem prime_15343451 : Nat.Prime 15343451 := by
  refine prime_of_check _ 3 [521, 31] ?_ (by decide +kernel)
  intro r hr
  simp only [List.mem_cons, List.not_mem_nil, or_false] at hr
  rcases hr with rfl | rfl
  · norm_num
  · norm_num

theorem prime_1565032003 : Nat.Prime 1565032003 := by
  refine prime_of_check _ 2 [15343451] ?_ (by decide +kernel)
  intro r hr
  simp only [List.mem_cons, List.not_mem_nil, or_false] at hr
  subst hr
  · exact prime_15343451

theorem prime_2a0a8be7723_42 : Nat.Prime 2889049077539 := by
  refine prime_of_check _ 2 [1565032003] ?_ (by decide +kernel)
  intro r hr
  simp only [List.mem_cons, List.not_mem_nil, or_false] at hr
  subst hr
  · exact prime_1565032003

theorem prime_ac717fb54693_84 : Nat.Prime 17888439653017795004024467 := by
  refine prime_of_check _ 2 [2889049077539, 471259] ?_ (by decide +kernel)
  intro r hr
  simp only [List.mem_cons, List.not_mem_nil, or_false] at hr
  rcases hr with rfl | rfl
  · exact prime_2a0a8be7723_42
  · exact prime_471259

theorem prime_000000000c99_256 : Nat.Prime 57896044618658097711785492504343953926634992332820282019728792003956564823193 := by
  refine prime_of_check _ 2 [17888439653017795004024467, 39607009966486015397] ?_ (by decide +kernel)
  intro r hr
  simp only [List.mem_cons, List.not_mem_nil, or_false] at hr
  rcases hr with rfl | rfl
  · exact prime_ac717fb54693_84
  · exact prime_5db7b3c14da5_66

theorem prime_498089 : Nat.Prime 498089 := by
  refine prime_of_check _ 2 [2707] ?_ (by decide +kernel)
  intro r hr
  simp only [List.mem_cons, List.not_mem_nil, or_false] at hr
  subst hr
  · norm_num

theorem prime_36858587 : Nat.Prime 36858587 := by
  refine prime_of_check _ 2 [498089] ?_ (by decide +kernel)
  intro r hr
  simp only [List.mem_cons, List.not_mem_nil, or_false] at hr
  subst hr
  · exact prime_498089

theorem prime_434415306383 : Nat.Prime 434415306383 := by
  refine prime_of_check _ 2 [36858587] ?_ (by decide +kernel)
  intro r hr
  simp only [List.mem_cons, List.not_mem_nil, or_false] at hr
  subst hr
  · exact prime_36858587

theorem prime_584663 : Nat.Prime 584663 := by
  refine prime_of_check _ 2 [199, 113] ?_ (by decide +kernel)
  intro r hr
  simp only [List.mem_cons, List.not_mem_nil, or_false] at hr
  rcases hr with rfl | rfl
  · norm_num
  · norm_num

theorem prime_1169327 : Nat.Prime 1169327 := by
  refine prime_of_check _ 2 [584663] ?_ (by decide +kernel)
  intro r hr
  simp only [List.mem_cons, List.not_mem_nil, or_false] at hr
  subst hr
  · exact prime_584663

theorem prime_11871560353 : Nat.Prime 11871560353 := by
  refine prime_of_check _ 2 [72871, 1697] ?_ (by decide +kernel)
  intro r hr
  simp only [List.mem_cons, List.not_mem_nil, or_false] at hr
  rcases hr with rfl | rfl
  · norm_num
  · norm_num

theorem prime_b3ff5638332d_68 : Nat.Prime 149534060761757266733 := by
  refine prime_of_check _ 2 [11871560353, 1169327] ?_ (by decide +kernel)
  intro r hr
  simp only [List.mem_cons, List.not_mem_nil, or_false] at hr
  rcases hr with rfl | rfl
  · exact prime_11871560353
  · exact prime_1169327

theorem prime_70f1d39816fd_152 : Nat.Prime 3179810722570773882487420182434062983086216957 := by
  refine prime_of_check _ 2 [149534060761757266733, 434415306383] ?_ (by decide +kernel)
  intro r hr
  simp only [List.mem_cons, List.not_mem_nil, or_false] at hr
  rcases hr with rfl | rfl
  · exact prime_b3ff5638332d_68
  · exact prime_434415306383

theorem prime_7c9f25e30f0b_189 : Nat.Prime 611535319489737880361765400867656717933201264526640746251 := by
  refine prime_of_check _ 2 [3179810722570773882487420182434062983086216957] ?_ (by decide +kernel)
  intro r hr
  simp only [List.mem_cons, List.not_mem_nil, or_false] at hr
  subst hr
  · exact prime_70f1d39816fd_152

theorem prime_161bcc8a198f_256 : Nat.Prime 57896044618658097711785492504343953927102133160255826820068844496087732066703 := by
  refine prime_of_check _ 2 [611535319489737880361765400867656717933201264526640746251] ?_ (by decide +kernel)
  intro r hr
  simp only [List.mem_cons, List.not_mem_nil, or_false] at hr
  subst hr
  · exact prime_7c9f25e30f0b_189

theorem prime_617780001031 : Nat.Prime 617780001031 := by
  refine prime_of_check _ 2 [10853, 631] ?_ (by decide +kernel)
  intro r hr
  simp only [List.mem_cons, List.not_mem_nil, or_false] at hr
  rcases hr with rfl | rfl
  · norm_num
  · norm_num

theorem prime_143a2c1204fd_45 : Nat.Prime 22240080037117 := by
  refine prime_of_check _ 2 [617780001031] ?_ (by decide +kernel)
  intro r hr
  simp only [List.mem_cons, List.not_mem_nil, or_false] at hr
  subst hr
  · exact prime_617780001031

theorem prime_795d086c1def_47 : Nat.Prime 133440480222703 := by
  refine prime_of_check _ 2 [22240080037117] ?_ (by decide +kernel)
  intro r hr
  simp only [List.mem_cons, List.not_mem_nil, or_false] at hr
  subst hr
  · exact prime_143a2c1204fd_45

theorem prime_6ef5c987231b_59 : Nat.Prime 291167127845937947 := by
  refine prime_of_check _ 2 [133440480222703] ?_ (by decide +kernel)
  intro r hr
  simp only [List.mem_cons, List.not_mem_nil, or_false] at hr
  subst hr
  · exact prime_795d086c1def_47

theorem prime_2402107 : Nat.Prime 2402107 := by
  refine prime_of_check _ 2 [57193] ?_ (by decide +kernel)
  intro r hr
  simp only [List.mem_cons, List.not_mem_nil, or_false] at hr
  subst hr
  · norm_num

theorem prime_2147483659 : Nat.Prime 2147483659 := by
  refine prime_of_check _ 2 [2402107] ?_ (by decide +kernel)
  intro r hr
  simp only [List.mem_cons, List.not_mem_nil, or_false] at hr
  subst hr
  · exact prime_2402107

theorem prime_0938c054c9df_64 : Nat.Prime 9853323174082824671 := by
  refine prime_of_check _ 2 [2147483659, 613] ?_ (by decide +kernel)
  intro r hr
  simp only [List.mem_cons, List.not_mem_nil, or_false] at hr
  rcases hr with rfl | rfl
  · exact prime_2147483659
  · norm_num

theorem prime_932e3df9eff5_128 : Nat.Prime 286896380833551689651093852714669043701 := by
  refine prime_of_check _ 2 [9853323174082824671, 291167127845937947] ?_ (by decide +kernel)
  intro r hr
  simp only [List.mem_cons, List.not_mem_nil, or_false] at hr
  rcases hr with rfl | rfl
  · exact prime_0938c054c9df_64
  · exact prime_6ef5c987231b_59

theorem prime_f7b9022d759b_256 : Nat.Prime 70390085352083305199547718019018437841079516630045180471284346843705633502619 := by
  refine prime_of_check _ 2 [286896380833551689651093852714669043701] ?_ (by decide +kernel)
  intro r hr
  simp only [List.mem_cons, List.not_mem_nil, or_false] at hr
  subst hr
  · exact prime_932e3df9eff5_128

theorem prime_217319 : Nat.Prime 217319 := by
  refine prime_of_check _ 2 [563] ?_ (by decide +kernel)
  intro r hr
  simp only [List.mem_cons, List.not_mem_nil, or_false] at hr
  subst hr
  · norm_num

theorem prime_66326628077 : Nat.Prime 66326628077 := by
  refine prime_of_check _ 2 [217319, 1861] ?_ (by decide +kernel)
  intro r hr
  simp only [List.mem_cons, List.not_mem_nil, or_false] at hr
  rcases hr with rfl | rfl
  · exact prime_217319
  · norm_num

theorem prime_902089 : Nat.Prime 902089 := by
  refine prime_of_check _ 2 [67, 17] ?_ (by decide +kernel)
  intro r hr
  simp only [List.mem_cons, List.not_mem_nil, or_false] at hr
  rcases hr with rfl | rfl
  · norm_num
  · norm_num

theorem prime_1947217 : Nat.Prime 1947217 := by
  refine prime_of_check _ 2 [359, 113] ?_ (by decide +kernel)
  intro r hr
  simp only [List.mem_cons, List.not_mem_nil, or_false] at hr
  rcases hr with rfl | rfl
  · norm_num
  · norm_num

theorem prime_ff9d12875fb_44 : Nat.Prime 17565630363131 := by
  refine prime_of_check _ 2 [1947217, 902089] ?_ (by decide +kernel)
  intro r hr
  simp only [List.mem_cons, List.not_mem_nil, or_false] at hr
  rcases hr with rfl | rfl
  · exact prime_1947217
  · exact prime_902089

theorem prime_e80b7451fe4f_138 : Nat.Prime 260862815097120313262827914162129492639311 := by
  refine prime_of_check _ 2 [17565630363131, 66326628077] ?_ (by decide +kernel)
  intro r hr
  simp only [List.mem_cons, List.not_mem_nil, or_false] at hr
  rcases hr with rfl | rfl
  · exact prime_ff9d12875fb_44
  · exact prime_66326628077

theorem prime_3a6598980bb9_256 : Nat.Prime 70390085352083305199547718019018437840920882647164081035322601458352298396601 := by
  refine prime_of_check _ 2 [260862815097120313262827914162129492639311] ?_ (by decide +kernel)
  intro r hr
  simp only [List.mem_cons, List.not_mem_nil, or_false] at hr
  subst hr
  · exact prime_e80b7451fe4f_138

theorem prime_3370421 : Nat.Prime 3370421 := by
  refine prime_of_check _ 2 [431, 23] ?_ (by decide +kernel)
  intro r hr
  simp only [List.mem_cons, List.not_mem_nil, or_false] at hr
  rcases hr with rfl | rfl
  · norm_num
  · norm_num

theorem prime_405690834929 : Nat.Prime 405690834929 := by
  refine prime_of_check _ 2 [3370421] ?_ (by decide +kernel)
  intro r hr
  simp only [List.mem_cons, List.not_mem_nil, or_false] at hr
  subst hr
  · exact prime_3370421

theorem prime_b2f057a710f5_59 : Nat.Prime 394261712727380213 := by
  refine prime_of_check _ 2 [405690834929] ?_ (by decide +kernel)
  intro r hr
  simp only [List.mem_cons, List.not_mem_nil, or_false] at hr
  subst hr
  · exact prime_405690834929

theorem prime_229897 : Nat.Prime 229897 := by
  refine prime_of_check _ 2 [103, 31] ?_ (by decide +kernel)
  intro r hr
  simp only [List.mem_cons, List.not_mem_nil, or_false] at hr
  rcases hr with rfl | rfl
  · norm_num
  · norm_num

theorem prime_28967023 : Nat.Prime 28967023 := by
  refine prime_of_check _ 2 [229897] ?_ (by decide +kernel)
  intro r hr
  simp only [List.mem_cons, List.not_mem_nil, or_false] at hr
  subst hr
  · exact prime_229897

theorem prime_fb59589f105_44 : Nat.Prime 17272572342533 := by
  refine prime_of_check _ 2 [28967023] ?_ (by decide +kernel)
  intro r hr
  simp only [List.mem_cons, List.not_mem_nil, or_false] at hr
  subst hr
  · exact prime_28967023

theorem prime_f85572597d6f_69 : Nat.Prime 337731401551875505519 := by
  refine prime_of_check _ 2 [17272572342533] ?_ (by decide +kernel)
  intro r hr
  simp only [List.mem_cons, List.not_mem_nil, or_false] at hr
  subst hr
  · exact prime_fb59589f105_44

theorem prime_2ba7e9b628e9_230 : Nat.Prime 926734293677401922807539456296487968545789703463419605036547983157481 := by
  refine prime_of_check _ 2 [337731401551875505519, 394261712727380213] ?_ (by decide +kernel)
  intro r hr
  simp only [List.mem_cons, List.not_mem_nil, or_false] at hr
  rcases hr with rfl | rfl
  · exact prime_f85572597d6f_69
  · exact prime_b2f057a710f5_59

theorem prime_5c4e6e56bb2b_377 : Nat.Prime 156653000495853514427094966475056866493477049445338089663954622108777301298738109970223050607345391305841500928811 := by
  refine prime_of_check _ 2 [926734293677401922807539456296487968545789703463419605036547983157481] ?_ (by decide +kernel)
  intro r hr
  simp only [List.mem_cons, List.not_mem_nil, or_false] at hr
  subst hr
  · exact prime_2ba7e9b628e9_230

theorem prime_b1411f10b275_512 : Nat.Prime 13407807929942597099574024998205846127479365820592393377723561443721764030073449232318290585817636498049628612556596899500625279906416653993875474742293109 := by
  refine prime_of_check _ 2 [156653000495853514427094966475056866493477049445338089663954622108777301298738109970223050607345391305841500928811] ?_ (by decide +kernel)
  intro r hr
  simp only [List.mem_cons, List.not_mem_nil, or_false] at hr
  subst hr
  · exact prime_5c4e6e56bb2b_377

theorem prime_209567623 : Nat.Prime 209567623 := by
  refine prime_of_check _ 2 [4649, 683] ?_ (by decide +kernel)
  intro r hr
  simp only [List.mem_cons, List.not_mem_nil, or_false] at hr
  rcases hr with rfl | rfl
  · norm_num
  · norm_num

theorem prime_544037549309 : Nat.Prime 544037549309 := by
  refine prime_of_check _ 2 [209567623] ?_ (by decide +kernel)
  intro r hr
  simp only [List.mem_cons, List.not_mem_nil, or_false] at hr
  subst hr
  · exact prime_209567623

theorem prime_2311079 : Nat.Prime 2311079 := by
  refine prime_of_check _ 2 [349, 43] ?_ (by decide +kernel)
  intro r hr
  simp only [List.mem_cons, List.not_mem_nil, or_false] at hr
  rcases hr with rfl | rfl
  · norm_num
  · norm_num

theorem prime_4066490611 : Nat.Prime 4066490611 := by
  refine prime_of_check _ 2 [29207, 17] ?_ (by decide +kernel)
  intro r hr
  simp only [List.mem_cons, List.not_mem_nil, or_false] at hr
  rcases hr with rfl | rfl
  · norm_num
  · norm_num

theorem prime_d14718beeff1_66 : Nat.Prime 65409948141263712241 := by
  refine prime_of_check _ 2 [4066490611, 2311079] ?_ (by decide +kernel)
  intro r hr
  simp only [List.mem_cons, List.not_mem_nil, or_false] at hr
  rcases hr with rfl | rfl
  · exact prime_4066490611
  · exact prime_2311079

theorem prime_42f5bab1c3e9_167 : Nat.Prime 172008857945993937486028277607082348606308394058729 := by
  refine prime_of_check _ 2 [65409948141263712241, 544037549309] ?_ (by decide +kernel)
  intro r hr
  simp only [List.mem_cons, List.not_mem_nil, or_false] at hr
  rcases hr with rfl | rfl
  · exact prime_d14718beeff1_66
  · exact prime_544037549309

theorem prime_f1cd4ac24287_316 : Nat.Prime 116805667742129445694352898177855391945326027587608382746982971637918768540967209383659504288391 := by
  refine prime_of_check _ 2 [172008857945993937486028277607082348606308394058729] ?_ (by decide +kernel)
  intro r hr
  simp only [List.mem_cons, List.not_mem_nil, or_false] at hr
  subst hr
  · exact prime_42f5bab1c3e9_167

theorem prime_984ac75e48e3_347 : Nat.Prime 244393206692815292014994368024795590726591620087932255303528683768791508481840587536654064566515485526243 := by
  refine prime_of_check _ 2 [116805667742129445694352898177855391945326027587608382746982971637918768540967209383659504288391] ?_ (by decide +kernel)
  intro r hr
  simp only [List.mem_cons, List.not_mem_nil, or_false] at hr
  subst hr
  · exact prime_f1cd4ac24287_316

theorem prime_733eed1753a9_490 : Nat.Prime 2986076933994148269835385919048238066318085404759171355727648743353559431103560755510084456357598398009587265648506906928241789019762235105800049577 := by
  refine prime_of_check _ 2 [244393206692815292014994368024795590726591620087932255303528683768791508481840587536654064566515485526243] ?_ (by decide +kernel)
  intro r hr
  simp only [List.mem_cons, List.not_mem_nil, or_false] at hr
  subst hr
  · exact prime_984ac75e48e3_347

theorem prime_00000000006f_512 : Nat.Prime 6703903964971298549787012499102923063739682910296196688861780721860882015036773488400937149083451713845015929093243025426876941405973284973216824503042159 := by
  refine prime_of_check _ 2 [2986076933994148269835385919048238066318085404759171355727648743353559431103560755510084456357598398009587265648506906928241789019762235105800049577] ?_ (by decide +kernel)
  intro r hr
  simp only [List.mem_cons, List.not_mem_nil, or_false] at hr
  subst hr
  · exact prime_733eed1753a9_490

theorem prime_125621 : Nat.Prime 125621 := by
  refine prime_of_check _ 2 [571] ?_ (by decide +kernel)
  intro r hr
  simp only [List.mem_cons, List.not_mem_nil, or_false] at hr
  subst hr
  · norm_num

theorem prime_3266147 : Nat.Prime 3266147 := by
  refine prime_of_check _ 2 [125621] ?_ (by decide +kernel)
  intro r hr
  simp only [List.mem_cons, List.not_mem_nil, or_false] at hr
  subst hr
  · exact prime_125621

theorem prime_371573 : Nat.Prime 371573 := by
  refine prime_of_check _ 2 [92893] ?_ (by decide +kernel)
  intro r hr
  simp only [List.mem_cons, List.not_mem_nil, or_false] at hr
  subst hr
  · norm_num

theorem prime_880443709793 : Nat.Prime 880443709793 := by
  refine prime_of_check _ 2 [371573, 74047] ?_ (by decide +kernel)
  intro r hr
  simp only [List.mem_cons, List.not_mem_nil, or_false] at hr
  rcases hr with rfl | rfl
  · exact prime_371573
  · norm_num

theorem prime_199fd11b2c3_41 : Nat.Prime 1760887419587 := by
  refine prime_of_check _ 2 [880443709793] ?_ (by decide +kernel)
  intro r hr
  simp only [List.mem_cons, List.not_mem_nil, or_false] at hr
  subst hr
  · exact prime_880443709793

theorem prime_6bee07d586df_101 : Nat.Prime 1587027635251342178289959929567 := by
  refine prime_of_check _ 2 [1760887419587, 3266147] ?_ (by decide +kernel)
  intro r hr
  simp only [List.mem_cons, List.not_mem_nil, or_false] at hr
  rcases hr with rfl | rfl
  · exact prime_199fd11b2c3_41
  · exact prime_3266147

theorem prime_11711ec056d1_45 : Nat.Prime 19177544898257 := by
  refine prime_of_check _ 2 [57943, 41959] ?_ (by decide +kernel)
  intro r hr
  simp only [List.mem_cons, List.not_mem_nil, or_false] at hr
  rcases hr with rfl | rfl
  · norm_num
  · norm_num

theorem prime_438298537 : Nat.Prime 438298537 := by
  refine prime_of_check _ 2 [691, 107] ?_ (by decide +kernel)
  intro r hr
  simp only [List.mem_cons, List.not_mem_nil, or_false] at hr
  rcases hr with rfl | rfl
  · norm_num
  · norm_num

theorem prime_4382985371 : Nat.Prime 4382985371 := by
  refine prime_of_check _ 2 [438298537] ?_ (by decide +kernel)
  intro r hr
  simp only [List.mem_cons, List.not_mem_nil, or_false] at hr
  subst hr
  · exact prime_438298537

theorem prime_4dfa7d8a3d1b_54 : Nat.Prime 13033587172064539 := by
  refine prime_of_check _ 2 [4382985371] ?_ (by decide +kernel)
  intro r hr
  simp only [List.mem_cons, List.not_mem_nil, or_false] at hr
  subst hr
  · exact prime_4382985371

theorem prime_028b4189934d_143 : Nat.Prime 5893774966298140465580437611780739332412237 := by
  refine prime_of_check _ 2 [13033587172064539, 19177544898257] ?_ (by decide +kernel)
  intro r hr
  simp only [List.mem_cons, List.not_mem_nil, or_false] at hr
  rcases hr with rfl | rfl
  · exact prime_4dfa7d8a3d1b_54
  · exact prime_11711ec056d1_45

theorem prime_086940804299_303 : Nat.Prime 12306604611802570336110456671763337854466147472888897260582566168005578409408176788019888793 := by
  refine prime_of_check _ 2 [5893774966298140465580437611780739332412237, 1587027635251342178289959929567] ?_ (by decide +kernel)
  intro r hr
  simp only [List.mem_cons, List.not_mem_nil, or_false] at hr
  rcases hr with rfl | rfl
  · exact prime_028b4189934d_143
  · exact prime_6bee07d586df_101

theorem prime_77baffa8870b_435 : Nat.Prime 47027135855253862293695221904893529952882567781986512512560214543064399068519017805091617745746803253071739920867384142251535402763 := by
  refine prime_of_check _ 2 [12306604611802570336110456671763337854466147472888897260582566168005578409408176788019888793] ?_ (by decide +kernel)
  intro r hr
  simp only [List.mem_cons, List.not_mem_nil, or_false] at hr
  subst hr
  · exact prime_086940804299_303

theorem prime_514852749539_462 : Nat.Prime 5984062708607661899347632600855537484210927348675522269469949820924748277302224554948777964758927405492471738858450763827227401419949905209 := by
  refine prime_of_check _ 2 [47027135855253862293695221904893529952882567781986512512560214543064399068519017805091617745746803253071739920867384142251535402763] ?_ (by decide +kernel)
  intro r hr
  simp only [List.mem_cons, List.not_mem_nil, or_false] at hr
  subst hr
  · exact prime_77baffa8870b_435

theorem prime_a660639f652d_484 : Nat.Prime 40042164124641494154303904424381601698397925603987099649445546188323683505622961938253989390289490448175898881475679815725449685324749352309056813 := by
  refine prime_of_check _ 2 [5984062708607661899347632600855537484210927348675522269469949820924748277302224554948777964758927405492471738858450763827227401419949905209] ?_ (by decide +kernel)
  intro r hr
  simp only [List.mem_cons, List.not_mem_nil, or_false] at hr
  subst hr
  · exact prime_514852749539_462

theorem prime_76e0a4341291_497 : Nat.Prime 233846238487906325861134801838388553918643885527284661952761989739810311672838097719403298039290624217347249467817970123836626162296536217484891787921 := by
  refine prime_of_check _ 2 [40042164124641494154303904424381601698397925603987099649445546188323683505622961938253989390289490448175898881475679815725449685324749352309056813] ?_ (by decide +kernel)
  intro r hr
  simp only [List.mem_cons, List.not_mem_nil, or_false] at hr
  subst hr
  · exact prime_a660639f652d_484

theorem prime_6c54374f25bd_512 : Nat.Prime 6703903964971298549787012499102923063739682910296196688861780721860882015036922585419853748190383615062910947743405567510148398820717100282856877776119229 := by
  refine prime_of_check _ 2 [233846238487906325861134801838388553918643885527284661952761989739810311672838097719403298039290624217347249467817970123836626162296536217484891787921] ?_ (by decide +kernel)
  intro r hr
  simp only [List.mem_cons, List.not_mem_nil, or_false] at hr
  subst hr
  · exact prime_76e0a4341291_497

theorem prime_285613 : Nat.Prime 285613 := by
  refine prime_of_check _ 2 [23801] ?_ (by decide +kernel)
  intro r hr
  simp only [List.mem_cons, List.not_mem_nil, or_false] at hr
  subst hr
  · norm_num

theorem prime_47706510617 : Nat.Prime 47706510617 := by
  refine prime_of_check _ 2 [285613] ?_ (by decide +kernel)
  intro r hr
  simp only [List.mem_cons, List.not_mem_nil, or_false] at hr
  subst hr
  · exact prime_285613

theorem prime_3370273 : Nat.Prime 3370273 := by
  refine prime_of_check _ 2 [35107] ?_ (by decide +kernel)
  intro r hr
  simp only [List.mem_cons, List.not_mem_nil, or_false] at hr
  subst hr
  · norm_num

theorem prime_b2cd08d3f63_44 : Nat.Prime 12287105384291 := by
  refine prime_of_check _ 2 [3370273, 131] ?_ (by decide +kernel)
  intro r hr
  simp only [List.mem_cons, List.not_mem_nil, or_false] at hr
  rcases hr with rfl | rfl
  · exact prime_3370273
  · norm_num

theorem prime_dc76a3312a39_112 : Nat.Prime 4279211044069789419482309358332473 := by
  refine prime_of_check _ 2 [12287105384291, 47706510617] ?_ (by decide +kernel)
  intro r hr
  simp only [List.mem_cons, List.not_mem_nil, or_false] at hr
  rcases hr with rfl | rfl
  · exact prime_b2cd08d3f63_44
  · exact prime_47706510617

theorem prime_e11c2da4b2b9_126 : Nat.Prime 44332626416563018385836724952324420281 := by
  refine prime_of_check _ 2 [4279211044069789419482309358332473] ?_ (by decide +kernel)
  intro r hr
  simp only [List.mem_cons, List.not_mem_nil, or_false] at hr
  subst hr
  · exact prime_dc76a3312a39_112

theorem prime_76d03ca4c6a3_175 : Nat.Prime 27068075268954680327605328911768954348963198579033763 := by
  refine prime_of_check _ 2 [44332626416563018385836724952324420281] ?_ (by decide +kernel)
  intro r hr
  simp only [List.mem_cons, List.not_mem_nil, or_false] at hr
  subst hr
  · exact prime_e11c2da4b2b9_126

/-- `p` of c256A. -/
theorem c256A_p : Nat.Prime 0xfffffffffffffffffffffffffffffffffffffffffffffffffffffffffffffd97 := prime_fffffffffd97_256

/-- `q` of c256A. -/
theorem c256A_q : Nat.Prime 0x400000000000000000000000000000000fd8cddfc87b6635c115af556c360c67 := prime_af556c360c67_255

/-- `p` of c256B. -/
theorem c256B_p : Nat.Prime 0xfffffffffffffffffffffffffffffffffffffffffffffffffffffffffffffd97 := prime_fffffffffd97_256

/-- `q` of c256B. -/
theorem c256B_q : Nat.Prime 0xffffffffffffffffffffffffffffffff6c611070995ad10045841b09b761b893 := prime_1b09b761b893_256

/-- `p` of c256C. -/
theorem c256C_p : Nat.Prime 0x8000000000000000000000000000000000000000000000000000000000000c99 := prime_000000000c99_256

/-- `q` of c256C. -/
theorem c256C_q : Nat.Prime 0x800000000000000000000000000000015f700cfff1a624e5e497161bcc8a198f := prime_161bcc8a198f_256

/-- `p` of c256D. -/
theorem c256D_p : Nat.Prime 0x9b9f605f5a858107ab1ec85e6b41c8aacf846e86789051d37998f7b9022d759b := prime_f7b9022d759b_256

/-- `q` of c256D. -/
theorem c256D_q : Nat.Prime 0x9b9f605f5a858107ab1ec85e6b41c8aa582ca3511eddfb74f02f3a6598980bb9 := prime_3a6598980bb9_256

/-- `q` of c512A. -/
theorem c512A_q : Nat.Prime 0xffffffffffffffffffffffffffffffffffffffffffffffffffffffffffffffff27e69532f48d89116ff22b8d4e0560609b4b38abfad2b85dcacdb1411f10b275 := prime_b1411f10b275_512

/-- `p` of c512B. -/
theorem c512B_p : Nat.Prime 0x8000000000000000000000000000000000000000000000000000000000000000000000000000000000000000000000000000000000000000000000000000006f := prime_00000000006f_512

/-- `q` of c512B. -/
theorem c512B_q : Nat.Prime 0x800000000000000000000000000000000000000000000000000000000000000149a1ec142565a545acfdb77bd9d40cfa8b996712101bea0ec6346c54374f25bd := prime_6c54374f25bd_512

end Gost.Prime
