import Verif.Lemmas.EcCompute
import Verif.Lemmas.Pocklington
import Mathlib.Tactic.NormNum.Prime

/-!
# Primality certificates

Generated by `tools/mkprimes.py`: chains of Pocklington and elliptic curve certificates, checked by the kernel.
-/

namespace Gost

namespace Primes256

theorem prime_11117 : Nat.Prime 11117 := by norm_num

theorem prime_8293283 : Nat.Prime 8293283 := by
  refine pocklington [⟨11117, 2, 4828471⟩] 23 ?_ (by decide +kernel)
  simp only [List.mem_cons, List.not_mem_nil, or_false, forall_eq_or_imp, forall_eq]
  exact prime_11117

theorem prime_349 : Nat.Prime 349 := by norm_num

theorem prime_17 : Nat.Prime 17 := by norm_num

theorem prime_6016063 : Nat.Prime 6016063 := by
  refine pocklington [⟨349, 2, 3191248⟩, ⟨17, 2, 927939⟩] 23 ?_ (by decide +kernel)
  simp only [List.mem_cons, List.not_mem_nil, or_false, forall_eq_or_imp, forall_eq]
  exact ⟨prime_349, prime_17⟩

theorem prime_4490362170434611 : Nat.Prime 4490362170434611 := by
  refine pocklington [⟨8293283, 2, 1480632575026203⟩, ⟨6016063, 2, 2699636031698810⟩] 52 ?_ (by decide +kernel)
  simp only [List.mem_cons, List.not_mem_nil, or_false, forall_eq_or_imp, forall_eq]
  exact ⟨prime_8293283, prime_6016063⟩

theorem prime_200499081756742501704908413 : Nat.Prime 200499081756742501704908413 := by
  refine pocklington [⟨4490362170434611, 2, 168115841024595681516178109⟩] 88 ?_ (by decide +kernel)
  simp only [List.mem_cons, List.not_mem_nil, or_false, forall_eq_or_imp, forall_eq]
  exact prime_4490362170434611

theorem prime_46916785131077745398948568643 : Nat.Prime 46916785131077745398948568643 := by
  refine pocklington [⟨200499081756742501704908413, 2, 9477092828071769108793679916⟩] 96 ?_ (by decide +kernel)
  simp only [List.mem_cons, List.not_mem_nil, or_false, forall_eq_or_imp, forall_eq]
  exact prime_200499081756742501704908413

theorem prime_3931736492670839143743017191070058480879893 : Nat.Prime 3931736492670839143743017191070058480879893 := by
  refine pocklington [⟨46916785131077745398948568643, 2, 2566593664141214535466662438264396744464726⟩] 142 ?_ (by decide +kernel)
  simp only [List.mem_cons, List.not_mem_nil, or_false, forall_eq_or_imp, forall_eq]
  exact prime_46916785131077745398948568643

theorem prime_9063250566477473029396601832239191284702116561707029881813448155537110319 : Nat.Prime 9063250566477473029396601832239191284702116561707029881813448155537110319 := by
  refine pocklington [⟨3931736492670839143743017191070058480879893, 2, 7034126162643125672724792241857791056533965452745999145488939042823913632⟩] 243 ?_ (by decide +kernel)
  simp only [List.mem_cons, List.not_mem_nil, or_false, forall_eq_or_imp, forall_eq]
  exact prime_3931736492670839143743017191070058480879893

theorem prime_28948022309329048855892746252171976963338560298092253442512153408785530358887 : Nat.Prime 28948022309329048855892746252171976963338560298092253442512153408785530358887 := by
  refine pocklington [⟨9063250566477473029396601832239191284702116561707029881813448155537110319, 2, 24292368581643473196453972151497998128099747861554138537523049931172797022302⟩] 255 ?_ (by decide +kernel)
  simp only [List.mem_cons, List.not_mem_nil, or_false, forall_eq_or_imp, forall_eq]
  exact prime_9063250566477473029396601832239191284702116561707029881813448155537110319

theorem prime_2843 : Nat.Prime 2843 := by norm_num

theorem prime_733 : Nat.Prime 733 := by norm_num

theorem prime_13128689701 : Nat.Prime 13128689701 := by
  refine pocklington [⟨2843, 2, 9580069776⟩, ⟨733, 2, 10335297839⟩] 34 ?_ (by decide +kernel)
  simp only [List.mem_cons, List.not_mem_nil, or_false, forall_eq_or_imp, forall_eq]
  exact ⟨prime_2843, prime_733⟩

theorem prime_138452816382647330969 : Nat.Prime 138452816382647330969 := by
  refine pocklington [⟨13128689701, 2, 15300045002273069413⟩] 67 ?_ (by decide +kernel)
  simp only [List.mem_cons, List.not_mem_nil, or_false, forall_eq_or_imp, forall_eq]
  exact prime_13128689701

theorem prime_1063 : Nat.Prime 1063 := by norm_num

theorem prime_11 : Nat.Prime 11 := by norm_num

theorem prime_7 : Nat.Prime 7 := by norm_num

theorem prime_198897931 : Nat.Prime 198897931 := by
  refine pocklington [⟨1063, 2, 26708454⟩, ⟨11, 2, 156405420⟩, ⟨7, 2, 32810143⟩] 28 ?_ (by decide +kernel)
  simp only [List.mem_cons, List.not_mem_nil, or_false, forall_eq_or_imp, forall_eq]
  exact ⟨prime_1063, prime_11, prime_7⟩

theorem prime_13127263447 : Nat.Prime 13127263447 := by
  refine pocklington [⟨198897931, 2, 12547304295⟩] 34 ?_ (by decide +kernel)
  simp only [List.mem_cons, List.not_mem_nil, or_false, forall_eq_or_imp, forall_eq]
  exact prime_198897931

theorem prime_30691541939087 : Nat.Prime 30691541939087 := by
  refine pocklington [⟨13127263447, 2, 668136856335⟩] 45 ?_ (by decide +kernel)
  simp only [List.mem_cons, List.not_mem_nil, or_false, forall_eq_or_imp, forall_eq]
  exact prime_13127263447

theorem prime_10264479286108256281 : Nat.Prime 10264479286108256281 := by
  refine pocklington [⟨30691541939087, 2, 8816454455903124511⟩] 64 ?_ (by decide +kernel)
  simp only [List.mem_cons, List.not_mem_nil, or_false, forall_eq_or_imp, forall_eq]
  exact prime_30691541939087

theorem prime_296379762614331847955351590674378453956751398521495687 : Nat.Prime 296379762614331847955351590674378453956751398521495687 := by
  refine pocklington [⟨138452816382647330969, 2, 95798094832671086541467849670999136200130990368949746⟩, ⟨10264479286108256281, 2, 201765172724696247027772286659275649097673966965975657⟩] 178 ?_ (by decide +kernel)
  simp only [List.mem_cons, List.not_mem_nil, or_false, forall_eq_or_imp, forall_eq]
  exact ⟨prime_138452816382647330969, prime_10264479286108256281⟩

theorem prime_57896044618658097711785492504343953927082934583725450622380973592137631069619 : Nat.Prime 57896044618658097711785492504343953927082934583725450622380973592137631069619 := by
  refine pocklington [⟨296379762614331847955351590674378453956751398521495687, 2, 54470367955736231426979521199636705512397715568445245376278105703530280567445⟩] 256 ?_ (by decide +kernel)
  simp only [List.mem_cons, List.not_mem_nil, or_false, forall_eq_or_imp, forall_eq]
  exact prime_296379762614331847955351590674378453956751398521495687

theorem prime_72871 : Nat.Prime 72871 := by norm_num

theorem prime_1697 : Nat.Prime 1697 := by norm_num

theorem prime_11871560353 : Nat.Prime 11871560353 := by
  refine pocklington [⟨72871, 2, 4247524225⟩, ⟨1697, 2, 6392729694⟩] 34 ?_ (by decide +kernel)
  simp only [List.mem_cons, List.not_mem_nil, or_false, forall_eq_or_imp, forall_eq]
  exact ⟨prime_72871, prime_1697⟩

theorem prime_584663 : Nat.Prime 584663 := by norm_num

theorem prime_1169327 : Nat.Prime 1169327 := by
  refine pocklington [⟨584663, 2, 389776⟩] 21 ?_ (by decide +kernel)
  simp only [List.mem_cons, List.not_mem_nil, or_false, forall_eq_or_imp, forall_eq]
  exact prime_584663

theorem prime_149534060761757266733 : Nat.Prime 149534060761757266733 := by
  refine pocklington [⟨11871560353, 2, 61680273913378957716⟩, ⟨1169327, 2, 68038899055771849444⟩] 68 ?_ (by decide +kernel)
  simp only [List.mem_cons, List.not_mem_nil, or_false, forall_eq_or_imp, forall_eq]
  exact ⟨prime_11871560353, prime_1169327⟩

theorem prime_498089 : Nat.Prime 498089 := by norm_num

theorem prime_36858587 : Nat.Prime 36858587 := by
  refine pocklington [⟨498089, 2, 6573041⟩] 26 ?_ (by decide +kernel)
  simp only [List.mem_cons, List.not_mem_nil, or_false, forall_eq_or_imp, forall_eq]
  exact prime_498089

theorem prime_434415306383 : Nat.Prime 434415306383 := by
  refine pocklington [⟨36858587, 2, 18906146143⟩] 39 ?_ (by decide +kernel)
  simp only [List.mem_cons, List.not_mem_nil, or_false, forall_eq_or_imp, forall_eq]
  exact prime_36858587

theorem prime_3179810722570773882487420182434062983086216957 : Nat.Prime 3179810722570773882487420182434062983086216957 := by
  refine pocklington [⟨149534060761757266733, 2, 1131198889788821689777097254823043798829201810⟩, ⟨434415306383, 2, 2735321266448532755245222384371173933381523782⟩] 152 ?_ (by decide +kernel)
  simp only [List.mem_cons, List.not_mem_nil, or_false, forall_eq_or_imp, forall_eq]
  exact ⟨prime_149534060761757266733, prime_434415306383⟩

theorem prime_611535319489737880361765400867656717933201264526640746251 : Nat.Prime 611535319489737880361765400867656717933201264526640746251 := by
  refine pocklington [⟨3179810722570773882487420182434062983086216957, 2, 471413934487769432374251828280751092679839132827820112756⟩] 189 ?_ (by decide +kernel)
  simp only [List.mem_cons, List.not_mem_nil, or_false, forall_eq_or_imp, forall_eq]
  exact prime_3179810722570773882487420182434062983086216957

theorem prime_57896044618658097711785492504343953927102133160255826820068844496087732066703 : Nat.Prime 57896044618658097711785492504343953927102133160255826820068844496087732066703 := by
  refine pocklington [⟨611535319489737880361765400867656717933201264526640746251, 2, 35234120789041054753050344290272704651564156926587979179037569654741169670773⟩] 256 ?_ (by decide +kernel)
  simp only [List.mem_cons, List.not_mem_nil, or_false, forall_eq_or_imp, forall_eq]
  exact prime_611535319489737880361765400867656717933201264526640746251

theorem prime_359 : Nat.Prime 359 := by norm_num

theorem prime_113 : Nat.Prime 113 := by norm_num

theorem prime_1947217 : Nat.Prime 1947217 := by
  refine pocklington [⟨359, 2, 1047506⟩, ⟨113, 2, 464550⟩] 21 ?_ (by decide +kernel)
  simp only [List.mem_cons, List.not_mem_nil, or_false, forall_eq_or_imp, forall_eq]
  exact ⟨prime_359, prime_113⟩

theorem prime_902089 : Nat.Prime 902089 := by norm_num

theorem prime_17565630363131 : Nat.Prime 17565630363131 := by
  refine pocklington [⟨1947217, 2, 17365487221108⟩, ⟨902089, 2, 133168282058⟩] 44 ?_ (by decide +kernel)
  simp only [List.mem_cons, List.not_mem_nil, or_false, forall_eq_or_imp, forall_eq]
  exact ⟨prime_1947217, prime_902089⟩

theorem prime_217319 : Nat.Prime 217319 := by norm_num

theorem prime_1861 : Nat.Prime 1861 := by norm_num

theorem prime_66326628077 : Nat.Prime 66326628077 := by
  refine pocklington [⟨217319, 2, 12481434901⟩, ⟨1861, 2, 40410636978⟩] 36 ?_ (by decide +kernel)
  simp only [List.mem_cons, List.not_mem_nil, or_false, forall_eq_or_imp, forall_eq]
  exact ⟨prime_217319, prime_1861⟩

theorem prime_260862815097120313262827914162129492639311 : Nat.Prime 260862815097120313262827914162129492639311 := by
  refine pocklington [⟨17565630363131, 2, 4494067899069234335342840398882879775629⟩, ⟨66326628077, 2, 109057837468879902502751419702356974208337⟩] 138 ?_ (by decide +kernel)
  simp only [List.mem_cons, List.not_mem_nil, or_false, forall_eq_or_imp, forall_eq]
  exact ⟨prime_17565630363131, prime_66326628077⟩

theorem prime_70390085352083305199547718019018437840920882647164081035322601458352298396601 : Nat.Prime 70390085352083305199547718019018437840920882647164081035322601458352298396601 := by
  refine pocklington [⟨260862815097120313262827914162129492639311, 2, 39585179798880746203555743323571199667568456810309233095247725320295213046260⟩] 256 ?_ (by decide +kernel)
  simp only [List.mem_cons, List.not_mem_nil, or_false, forall_eq_or_imp, forall_eq]
  exact prime_260862815097120313262827914162129492639311

theorem prime_835897 : Nat.Prime 835897 := by norm_num

theorem prime_1231 : Nat.Prime 1231 := by norm_num

theorem prime_674835817691569 : Nat.Prime 674835817691569 := by
  refine pocklington [⟨835897, 2, 68956115520221⟩, ⟨1231, 2, 104244327553254⟩] 50 ?_ (by decide +kernel)
  simp only [List.mem_cons, List.not_mem_nil, or_false, forall_eq_or_imp, forall_eq]
  exact ⟨prime_835897, prime_1231⟩

theorem prime_203279892443917995271553621 : Nat.Prime 203279892443917995271553621 := by
  refine pocklington [⟨674835817691569, 2, 188684732053507132343261780⟩] 88 ?_ (by decide +kernel)
  simp only [List.mem_cons, List.not_mem_nil, or_false, forall_eq_or_imp, forall_eq]
  exact prime_674835817691569

theorem prime_65731 : Nat.Prime 65731 := by norm_num

theorem prime_591973387 : Nat.Prime 591973387 := by
  refine pocklington [⟨65731, 2, 182166532⟩] 30 ?_ (by decide +kernel)
  simp only [List.mem_cons, List.not_mem_nil, or_false, forall_eq_or_imp, forall_eq]
  exact prime_65731

theorem prime_91314262838299 : Nat.Prime 91314262838299 := by
  refine pocklington [⟨591973387, 2, 21778215185153⟩] 47 ?_ (by decide +kernel)
  simp only [List.mem_cons, List.not_mem_nil, or_false, forall_eq_or_imp, forall_eq]
  exact prime_591973387

theorem prime_50791017540450015071456350284045037169936855765408748581 : Nat.Prime 50791017540450015071456350284045037169936855765408748581 := by
  refine pocklington [⟨203279892443917995271553621, 2, 10522302696844141833704654411382603439451047063430090773⟩, ⟨91314262838299, 2, 14932937865205459923345687700484942729103748242283129636⟩] 186 ?_ (by decide +kernel)
  simp only [List.mem_cons, List.not_mem_nil, or_false, forall_eq_or_imp, forall_eq]
  exact ⟨prime_203279892443917995271553621, prime_91314262838299⟩

theorem prime_115792089237316195423570985008687907853073762908499243225378155805079068850323 : Nat.Prime 115792089237316195423570985008687907853073762908499243225378155805079068850323 := by
  refine pocklington [⟨50791017540450015071456350284045037169936855765408748581, 2, 95942782845218168071121580154439858459303856030010190829138617425420981635801⟩] 256 ?_ (by decide +kernel)
  simp only [List.mem_cons, List.not_mem_nil, or_false, forall_eq_or_imp, forall_eq]
  exact prime_50791017540450015071456350284045037169936855765408748581

end Primes256

theorem prime_q_256a : Nat.Prime 0x400000000000000000000000000000000FD8CDDFC87B6635C115AF556C360C67 := Primes256.prime_28948022309329048855892746252171976963338560298092253442512153408785530358887

theorem prime_q_test : Nat.Prime 0x8000000000000000000000000000000150FE8A1892976154C59CFC193ACCF5B3 := Primes256.prime_57896044618658097711785492504343953927082934583725450622380973592137631069619

theorem prime_q_cpb : Nat.Prime 0x800000000000000000000000000000015F700CFFF1A624E5E497161BCC8A198F := Primes256.prime_57896044618658097711785492504343953927102133160255826820068844496087732066703

theorem prime_q_cpc : Nat.Prime 0x9B9F605F5A858107AB1EC85E6B41C8AA582CA3511EDDFB74F02F3A6598980BB9 := Primes256.prime_70390085352083305199547718019018437840920882647164081035322601458352298396601

theorem prime_q_cpa : Nat.Prime 0xFFFFFFFFFFFFFFFFFFFFFFFFFFFFFFFF6C611070995AD10045841B09B761B893 := Primes256.prime_115792089237316195423570985008687907853073762908499243225378155805079068850323

end Gost
