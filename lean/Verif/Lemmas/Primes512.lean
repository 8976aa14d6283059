import Verif.Lemmas.EcCompute
import Verif.Lemmas.Pocklington
import Mathlib.Tactic.NormNum.Prime

/-!
# Primality certificates

Generated by `tools/mkprimes.py`: chains of Pocklington and elliptic curve certificates, checked by the kernel.
-/

namespace Gost

namespace Primes512

theorem prime_3637 : Nat.Prime 3637 := by norm_num

theorem prime_11165591 : Nat.Prime 11165591 := by
  refine pocklington [⟨3637, 2, 2699889⟩] 24 ?_ (by decide +kernel)
  simp only [List.mem_cons, List.not_mem_nil, or_false, forall_eq_or_imp, forall_eq]
  exact prime_3637

theorem prime_736929007 : Nat.Prime 736929007 := by
  refine pocklington [⟨11165591, 2, 76190336⟩] 30 ?_ (by decide +kernel)
  simp only [List.mem_cons, List.not_mem_nil, or_false, forall_eq_or_imp, forall_eq]
  exact prime_11165591

theorem prime_26107920859997 : Nat.Prime 26107920859997 := by
  refine pocklington [⟨736929007, 2, 23366188422614⟩] 45 ?_ (by decide +kernel)
  simp only [List.mem_cons, List.not_mem_nil, or_false, forall_eq_or_imp, forall_eq]
  exact prime_736929007

theorem prime_300477804873523870479637 : Nat.Prime 300477804873523870479637 := by
  refine pocklington [⟨26107920859997, 2, 270444690018430519675502⟩] 78 ?_ (by decide +kernel)
  simp only [List.mem_cons, List.not_mem_nil, or_false, forall_eq_or_imp, forall_eq]
  exact prime_26107920859997

theorem prime_117731 : Nat.Prime 117731 := by norm_num

theorem prime_1511 : Nat.Prime 1511 := by norm_num

theorem prime_73291314893 : Nat.Prime 73291314893 := by
  refine pocklington [⟨117731, 2, 23978895534⟩, ⟨1511, 2, 58027610797⟩] 37 ?_ (by decide +kernel)
  simp only [List.mem_cons, List.not_mem_nil, or_false, forall_eq_or_imp, forall_eq]
  exact ⟨prime_117731, prime_1511⟩

theorem prime_515823797288562054649185474347905774319718187711 : Nat.Prime 515823797288562054649185474347905774319718187711 := by
  refine pocklington [⟨300477804873523870479637, 2, 468161989537672293478045230029440709298512327014⟩, ⟨73291314893, 2, 404785683844969984407521188523025609377689473014⟩] 159 ?_ (by decide +kernel)
  simp only [List.mem_cons, List.not_mem_nil, or_false, forall_eq_or_imp, forall_eq]
  exact ⟨prime_300477804873523870479637, prime_73291314893⟩

theorem prime_135171042910786219374842046210501340201405260349247914389035389865374703323 : Nat.Prime 135171042910786219374842046210501340201405260349247914389035389865374703323 := by
  refine pocklington [⟨515823797288562054649185474347905774319718187711, 2, 126040471361174018217229238120245779448372571734431296016068794280876127574⟩] 247 ?_ (by decide +kernel)
  simp only [List.mem_cons, List.not_mem_nil, or_false, forall_eq_or_imp, forall_eq]
  exact prime_515823797288562054649185474347905774319718187711

theorem prime_17031551406759063641230097822523168865377062804005237213018459123037212618699 : Nat.Prime 17031551406759063641230097822523168865377062804005237213018459123037212618699 := by
  refine pocklington [⟨135171042910786219374842046210501340201405260349247914389035389865374703323, 2, 2446404723870163993592568404049142342471315989379218692619779859976661853506⟩] 254 ?_ (by decide +kernel)
  simp only [List.mem_cons, List.not_mem_nil, or_false, forall_eq_or_imp, forall_eq]
  exact prime_135171042910786219374842046210501340201405260349247914389035389865374703323

theorem prime_807907 : Nat.Prime 807907 := by norm_num

theorem prime_190613 : Nat.Prime 190613 := by norm_num

theorem prime_2002140670174075939 : Nat.Prime 2002140670174075939 := by
  refine pocklington [⟨807907, 2, 596342569551922798⟩, ⟨190613, 2, 527028166631936852⟩] 61 ?_ (by decide +kernel)
  simp only [List.mem_cons, List.not_mem_nil, or_false, forall_eq_or_imp, forall_eq]
  exact ⟨prime_807907, prime_190613⟩

theorem prime_13932905458310476305278334845959 : Nat.Prime 13932905458310476305278334845959 := by
  refine pocklington [⟨2002140670174075939, 2, 6576625329704516894858749409229⟩] 104 ?_ (by decide +kernel)
  simp only [List.mem_cons, List.not_mem_nil, or_false, forall_eq_or_imp, forall_eq]
  exact prime_2002140670174075939

theorem prime_3351951982485649274893506249551461531869841455148098344430890360930441007518362115868300084349221274418848205850841645514717116281909345935543464929272813 : Nat.Prime 3351951982485649274893506249551461531869841455148098344430890360930441007518362115868300084349221274418848205850841645514717116281909345935543464929272813 := by
  refine pocklington [⟨17031551406759063641230097822523168865377062804005237213018459123037212618699, 2, 3184711494185160917561710661436533771800662654486557270446897675128892923975875224432258495019908459845891829483731016311053264404552589021528379527109640⟩, ⟨13932905458310476305278334845959, 2, 799448701651269137755436017441614730351137404980013341878986100510539335277275562869097095357033267919457990300305864727189061554016758046774686162596466⟩] 510 ?_ (by decide +kernel)
  simp only [List.mem_cons, List.not_mem_nil, or_false, forall_eq_or_imp, forall_eq]
  exact ⟨prime_17031551406759063641230097822523168865377062804005237213018459123037212618699, prime_13932905458310476305278334845959⟩

theorem prime_309083 : Nat.Prime 309083 := by norm_num

theorem prime_68539 : Nat.Prime 68539 := by norm_num

theorem prime_1171064772661361 : Nat.Prime 1171064772661361 := by
  refine pocklington [⟨309083, 2, 578297776702107⟩, ⟨68539, 2, 599660869810854⟩] 51 ?_ (by decide +kernel)
  simp only [List.mem_cons, List.not_mem_nil, or_false, forall_eq_or_imp, forall_eq]
  exact ⟨prime_309083, prime_68539⟩

theorem prime_234170013929188253214853 : Nat.Prime 234170013929188253214853 := by
  refine pocklington [⟨1171064772661361, 2, 123519772162659108833520⟩] 78 ?_ (by decide +kernel)
  simp only [List.mem_cons, List.not_mem_nil, or_false, forall_eq_or_imp, forall_eq]
  exact prime_1171064772661361

theorem prime_1329182762148922954238861507502774345138899 : Nat.Prime 1329182762148922954238861507502774345138899 := by
  refine pocklington [⟨234170013929188253214853, 2, 1137840479186942158712976509310358203702286⟩] 140 ?_ (by decide +kernel)
  simp only [List.mem_cons, List.not_mem_nil, or_false, forall_eq_or_imp, forall_eq]
  exact prime_234170013929188253214853

theorem prime_246975716206904179278182952727903679008025139096647647753889 : Nat.Prime 246975716206904179278182952727903679008025139096647647753889 := by
  refine pocklington [⟨1329182762148922954238861507502774345138899, 2, 8568340028449311913312533624958217027399454867881285967763⟩] 198 ?_ (by decide +kernel)
  simp only [List.mem_cons, List.not_mem_nil, or_false, forall_eq_or_imp, forall_eq]
  exact prime_1329182762148922954238861507502774345138899

theorem prime_173858950640002955167136868614299665999473672322765367989104350611756492648456949576599567761 : Nat.Prime 173858950640002955167136868614299665999473672322765367989104350611756492648456949576599567761 :=
  ecpp 168223023293744284355377431670749688494385699159051418684463714888420556976258396888489731442 162762005292962026506487259992164461683225207947730094087493395194909335403843588736051779465 9734839153454488878621760557591026562561622074497929308876660005942778803161270429695681167 117416380512193347251523042265256682756258877627406945182049566618322817762402476629834349582 246975716206904179278182952727903679008025139096647647753889 198 614 prime_246975716206904179278182952727903679008025139096647647753889 (by decide +kernel) (by decide +kernel)

theorem prime_2425344992054093149161688356125038692890345826201557463643104059607282943357434890577362847976662000289657 : Nat.Prime 2425344992054093149161688356125038692890345826201557463643104059607282943357434890577362847976662000289657 := by
  refine pocklington [⟨173858950640002955167136868614299665999473672322765367989104350611756492648456949576599567761, 2, 683531683077551516722975845264243893841887983597255475361481285740818483057854280122770170411818760590547⟩] 351 ?_ (by decide +kernel)
  simp only [List.mem_cons, List.not_mem_nil, or_false, forall_eq_or_imp, forall_eq]
  exact prime_173858950640002955167136868614299665999473672322765367989104350611756492648456949576599567761

theorem prime_1997513041376897367680832545635090963972454459313010288464978588965700197608571309521183907506074623747510468807040416499499469690921 : Nat.Prime 1997513041376897367680832545635090963972454459313010288464978588965700197608571309521183907506074623747510468807040416499499469690921 :=
  ecpp 1485117953689598320965604814201049069899539375562320030019730872090898772969705894670768191468135352347858530410909357087852714428119 1139524010739444317615129101307394591207848987594519287277576084434462739530505302072624562175318519734342265320437391470166820775321 941757118234150085493224247259344250822818794903919346697791371020377153166686556789338220207842707044463510022489765799708739992219 1388244045691392082157196881819940432229358709398049727718430798786922751113809212476786943097566661806326292335109498959003275112288 2425344992054093149161688356125038692890345826201557463643104059607282943357434890577362847976662000289657 351 880 prime_2425344992054093149161688356125038692890345826201557463643104059607282943357434890577362847976662000289657 (by decide +kernel) (by decide +kernel)

theorem prime_3623986102229003635907788753683874306021320925534678605086546150450856166623969164898305032863068499961404079437936585455865192212970734808812618120619743 : Nat.Prime 3623986102229003635907788753683874306021320925534678605086546150450856166623969164898305032863068499961404079437936585455865192212970734808812618120619743 :=
  ecpp 957115523863358538455071205174201372372030422214033212459035423047008838528665423062249023656453521668128288859814528144968155298611711784200327927759955 175887491275590593213019014576775488364634952979000618332017338179931751756773943738051244499971431642264061696776551319617633454282060598483343526552791 2954094183245452829583847701081166611986829857485142956739136288312397151664374557339815253896962108656302526493117668003325654253621178213447072174853839 938170978085170818698132051470583586908782101711137640321231570025921603097974571416731536955638009478656592105510788089626184647528645604482342211057096 1997513041376897367680832545635090963972454459313010288464978588965700197608571309521183907506074623747510468807040416499499469690921 440 1022 prime_1997513041376897367680832545635090963972454459313010288464978588965700197608571309521183907506074623747510468807040416499499469690921 (by decide +kernel) (by decide +kernel)

theorem prime_163 : Nat.Prime 163 := by norm_num

theorem prime_47 : Nat.Prime 47 := by norm_num

theorem prime_17 : Nat.Prime 17 := by norm_num

theorem prime_200564981 : Nat.Prime 200564981 := by
  refine pocklington [⟨163, 2, 89564472⟩, ⟨47, 2, 57920701⟩, ⟨17, 2, 49593119⟩] 28 ?_ (by decide +kernel)
  simp only [List.mem_cons, List.not_mem_nil, or_false, forall_eq_or_imp, forall_eq]
  exact ⟨prime_163, prime_47, prime_17⟩

theorem prime_110647 : Nat.Prime 110647 := by norm_num

theorem prime_1430222662846984519441 : Nat.Prime 1430222662846984519441 := by
  refine pocklington [⟨200564981, 2, 38096259253618244678⟩, ⟨110647, 2, 484975365915501649165⟩] 71 ?_ (by decide +kernel)
  simp only [List.mem_cons, List.not_mem_nil, or_false, forall_eq_or_imp, forall_eq]
  exact ⟨prime_200564981, prime_110647⟩

theorem prime_41959 : Nat.Prime 41959 := by norm_num

theorem prime_1258771 : Nat.Prime 1258771 := by
  refine pocklington [⟨41959, 2, 1118646⟩] 21 ?_ (by decide +kernel)
  simp only [List.mem_cons, List.not_mem_nil, or_false, forall_eq_or_imp, forall_eq]
  exact prime_41959

theorem prime_1426401534071 : Nat.Prime 1426401534071 := by
  refine pocklington [⟨1258771, 2, 494186339002⟩] 41 ?_ (by decide +kernel)
  simp only [List.mem_cons, List.not_mem_nil, or_false, forall_eq_or_imp, forall_eq]
  exact prime_1258771

theorem prime_9544023710169129179805612530077795772644249083479203 : Nat.Prime 9544023710169129179805612530077795772644249083479203 := by
  refine pocklington [⟨1430222662846984519441, 2, 8549377593918369465313833288206120987307438947250016⟩, ⟨1426401534071, 2, 3224358630066205031030514006718428459098376783621039⟩] 173 ?_ (by decide +kernel)
  simp only [List.mem_cons, List.not_mem_nil, or_false, forall_eq_or_imp, forall_eq]
  exact ⟨prime_1430222662846984519441, prime_1426401534071⟩

theorem prime_381760948406765167192224501203111830905769963339168121 : Nat.Prime 381760948406765167192224501203111830905769963339168121 := by
  refine pocklington [⟨9544023710169129179805612530077795772644249083479203, 2, 215862378788915457050796426235849100438904852090813439⟩] 178 ?_ (by decide +kernel)
  simp only [List.mem_cons, List.not_mem_nil, or_false, forall_eq_or_imp, forall_eq]
  exact prime_9544023710169129179805612530077795772644249083479203

theorem prime_539539676638146252332438762368326178374664113417997407389234042554543619981956406210579 : Nat.Prime 539539676638146252332438762368326178374664113417997407389234042554543619981956406210579 :=
  ecpp 210818395435278990401349171703391403906866879164254708318266178294533347227363946726437 438032654660522858802423929060161467985811014046972377115052805120933423182110447361916 366730514703688161352511332185900236215088604592854102471208762744183375961539620105079 29379129405803770415627314373378152605716229596823592265114172998174115238911950800364 381760948406765167192224501203111830905769963339168121 178 578 prime_381760948406765167192224501203111830905769963339168121 (by decide +kernel) (by decide +kernel)

theorem prime_6934458157477197745950681701337691716675829213065403606583048380724947236019209865952665406648463131269 : Nat.Prime 6934458157477197745950681701337691716675829213065403606583048380724947236019209865952665406648463131269 := by
  refine pocklington [⟨539539676638146252332438762368326178374664113417997407389234042554543619981956406210579, 2, 3930925899918321013852343453718408146015337912140073487858584442587079615325883990323435519378046660331⟩] 342 ?_ (by decide +kernel)
  simp only [List.mem_cons, List.not_mem_nil, or_false, forall_eq_or_imp, forall_eq]
  exact prime_539539676638146252332438762368326178374664113417997407389234042554543619981956406210579

theorem prime_47027135855253862293695221904893529952882567781986512512560214543064399068519017805091617745746803253071739920867384142251535402763 : Nat.Prime 47027135855253862293695221904893529952882567781986512512560214543064399068519017805091617745746803253071739920867384142251535402763 :=
  ecpp 27881040529339512082381595344610755399443995286583061990126982827935953766303677025053837818525629411530965615199424427915075740727 1083075035798782658381150100221003192166713827915129759404655231653297882439837502715134514943043504088158188723177555715396387214 40583055075473090097939148226217774150832428756013834635026166822171254265274716424944750075345354261537663470429475204401070107684 8505995948437416466266434239097642338868388140012576535284474639427342859522200464566355636224663769079036140426674232081361156824 6934458157477197745950681701337691716675829213065403606583048380724947236019209865952665406648463131269 342 870 prime_6934458157477197745950681701337691716675829213065403606583048380724947236019209865952665406648463131269 (by decide +kernel) (by decide +kernel)

theorem prime_5984062708607661899347632600855537484210927348675522269469949820924748277302224554948777964758927405492471738858450763827227401419949905209 : Nat.Prime 5984062708607661899347632600855537484210927348675522269469949820924748277302224554948777964758927405492471738858450763827227401419949905209 := by
  refine pocklington [⟨47027135855253862293695221904893529952882567781986512512560214543064399068519017805091617745746803253071739920867384142251535402763, 2, 3631384920794260259562944563117524356583785567436440249281833545823151828693660608049640364400626881247631146958745050333082659987699969995⟩] 462 ?_ (by decide +kernel)
  simp only [List.mem_cons, List.not_mem_nil, or_false, forall_eq_or_imp, forall_eq]
  exact prime_47027135855253862293695221904893529952882567781986512512560214543064399068519017805091617745746803253071739920867384142251535402763

theorem prime_40042164124641494154303904424381601698397925603987099649445546188323683505622961938253989390289490448175898881475679815725449685324749352309056813 : Nat.Prime 40042164124641494154303904424381601698397925603987099649445546188323683505622961938253989390289490448175898881475679815725449685324749352309056813 := by
  refine pocklington [⟨5984062708607661899347632600855537484210927348675522269469949820924748277302224554948777964758927405492471738858450763827227401419949905209, 2, 23653744816029650752779124661766557804830015122910623340503021685283913738127373208394112994085359285305954209178553641800990658413500175254488295⟩] 484 ?_ (by decide +kernel)
  simp only [List.mem_cons, List.not_mem_nil, or_false, forall_eq_or_imp, forall_eq]
  exact prime_5984062708607661899347632600855537484210927348675522269469949820924748277302224554948777964758927405492471738858450763827227401419949905209

theorem prime_233846238487906325861134801838388553918643885527284661952761989739810311672838097719403298039290624217347249467817970123836626162296536217484891787921 : Nat.Prime 233846238487906325861134801838388553918643885527284661952761989739810311672838097719403298039290624217347249467817970123836626162296536217484891787921 := by
  refine pocklington [⟨40042164124641494154303904424381601698397925603987099649445546188323683505622961938253989390289490448175898881475679815725449685324749352309056813, 2, 41038204229136054759356495582535390203805870882695693962557044446791295555169425892755786319165377445230788649135588819546851013703214804434126519887⟩] 497 ?_ (by decide +kernel)
  simp only [List.mem_cons, List.not_mem_nil, or_false, forall_eq_or_imp, forall_eq]
  exact prime_40042164124641494154303904424381601698397925603987099649445546188323683505622961938253989390289490448175898881475679815725449685324749352309056813

theorem prime_6703903964971298549787012499102923063739682910296196688861780721860882015036922585419853748190383615062910947743405567510148398820717100282856877776119229 : Nat.Prime 6703903964971298549787012499102923063739682910296196688861780721860882015036922585419853748190383615062910947743405567510148398820717100282856877776119229 := by
  refine pocklington [⟨233846238487906325861134801838388553918643885527284661952761989739810311672838097719403298039290624217347249467817970123836626162296536217484891787921, 2, 3280772037914604141313611295907319362387216320747462599171911365580396660105075775707451699452943797912172226181985672874150963604303231089899729061001655⟩] 512 ?_ (by decide +kernel)
  simp only [List.mem_cons, List.not_mem_nil, or_false, forall_eq_or_imp, forall_eq]
  exact prime_233846238487906325861134801838388553918643885527284661952761989739810311672838097719403298039290624217347249467817970123836626162296536217484891787921

theorem prime_229897 : Nat.Prime 229897 := by norm_num

theorem prime_28967023 : Nat.Prime 28967023 := by
  refine pocklington [⟨229897, 2, 17601558⟩] 25 ?_ (by decide +kernel)
  simp only [List.mem_cons, List.not_mem_nil, or_false, forall_eq_or_imp, forall_eq]
  exact prime_229897

theorem prime_17272572342533 : Nat.Prime 17272572342533 := by
  refine pocklington [⟨28967023, 2, 8138926537032⟩] 44 ?_ (by decide +kernel)
  simp only [List.mem_cons, List.not_mem_nil, or_false, forall_eq_or_imp, forall_eq]
  exact prime_28967023

theorem prime_337731401551875505519 : Nat.Prime 337731401551875505519 := by
  refine pocklington [⟨17272572342533, 2, 189506845889098817888⟩] 69 ?_ (by decide +kernel)
  simp only [List.mem_cons, List.not_mem_nil, or_false, forall_eq_or_imp, forall_eq]
  exact prime_17272572342533

theorem prime_431 : Nat.Prime 431 := by norm_num

theorem prime_23 : Nat.Prime 23 := by norm_num

theorem prime_3370421 : Nat.Prime 3370421 := by
  refine pocklington [⟨431, 2, 1522622⟩, ⟨23, 2, 786486⟩] 22 ?_ (by decide +kernel)
  simp only [List.mem_cons, List.not_mem_nil, or_false, forall_eq_or_imp, forall_eq]
  exact ⟨prime_431, prime_23⟩

theorem prime_405690834929 : Nat.Prime 405690834929 := by
  refine pocklington [⟨3370421, 2, 162012793351⟩] 39 ?_ (by decide +kernel)
  simp only [List.mem_cons, List.not_mem_nil, or_false, forall_eq_or_imp, forall_eq]
  exact prime_3370421

theorem prime_394261712727380213 : Nat.Prime 394261712727380213 := by
  refine pocklington [⟨405690834929, 2, 155016254890540612⟩] 59 ?_ (by decide +kernel)
  simp only [List.mem_cons, List.not_mem_nil, or_false, forall_eq_or_imp, forall_eq]
  exact prime_405690834929

theorem prime_926734293677401922807539456296487968545789703463419605036547983157481 : Nat.Prime 926734293677401922807539456296487968545789703463419605036547983157481 := by
  refine pocklington [⟨337731401551875505519, 2, 598711773545136234717994645104204549449540024636388248789297325526178⟩, ⟨394261712727380213, 2, 149504407340832390603036129249070033730795046526333923233548140938386⟩] 230 ?_ (by decide +kernel)
  simp only [List.mem_cons, List.not_mem_nil, or_false, forall_eq_or_imp, forall_eq]
  exact ⟨prime_337731401551875505519, prime_394261712727380213⟩

theorem prime_156653000495853514427094966475056866493477049445338089663954622108777301298738109970223050607345391305841500928811 : Nat.Prime 156653000495853514427094966475056866493477049445338089663954622108777301298738109970223050607345391305841500928811 := by
  refine pocklington [⟨926734293677401922807539456296487968545789703463419605036547983157481, 2, 136986000473906414065733391313105735722154865544138502395019671696827540643708117890031988668226142539585305227858⟩] 377 ?_ (by decide +kernel)
  simp only [List.mem_cons, List.not_mem_nil, or_false, forall_eq_or_imp, forall_eq]
  exact prime_926734293677401922807539456296487968545789703463419605036547983157481

theorem prime_13407807929942597099574024998205846127479365820592393377723561443721764030073449232318290585817636498049628612556596899500625279906416653993875474742293109 : Nat.Prime 13407807929942597099574024998205846127479365820592393377723561443721764030073449232318290585817636498049628612556596899500625279906416653993875474742293109 := by
  refine pocklington [⟨156653000495853514427094966475056866493477049445338089663954622108777301298738109970223050607345391305841500928811, 2, 548896718712748143789188984318123370604094380163764473107014540648016442729465440069572550095154660952000380147336061832495015536601871885024592449048155⟩] 512 ?_ (by decide +kernel)
  simp only [List.mem_cons, List.not_mem_nil, or_false, forall_eq_or_imp, forall_eq]
  exact prime_156653000495853514427094966475056866493477049445338089663954622108777301298738109970223050607345391305841500928811

end Primes512

theorem prime_q_512c : Nat.Prime 0x3FFFFFFFFFFFFFFFFFFFFFFFFFFFFFFFFFFFFFFFFFFFFFFFFFFFFFFFFFFFFFFFC98CDBA46506AB004C33A9FF5147502CC8EDA9E7A769A12694623CEF47F023ED := Primes512.prime_3351951982485649274893506249551461531869841455148098344430890360930441007518362115868300084349221274418848205850841645514717116281909345935543464929272813

theorem prime_q_512t : Nat.Prime 0x4531ACD1FE0023C7550D267B6B2FEE80922B14B2FFB90F04D4EB7C09B5D2D15DA82F2D7ECB1DBAC719905C5EECC423F1D86E25EDBE23C595D644AAF187E6E6DF := Primes512.prime_3623986102229003635907788753683874306021320925534678605086546150450856166623969164898305032863068499961404079437936585455865192212970734808812618120619743

theorem prime_q_512b : Nat.Prime 0x800000000000000000000000000000000000000000000000000000000000000149A1EC142565A545ACFDB77BD9D40CFA8B996712101BEA0EC6346C54374F25BD := Primes512.prime_6703903964971298549787012499102923063739682910296196688861780721860882015036922585419853748190383615062910947743405567510148398820717100282856877776119229

theorem prime_q_512a : Nat.Prime 0xFFFFFFFFFFFFFFFFFFFFFFFFFFFFFFFFFFFFFFFFFFFFFFFFFFFFFFFFFFFFFFFF27E69532F48D89116FF22B8D4E0560609B4B38ABFAD2B85DCACDB1411F10B275 := Primes512.prime_13407807929942597099574024998205846127479365820592393377723561443721764030073449232318290585817636498049628612556596899500625279906416653993875474742293109

end Gost
