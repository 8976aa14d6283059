{"163": null, "47": null, "17": null, "200564981": ["poc", [["163", "2", "89564472"], ["47", "2", "57920701"], ["17", "2", "49593119"]]], "110647": null, "1430222662846984519441": ["poc", [["200564981", "2", "38096259253618244678"], ["110647", "2", "484975365915501649165"]]], "41959": null, "1258771": ["poc", [["41959", "2", "1118646"]]], "1426401534071": ["poc", [["1258771", "2", "494186339002"]]], "9544023710169129179805612530077795772644249083479203": ["poc", [["1430222662846984519441", "2", "8549377593918369465313833288206120987307438947250016"], ["1426401534071", "2", "3224358630066205031030514006718428459098376783621039"]]], "381760948406765167192224501203111830905769963339168121": ["poc", [["9544023710169129179805612530077795772644249083479203", "2", "215862378788915457050796426235849100438904852090813439"]]], "539539676638146252332438762368326178374664113417997407389234042554543619981956406210579": ["ec", "381760948406765167192224501203111830905769963339168121", ["210818395435278990401349171703391403906866879164254708318266178294533347227363946726437", "438032654660522858802423929060161467985811014046972377115052805120933423182110447361916", "366730514703688161352511332185900236215088604592854102471208762744183375961539620105079", "29379129405803770415627314373378152605716229596823592265114172998174115238911950800364"]], "6934458157477197745950681701337691716675829213065403606583048380724947236019209865952665406648463131269": ["poc", [["539539676638146252332438762368326178374664113417997407389234042554543619981956406210579", "2", "3930925899918321013852343453718408146015337912140073487858584442587079615325883990323435519378046660331"]]], "47027135855253862293695221904893529952882567781986512512560214543064399068519017805091617745746803253071739920867384142251535402763": ["ec", "6934458157477197745950681701337691716675829213065403606583048380724947236019209865952665406648463131269", ["27881040529339512082381595344610755399443995286583061990126982827935953766303677025053837818525629411530965615199424427915075740727", "1083075035798782658381150100221003192166713827915129759404655231653297882439837502715134514943043504088158188723177555715396387214", "40583055075473090097939148226217774150832428756013834635026166822171254265274716424944750075345354261537663470429475204401070107684", "8505995948437416466266434239097642338868388140012576535284474639427342859522200464566355636224663769079036140426674232081361156824"]], "5984062708607661899347632600855537484210927348675522269469949820924748277302224554948777964758927405492471738858450763827227401419949905209": ["poc", [["47027135855253862293695221904893529952882567781986512512560214543064399068519017805091617745746803253071739920867384142251535402763", "2", "3631384920794260259562944563117524356583785567436440249281833545823151828693660608049640364400626881247631146958745050333082659987699969995"]]], "40042164124641494154303904424381601698397925603987099649445546188323683505622961938253989390289490448175898881475679815725449685324749352309056813": ["poc", [["5984062708607661899347632600855537484210927348675522269469949820924748277302224554948777964758927405492471738858450763827227401419949905209", "2", "23653744816029650752779124661766557804830015122910623340503021685283913738127373208394112994085359285305954209178553641800990658413500175254488295"]]], "233846238487906325861134801838388553918643885527284661952761989739810311672838097719403298039290624217347249467817970123836626162296536217484891787921": ["poc", [["40042164124641494154303904424381601698397925603987099649445546188323683505622961938253989390289490448175898881475679815725449685324749352309056813", "2", "41038204229136054759356495582535390203805870882695693962557044446791295555169425892755786319165377445230788649135588819546851013703214804434126519887"]]], "6703903964971298549787012499102923063739682910296196688861780721860882015036922585419853748190383615062910947743405567510148398820717100282856877776119229": ["poc", [["233846238487906325861134801838388553918643885527284661952761989739810311672838097719403298039290624217347249467817970123836626162296536217484891787921", "2", "3280772037914604141313611295907319362387216320747462599171911365580396660105075775707451699452943797912172226181985672874150963604303231089899729061001655"]]]}