{"309083": null, "68539": null, "1171064772661361": ["poc", [["309083", "2", "578297776702107"], ["68539", "2", "599660869810854"]]], "234170013929188253214853": ["poc", [["1171064772661361", "2", "123519772162659108833520"]]], "1329182762148922954238861507502774345138899": ["poc", [["234170013929188253214853", "2", "1137840479186942158712976509310358203702286"]]], "246975716206904179278182952727903679008025139096647647753889": ["poc", [["1329182762148922954238861507502774345138899", "2", "8568340028449311913312533624958217027399454867881285967763"]]], "173858950640002955167136868614299665999473672322765367989104350611756492648456949576599567761": ["ec", "246975716206904179278182952727903679008025139096647647753889", ["168223023293744284355377431670749688494385699159051418684463714888420556976258396888489731442", "162762005292962026506487259992164461683225207947730094087493395194909335403843588736051779465", "9734839153454488878621760557591026562561622074497929308876660005942778803161270429695681167", "117416380512193347251523042265256682756258877627406945182049566618322817762402476629834349582"]], "2425344992054093149161688356125038692890345826201557463643104059607282943357434890577362847976662000289657": ["poc", [["173858950640002955167136868614299665999473672322765367989104350611756492648456949576599567761", "2", "683531683077551516722975845264243893841887983597255475361481285740818483057854280122770170411818760590547"]]], "1997513041376897367680832545635090963972454459313010288464978588965700197608571309521183907506074623747510468807040416499499469690921": ["ec", "2425344992054093149161688356125038692890345826201557463643104059607282943357434890577362847976662000289657", ["1485117953689598320965604814201049069899539375562320030019730872090898772969705894670768191468135352347858530410909357087852714428119", "1139524010739444317615129101307394591207848987594519287277576084434462739530505302072624562175318519734342265320437391470166820775321", "941757118234150085493224247259344250822818794903919346697791371020377153166686556789338220207842707044463510022489765799708739992219", "1388244045691392082157196881819940432229358709398049727718430798786922751113809212476786943097566661806326292335109498959003275112288"]], "3623986102229003635907788753683874306021320925534678605086546150450856166623969164898305032863068499961404079437936585455865192212970734808812618120619743": ["ec", "1997513041376897367680832545635090963972454459313010288464978588965700197608571309521183907506074623747510468807040416499499469690921", ["957115523863358538455071205174201372372030422214033212459035423047008838528665423062249023656453521668128288859814528144968155298611711784200327927759955", "175887491275590593213019014576775488364634952979000618332017338179931751756773943738051244499971431642264061696776551319617633454282060598483343526552791", "2954094183245452829583847701081166611986829857485142956739136288312397151664374557339815253896962108656302526493117668003325654253621178213447072174853839", "938170978085170818698132051470583586908782101711137640321231570025921603097974571416731536955638009478656592105510788089626184647528645604482342211057096"]]}