{"229897": null, "28967023": [["229897", "2", "17601558"]], "17272572342533": [["28967023", "2", "8138926537032"]], "337731401551875505519": [["17272572342533", "2", "189506845889098817888"]], "431": null, "23": null, "3370421": [["431", "2", "1522622"], ["23", "2", "786486"]], "405690834929": [["3370421", "2", "162012793351"]], "394261712727380213": [["405690834929", "2", "155016254890540612"]], "926734293677401922807539456296487968545789703463419605036547983157481": [["337731401551875505519", "2", "598711773545136234717994645104204549449540024636388248789297325526178"], ["394261712727380213", "2", "149504407340832390603036129249070033730795046526333923233548140938386"]], "156653000495853514427094966475056866493477049445338089663954622108777301298738109970223050607345391305841500928811": [["926734293677401922807539456296487968545789703463419605036547983157481", "2", "136986000473906414065733391313105735722154865544138502395019671696827540643708117890031988668226142539585305227858"]], "13407807929942597099574024998205846127479365820592393377723561443721764030073449232318290585817636498049628612556596899500625279906416653993875474742293109": [["156653000495853514427094966475056866493477049445338089663954622108777301298738109970223050607345391305841500928811", "2", "548896718712748143789188984318123370604094380163764473107014540648016442729465440069572550095154660952000380147336061832495015536601871885024592449048155"]]}