{"3637": null, "11165591": [["3637", "2", "2699889"]], "736929007": [["11165591", "2", "76190336"]], "26107920859997": [["736929007", "2", "23366188422614"]], "300477804873523870479637": [["26107920859997", "2", "270444690018430519675502"]], "117731": null, "1511": null, "73291314893": [["117731", "2", "23978895534"], ["1511", "2", "58027610797"]], "515823797288562054649185474347905774319718187711": [["300477804873523870479637", "2", "468161989537672293478045230029440709298512327014"], ["73291314893", "2", "404785683844969984407521188523025609377689473014"]], "135171042910786219374842046210501340201405260349247914389035389865374703323": [["515823797288562054649185474347905774319718187711", "2", "126040471361174018217229238120245779448372571734431296016068794280876127574"]], "17031551406759063641230097822523168865377062804005237213018459123037212618699": [["135171042910786219374842046210501340201405260349247914389035389865374703323", "2", "2446404723870163993592568404049142342471315989379218692619779859976661853506"]], "807907": null, "190613": null, "2002140670174075939": [["807907", "2", "596342569551922798"], ["190613", "2", "527028166631936852"]], "13932905458310476305278334845959": [["2002140670174075939", "2", "6576625329704516894858749409229"]], "3351951982485649274893506249551461531869841455148098344430890360930441007518362115868300084349221274418848205850841645514717116281909345935543464929272813": [["17031551406759063641230097822523168865377062804005237213018459123037212618699", "2", "3184711494185160917561710661436533771800662654486557270446897675128892923975875224432258495019908459845891829483731016311053264404552589021528379527109640"], ["13932905458310476305278334845959", "2", "799448701651269137755436017441614730351137404980013341878986100510539335277275562869097095357033267919457990300305864727189061554016758046774686162596466"]]}